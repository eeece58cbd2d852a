/-!
# Go byte strings

A Go `string` or `[]byte` is an arbitrary sequence of bytes.  The functions of
this file model the parts of package `strings`/`bytes` that spreak uses.  They are
not code of /repo; they are part of the trusted reading of the Go library.
-/
namespace Verif.Go

/-- Go `string` / `[]byte`. -/
abbrev Bytes := List UInt8

/-- `b!"text"` is the list of UTF-8 bytes of the literal. -/
syntax:max (name := bytesLit) "b!" str : term

open Lean in
macro_rules
  | `(b!$s:str) => do
    let bytes := s.getString.toUTF8.toList
    let elems ← bytes.toArray.mapM fun b => `(term| $(Syntax.mkNumLit (toString b.toNat)):num)
    `(([$elems,*] : List UInt8))

/-- Run-time faults (panics) of Go code. -/
inductive Fault where
  | indexOutOfRange
  | nilDereference
  | divideByZero
  | explicitPanic
  | nilMapWrite
  deriving DecidableEq, Repr

/-- A computation that may panic. -/
abbrev Run (α : Type) := Except Fault α

instance instDecidableEqExcept {ε α} [DecidableEq ε] [DecidableEq α] : DecidableEq (Except ε α) := fun
  | .ok a, .ok b => if h : a = b then .isTrue (by rw [h]) else .isFalse (by simpa using h)
  | .error a, .error b => if h : a = b then .isTrue (by rw [h]) else .isFalse (by simpa using h)
  | .ok _, .error _ => .isFalse (by simp)
  | .error _, .ok _ => .isFalse (by simp)

/-- `strings.Split(s, sep)` for a one byte separator. -/
def splitByte (sep : UInt8) : Bytes → List Bytes
  | [] => [[]]
  | c :: cs =>
    if c = sep then [] :: splitByte sep cs
    else match splitByte sep cs with
      | [] => [[c]]
      | l :: ls => (c :: l) :: ls

/-- `strings.Join(ls, sep)`. -/
def join (sep : Bytes) : List Bytes → Bytes
  | [] => []
  | [l] => l
  | l :: ls => l ++ sep ++ join sep ls

/-- `strings.IndexByte(s, c)`, `none` for -1. -/
def indexByte? (c : UInt8) : Bytes → Option Nat
  | [] => none
  | x :: xs => if x = c then some 0 else (indexByte? c xs).map (· + 1)

/-- `strings.LastIndexByte(s, c)`, `none` for -1. -/
def lastIndexByte? (c : UInt8) : Bytes → Option Nat
  | [] => none
  | x :: xs =>
    match lastIndexByte? c xs with
    | some i => some (i + 1)
    | none => if x = c then some 0 else none

/-- `strings.HasPrefix(s, p)`. -/
def hasPrefix (s p : Bytes) : Bool := p.isPrefixOf s

/-- Go slice `s[i:j]` for `i ≤ j ≤ len s`. -/
def slice (s : Bytes) (i j : Nat) : Bytes := (s.take j).drop i

end Verif.Go
