import Verif.Model.Cldr.Category
/-!
# CLDR plural rules

Written from the Unicode standard UTS 35, part 3, "Language Plural Rules", without reference to the
code (only the enumeration of the categories is shared).
-/
namespace Verif.Spec.Cldr
open Verif.Cldr

/-- A non-negative fraction. -/
structure Q where
  num : Nat
  den : Nat

/-- The fraction is the integer `k`. -/
def Q.Is (q : Q) (k : Nat) : Prop := q.num = k * q.den

instance (q : Q) (k : Nat) : Decidable (q.Is k) := inferInstanceAs (Decidable (_ = _))

/-- The remainder of a fraction after division by `m`. -/
def Q.mod (q : Q) (m : Nat) : Q := ⟨q.num % (m * q.den), q.den⟩

/-- The operands of UTS 35: absolute value, integer digits, number of visible fraction digits with
and without trailing zeros, the visible fraction digits with and without trailing zeros, and the
compact exponent. -/
structure Ops where
  n : Q
  i : Nat
  v : Nat
  w : Nat
  f : Nat
  t : Nat
  e : Nat

inductive Opd
  | n | i | v | w | f | t | e
  deriving DecidableEq

/-- `operand % mod (= | !=) range_list`; a range is a pair of bounds, a value a pair of equal
bounds written as one number. -/
structure Rel where
  opd : Opd
  mod : Option Nat
  neg : Bool
  items : List (Nat × Option Nat)

/-- `and_condition ('or' and_condition)*`. -/
abbrev Cond := List (List Rel)

def Ops.get (o : Ops) : Opd → Q
  | .n => o.n
  | .i => ⟨o.i, 1⟩
  | .v => ⟨o.v, 1⟩
  | .w => ⟨o.w, 1⟩
  | .f => ⟨o.f, 1⟩
  | .t => ⟨o.t, 1⟩
  | .e => ⟨o.e, 1⟩

def Rel.value (r : Rel) (o : Ops) : Q :=
  match r.mod with
  | none => o.get r.opd
  | some m => (o.get r.opd).mod m

/-- The value is an integer between the bounds. -/
def Q.In (q : Q) (it : Nat × Option Nat) : Prop :=
  ∃ k, it.1 ≤ k ∧ k ≤ it.2.getD it.1 ∧ q.Is k

def Rel.Holds (r : Rel) (o : Ops) : Prop :=
  if r.neg then ¬ ∃ it ∈ r.items, (r.value o).In it else ∃ it ∈ r.items, (r.value o).In it

def Cond.Holds (c : Cond) (o : Ops) : Prop := ∃ conj ∈ c, ∀ r ∈ conj, r.Holds o

/-- The rules of a language in the order in which UTS 35 lists the categories; `other` is what
remains.  `Selects rules o c`: the first rule that holds has the category `c`. -/
inductive Selects (o : Ops) : List (Category × Cond) → Category → Prop
  | other : Selects o [] .other
  | hit {c cond rest} : Cond.Holds cond o → Selects o ((c, cond) :: rest) c
  | skip {c cond rest d} : ¬ Cond.Holds cond o → Selects o rest d →
      Selects o ((c, cond) :: rest) d

/-! ## The text of a rule -/

/-- Decimal digits. -/
def dec (n : Nat) : List Char := Nat.toDigits 10 n

def Opd.text : Opd → List Char
  | .n => ['n'] | .i => ['i'] | .v => ['v'] | .w => ['w'] | .f => ['f'] | .t => ['t'] | .e => ['e']

def itemText : Nat × Option Nat → List Char
  | (k, none) => dec k
  | (lo, some hi) => dec lo ++ ['.', '.'] ++ dec hi

def sepBy (sep : List Char) : List (List Char) → List Char
  | [] => []
  | [x] => x
  | x :: xs => x ++ sep ++ sepBy sep xs

def Rel.text (r : Rel) : List Char :=
  r.opd.text ++ (match r.mod with | none => [] | some m => [' ', '%', ' '] ++ dec m) ++
    (if r.neg then [' ', '!', '=', ' '] else [' ', '=', ' ']) ++ sepBy [','] (r.items.map itemText)

def conjText (c : List Rel) : List Char := sepBy [' ', 'a', 'n', 'd', ' '] (c.map Rel.text)

def Cond.text (c : Cond) : List Char := sepBy [' ', 'o', 'r', ' '] (c.map conjText)

/-- Numbers below `b`, ranges in ascending order and not `0..0`, moduli that are not zero, and no
empty lists. -/
def itemWF (b : Nat) : Nat × Option Nat → Prop
  | (k, none) => k < b
  | (lo, some hi) => lo ≤ hi ∧ 0 < hi ∧ hi < b

def Rel.WF (b : Nat) (r : Rel) : Prop :=
  r.items ≠ [] ∧ (∀ it ∈ r.items, itemWF b it) ∧ (∀ m, r.mod = some m → 0 < m ∧ m < b)

def Cond.WF (b : Nat) (c : Cond) : Prop := c ≠ [] ∧ ∀ conj ∈ c, conj ≠ [] ∧ ∀ r ∈ conj, r.WF b

/-! ## Operands of a decimal number -/

/-- Value of a digit sequence. -/
def digitsVal (ds : List Char) : Nat := ds.foldl (fun a c => a * 10 + (c.toNat - '0'.toNat)) 0

/-- `ip.fp`, or `ip` if there is no fraction. -/
structure Decimal where
  ip : List Char
  fp : List Char

def Decimal.WF (d : Decimal) : Prop :=
  d.ip ≠ [] ∧ (∀ c ∈ d.ip, c.isDigit) ∧ (∀ c ∈ d.fp, c.isDigit)

def Decimal.text (d : Decimal) : List Char :=
  d.ip ++ (if d.fp = [] then [] else '.' :: d.fp)

def stripZeros (ds : List Char) : List Char := (ds.reverse.dropWhile (· = '0')).reverse

/-- The operands that UTS 35 assigns to a decimal. -/
def Decimal.ops (d : Decimal) (e : Nat) : Ops where
  n := ⟨digitsVal (d.ip ++ d.fp), 10 ^ d.fp.length⟩
  i := digitsVal d.ip
  v := d.fp.length
  w := (stripZeros d.fp).length
  f := digitsVal d.fp
  t := digitsVal (stripZeros d.fp)
  e := e

/-- The decimal multiplied by ten to the power `e`, by moving the point: missing digits are zeros. -/
def Decimal.shift (d : Decimal) (e : Nat) : Decimal where
  ip := d.ip ++ d.fp.take e ++ List.replicate (e - d.fp.length) '0'
  fp := d.fp.drop e

end Verif.Spec.Cldr
