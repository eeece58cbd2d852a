import Verif.Go.Float
import Verif.Model.Cldr.Category
import Verif.Model.PoPlural.Evaluate
/-!
# catalog/cldrplural/cldr.go: operands

Texts are rune lists.  `strconv.ParseFloat` is modelled for plain decimals (optional sign, digits,
optional fraction); for all other texts (exponents, hexadecimal, `inf`, `nan`) its result is a
parameter.
-/
namespace Verif.Model.Cldr
open Verif.Go Verif.Cldr
open Verif.Model.PoPlural (Val toNumber)

/-- catalog/cldrplural/cldr.go:63-78 `Operands`. -/
structure Operands where
  n : F64
  i : Int
  v : Int
  w : Int
  f : Int
  t : Int
  c : Int
  deriving DecidableEq

/-- Digit value in `strconv` (called at catalog/cldrplural/cldr.go:128, 148, 158). -/
def digitVal (c : Char) : Nat := c.toNat - '0'.toNat

/-- Value of a digit sequence in `strconv` (catalog/cldrplural/cldr.go:128, 148, 158). -/
def digitsVal (ds : List Char) : Nat := ds.foldl (fun a c => a * 10 + digitVal c) 0

/-- Only digits (`strconv`, catalog/cldrplural/cldr.go:128, 148, 158). -/
def allDigits (ds : List Char) : Bool := ds.all Char.isDigit

/-- `strconv.ParseInt(s, 10, 64)` and `strconv.Atoi`; `none` is an error. -/
def parseInt (s : List Char) : Option Int :=
  let (neg, ds) := match s with
    | '-' :: ds => (true, ds)
    | '+' :: ds => (false, ds)
    | ds => (false, ds)
  if ds = [] ∨ allDigits ds = false then none
  else
    let v : Int := if neg then -(digitsVal ds : Int) else digitsVal ds
    if -(2 ^ 63) ≤ v ∧ v < 2 ^ 63 then some v else none

/-- An unsigned plain decimal: digits before and after the point; at least one digit. -/
def plainDecimal (s : List Char) : Option (Nat × Nat) :=
  let ip := s.takeWhile Char.isDigit
  match s.dropWhile Char.isDigit with
  | [] => if ip = [] then none else some (digitsVal ip, 1)
  | c :: fp =>
    if c = '.' ∧ allDigits fp ∧ (ip ≠ [] ∨ fp ≠ []) then some (digitsVal (ip ++ fp), 10 ^ fp.length)
    else none

/-- Negation of a float64 (`strconv.ParseFloat`, catalog/cldrplural/cldr.go:136). -/
def F64.neg : F64 → F64
  | .fin m e => .fin (-m) e
  | .inf s => .inf !s
  | .nan => .nan

/-- `strconv.ParseFloat(s, 64)`; `rest` is its result on texts that are not plain decimals. -/
def parseFloat (rest : List Char → Option F64) (s : List Char) : Option F64 :=
  let (neg, ds) := match s with
    | '-' :: ds => (true, ds)
    | '+' :: ds => (false, ds)
    | ds => (false, ds)
  match plainDecimal ds with
  | some (a, d) => (roundRatio (a / Nat.gcd a d) (d / Nat.gcd a d)).map (if neg then F64.neg else id)
  | none => rest s

/-- The result of the loop catalog/cldrplural/cldr.go:173-187 and the remaining shift. -/
def shiftLoop : List Char → Bool → Int → List Char × Int
  | [], _, c => ([], c)
  | r :: rs, shift, c =>
    if r = '.' then shiftLoop rs true c
    else
      let dot := c = 0 ∧ shift
      let shift := if dot then false else shift
      let c := if shift then c - 1 else c
      let (out, c) := shiftLoop rs shift c
      ((if dot then ['.', r] else [r]) ++ out, c)

/-- catalog/cldrplural/cldr.go:170-193 `shiftDecimalPoint`. -/
def shiftDecimalPoint (raw : List Char) (c : Int) : List Char :=
  let (out, c) := shiftLoop raw false c
  out ++ List.replicate c.toNat '0'

/-- `strings.TrimRight(s, "0")`. -/
def trimZeros (s : List Char) : List Char := (s.reverse.dropWhile (· = '0')).reverse

/-- `strings.Index(s, c)` and the parts around it. -/
def cut (c : Char) (s : List Char) : Option (List Char × List Char) :=
  match s.dropWhile (· ≠ c) with
  | [] => none
  | _ :: after => some (s.takeWhile (· ≠ c), after)

/-- catalog/cldrplural/cldr.go:145-153: digits of the fraction. -/
def fraction (fd : List Char) : Option (Int × Int) :=
  if fd = [] then some (0, 0)
  else (parseInt fd).map (fun f => ((fd.length : Int), f))

/-- catalog/cldrplural/cldr.go:136-167: the text after removing the compact exponent. -/
def operandsOfDecimal (rest : List Char → Option F64) (oor : F64 → Int) (raw : List Char) (c : Int) :
    Option Operands := do
  let src ← parseFloat rest raw
  let (v, f, w, t) ← match cut '.' raw with
    | none => some (0, 0, 0, 0)
    | some (_, fd) => do
      let (v, f) ← fraction fd
      let (w, t) ← fraction (trimZeros fd)
      some (v, f, w, t)
  some ⟨src.abs, src.toInt64 oor, v, w, f, t, c⟩

/-- catalog/cldrplural/cldr.go:124-168 `newOperandsString`. -/
def newOperandsString (rest : List Char → Option F64) (oor : F64 → Int) (raw : List Char) :
    Option Operands :=
  match cut 'c' raw with
  | some (before, after) =>
    match parseInt after with
    | none => none
    | some c => operandsOfDecimal rest oor (shiftDecimalPoint before c) c
  | none => operandsOfDecimal rest oor raw 0

/-- Go's negation of an int64. -/
def negInt64 (i : Int) : Int := if i = -(2 ^ 63) then i else -i

/-- catalog/cldrplural/cldr.go:117-122 `newOperandsInt`. -/
def newOperandsInt (i : Int) : Operands :=
  let i := if i < 0 then negInt64 i else i
  ⟨F64.ofInt i, i, 0, 0, 0, 0, 0⟩

/-- The argument of `NewOperands`: `int` stands for the types int and int64, `float` for float32 and
float64 (with the text that `%v` prints for it), `other` for all other values. -/
inductive Arg
  | nil
  | ptr (a : Arg)
  | str (s : List Char)
  | int (v : Int)
  | float (text : List Char)
  | other (v : Val)

/-- internal/cast/number.go:64-77 `Indirect`. -/
def Arg.indirect : Arg → Arg
  | .ptr a => a.indirect
  | a => a

/-- catalog/cldrplural/cldr.go:91-115 `NewOperands`; `fmtV` is `fmt.Sprintf("%v", num)`. -/
def newOperands (rest : List Char → Option F64) (oor : F64 → Int) (fmtV : F64 → List Char)
    (a : Arg) : Option Operands :=
  match a.indirect with
  | .nil => none
  | .ptr _ => none
  | .str s => newOperandsString rest oor s
  | .int v => some (newOperandsInt v)
  | .float text => newOperandsString rest oor text
  | .other v =>
    match toNumber (parseFloat rest) v with
    | none => none
    | some num => newOperandsString rest oor (fmtV num)

end Verif.Model.Cldr
