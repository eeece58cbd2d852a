/-!
# float64, as far as spreak needs it

A finite float64 is `m * 2^e` with integers `m`, `e` (the sign of zero is not kept).  Only the
operations used by the modelled code are given: conversion from an integer, absolute value,
`math.RoundToEven`, conversion to an integer, `math.Mod`, comparison with integers, and the rounding
of a decimal fraction (`strconv.ParseFloat`).
-/
namespace Verif.Go

inductive F64
  | nan
  | inf (neg : Bool)
  | fin (m : Int) (e : Int)
  deriving DecidableEq, Repr

/-- `a / d` rounded to the nearest integer, ties to even (`d > 0`). -/
def halfEven (a d : Nat) : Nat :=
  let q := a / d
  let r := a % d
  if 2 * r < d then q
  else if 2 * r > d then q + 1
  else if q % 2 = 0 then q else q + 1

/-- Rounding of a natural number to 53 significant bits, ties to even (IEEE 754 conversion from
integer, exact below 2^53). -/
def round53 (n : Nat) : Nat :=
  if n < 2 ^ 53 then n
  else
    let sh := Nat.log2 n - 52
    halfEven n (2 ^ sh) * 2 ^ sh

/-- Go's `float64(n)` for an integer. -/
def F64.ofInt (n : Int) : F64 := .fin (n.sign * round53 n.natAbs) 0

/-- `math.Abs`. -/
def F64.abs : F64 → F64
  | .nan => .nan
  | .inf _ => .inf false
  | .fin m e => .fin m.natAbs e

/-- `math.RoundToEven` (on magnitudes; it is symmetric). -/
def F64.roundToEven : F64 → F64
  | .fin m e =>
    if 0 ≤ e then .fin (m * 2 ^ e.toNat) 0
    else .fin (m.sign * halfEven m.natAbs (2 ^ (-e).toNat)) 0
  | x => x

/-- Go's `int64(x)` for an integral float64.  Outside the range (and for NaN and infinities) the
result is implementation defined: `oor` supplies it. -/
def F64.toInt64 (oor : F64 → Int) : F64 → Int
  | .fin m e =>
    let v := if 0 ≤ e then m * 2 ^ e.toNat else m.tdiv (2 ^ (-e).toNat)
    if -(2 ^ 63) ≤ v ∧ v < 2 ^ 63 then v else oor (.fin m e)
  | x => oor x

/-- The value of Go's `float64(k)`, an integer. -/
def fInt (k : Int) : Int := k.sign * round53 k.natAbs

/-- A finite float is `fUpper / fLower` with a positive power of two below. -/
def fUpper (m e : Int) : Int := m * 2 ^ e.toNat

def fLower (e : Int) : Nat := 2 ^ (-e).toNat

/-- Go's `x == float64(k)`. -/
def F64.eqInt (x : F64) (k : Int) : Bool :=
  match x with
  | .fin m e => fUpper m e == fInt k * fLower e
  | _ => false

/-- Go's `x >= float64(k)`. -/
def F64.geInt (x : F64) (k : Int) : Bool :=
  match x with
  | .fin m e => decide (fInt k * fLower e ≤ fUpper m e)
  | .inf neg => !neg
  | .nan => false

/-- Go's `x <= float64(k)`. -/
def F64.leInt (x : F64) (k : Int) : Bool :=
  match x with
  | .fin m e => decide (fUpper m e ≤ fInt k * fLower e)
  | .inf neg => neg
  | .nan => false

/-- `math.Mod(x, float64(k))`: exact, with the sign of `x`; NaN for infinite `x` and `k = 0`. -/
def F64.mod (x : F64) (k : Int) : F64 :=
  match x with
  | .fin m e =>
    if fInt k = 0 then .nan
    else .fin ((fUpper m e).tmod (fInt k * fLower e)) (-((-e).toNat : Int))
  | _ => .nan

/-- `a / d` rounded to a float64 (`d > 0`), ties to even; `none` above the largest float64.
Integers below 2^53 have the exponent 0. -/
def roundRatio (a d : Nat) : Option F64 :=
  if a % d = 0 ∧ a / d < 2 ^ 53 then some (.fin (a / d : Nat) 0)
  else
    -- 2 ^ 52 ≤ a / d * 2 ^ -e < 2 ^ 53, but e is at least -1074
    let e0 : Int := (Nat.log2 a : Int) - Nat.log2 d - 53
    let e1 : Int := if a * 2 ^ (-e0).toNat < 2 ^ 53 * d * 2 ^ e0.toNat then e0 else e0 + 1
    let e : Int := max e1 (-1074)
    if 0 ≤ e then
      let m := halfEven a (d * 2 ^ e.toNat) * 2 ^ e.toNat
      if m < 2 ^ 1024 then some (.fin m 0) else none
    else some (.fin (halfEven (a * 2 ^ (-e).toNat) d) e)

end Verif.Go
