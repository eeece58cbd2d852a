import Verif.Go.Float
/-!
# float64 arithmetic

Go's `+`, `-`, `*`, `/` on float64 and `math.Floor`, `math.Ceil`, `math.Round`, `math.Pow10`, as used by
/repo/humanize and /repo/internal/calendar.  An operation is the exact rational result rounded to the nearest
float64, ties to even.  The sign of zero is not kept, so a division by zero is NaN or +Inf with the sign of the
dividend; the modelled code divides by positive constants only.
-/
namespace Verif.Go

/-- The value of the finite float64 `fin m e`. -/
def ratOf (m e : Int) : Rat :=
  if 0 ≤ e then (m : Rat) * 2 ^ e.toNat else (m : Rat) / 2 ^ (-e).toNat

/-- The nearest float64, ties to even; infinite above the range. -/
def F64.ofRat (x : Rat) : F64 :=
  match roundRatio x.num.natAbs x.den with
  | some (.fin m e) => .fin (if x < 0 then -m else m) e
  | _ => .inf (decide (x < 0))

/-- The value of a finite float64 (0 for NaN and the infinities). -/
def F64.val : F64 → Rat
  | .fin m e => ratOf m e
  | _ => 0

/-- Go's `x / y` on float64. -/
def F64.div : F64 → F64 → F64
  | .fin m e, .fin m' e' =>
    if m' = 0 then (if m = 0 then .nan else .inf (decide (m < 0)))
    else .ofRat (ratOf m e / ratOf m' e')
  | .inf s, .fin m' _ => .inf (if m' < 0 then !s else s)
  | .fin _ _, .inf _ => .fin 0 0
  | _, _ => .nan

/-- Go's `x * y` on float64. -/
def F64.mul : F64 → F64 → F64
  | .fin m e, .fin m' e' => .ofRat (ratOf m e * ratOf m' e')
  | .inf s, .fin m' _ => if m' = 0 then .nan else .inf (if m' < 0 then !s else s)
  | .fin m _, .inf s => if m = 0 then .nan else .inf (if m < 0 then !s else s)
  | .inf s, .inf s' => .inf (s != s')
  | _, _ => .nan

/-- Go's `x + y` on float64. -/
def F64.add : F64 → F64 → F64
  | .fin m e, .fin m' e' => .ofRat (ratOf m e + ratOf m' e')
  | .inf s, .fin _ _ => .inf s
  | .fin _ _, .inf s => .inf s
  | .inf s, .inf s' => if s = s' then .inf s else .nan
  | _, _ => .nan

/-- Go's `-x` on float64. -/
def F64.negate : F64 → F64
  | .fin m e => .fin (-m) e
  | .inf s => .inf (!s)
  | .nan => .nan

/-- Go's `x - y` on float64. -/
def F64.sub (x y : F64) : F64 := F64.add x y.negate

/-- Go's `x < y` on float64. -/
def F64.lt : F64 → F64 → Bool
  | .fin m e, .fin m' e' => decide (ratOf m e < ratOf m' e')
  | .inf s, .fin _ _ => s
  | .fin _ _, .inf s => !s
  | .inf s, .inf s' => s && !s'
  | _, _ => false

/-- Go's `x == y` on float64. -/
def F64.eq : F64 → F64 → Bool
  | .fin m e, .fin m' e' => decide (ratOf m e = ratOf m' e')
  | .inf s, .inf s' => s == s'
  | _, _ => false

/-- `math.Floor`. -/
def F64.floor : F64 → F64
  | .fin m e => .fin (ratOf m e).floor 0
  | x => x

/-- `math.Ceil`. -/
def F64.ceil : F64 → F64
  | .fin m e => .fin (ratOf m e).ceil 0
  | x => x

/-- `math.Round`: half away from zero. -/
def F64.round : F64 → F64
  | .fin m e =>
    .fin (if 0 ≤ m then (ratOf m e + 1 / 2).floor else -((ratOf (-m) e + 1 / 2).floor)) 0
  | x => x

/-- `math.Pow10(n)` for `0 ≤ n ≤ 308`: a table of the powers `10^(32 i)` times a table of the powers below 32, both
correctly rounded. -/
def F64.pow10 (n : Nat) : F64 :=
  F64.mul (.ofRat ((10 ^ (32 * (n / 32)) : Nat) : Rat)) (.ofRat ((10 ^ (n % 32) : Nat) : Rat))

/-- Go's `int64(n)` of an integer value computed in 64 bits: two's complement. -/
def wrap64 (n : Int) : Int := (n + 2 ^ 63) % 2 ^ 64 - 2 ^ 63

end Verif.Go
