/-!
# Specification: the `Plural-Forms` language of gettext

Independent of the model: expressions, their value in C, the C grammar restricted to the operators
spreak supports, and how a text spells a token sequence.
-/
namespace Verif.Spec.PoPlural

inductive BinOp
  | and | or | eq | ne | gt | ge | lt | le | rem
  deriving DecidableEq, Repr

/-- Plural expressions over the variable `n`. -/
inductive Expr
  | n
  | num (k : Nat)
  | bin (o : BinOp) (x y : Expr)
  | cond (c t e : Expr)
  deriving DecidableEq, Repr

/-- The number a C comparison yields. -/
def ofBool (b : Bool) : Int := if b then 1 else 0

/-- The value of a C expression; `none` is undefined behaviour (remainder by zero).  `&&`, `||`
and `?:` evaluate only what C evaluates, and any non-zero value is true. -/
def cval : Expr → Int → Option Int
  | .n, m => some m
  | .num k, _ => some k
  | .cond c t e, m => do
    let b ← cval c m
    if b ≠ 0 then cval t m else cval e m
  | .bin .and x y, m => do
    let a ← cval x m
    if a = 0 then some 0 else do
      let b ← cval y m
      some (ofBool (b ≠ 0))
  | .bin .or x y, m => do
    let a ← cval x m
    if a ≠ 0 then some 1 else do
      let b ← cval y m
      some (ofBool (b ≠ 0))
  | .bin .rem x y, m => do
    let a ← cval x m
    let b ← cval y m
    if b = 0 then none else some (a.tmod b)
  | .bin .eq x y, m => do return ofBool ((← cval x m) = (← cval y m))
  | .bin .ne x y, m => do return ofBool ((← cval x m) ≠ (← cval y m))
  | .bin .gt x y, m => do return ofBool ((← cval x m) > (← cval y m))
  | .bin .ge x y, m => do return ofBool ((← cval x m) ≥ (← cval y m))
  | .bin .lt x y, m => do return ofBool ((← cval x m) < (← cval y m))
  | .bin .le x y, m => do return ofBool ((← cval x m) ≤ (← cval y m))

/-- Value of an expression in the reading "a condition holds if it is 1", with remainder by zero
being 0.  It agrees with `cval` on formulas whose conditions are comparisons. -/
def val1 : Expr → Int → Int
  | .n, m => m
  | .num k, _ => k
  | .cond c t e, m => if val1 c m = 1 then val1 t m else val1 e m
  | .bin .and x y, m => ofBool (val1 x m = 1 ∧ val1 y m = 1)
  | .bin .or x y, m => ofBool (val1 x m = 1 ∨ val1 y m = 1)
  | .bin .rem x y, m => if val1 y m = 0 then 0 else (val1 x m).tmod (val1 y m)
  | .bin .eq x y, m => ofBool (val1 x m = val1 y m)
  | .bin .ne x y, m => ofBool (val1 x m ≠ val1 y m)
  | .bin .gt x y, m => ofBool (val1 x m > val1 y m)
  | .bin .ge x y, m => ofBool (val1 x m ≥ val1 y m)
  | .bin .lt x y, m => ofBool (val1 x m < val1 y m)
  | .bin .le x y, m => ofBool (val1 x m ≤ val1 y m)

/-- The C formula that says in C what spreak makes of a formula: a condition holds if it is 1, a remainder by zero is 0, and numerals
are at most 2^63 - 1. -/
def strict : Expr → Expr
  | .n => .n
  | .num k => .num (min k (2 ^ 63 - 1))
  | .cond c t e => .cond (.bin .eq (strict c) (.num 1)) (strict t) (strict e)
  | .bin .and x y => .bin .and (.bin .eq (strict x) (.num 1)) (.bin .eq (strict y) (.num 1))
  | .bin .or x y => .bin .or (.bin .eq (strict x) (.num 1)) (.bin .eq (strict y) (.num 1))
  | .bin .rem x y => .cond (.bin .eq (strict y) (.num 0)) (.num 0) (.bin .rem (strict x) (strict y))
  | .bin o x y => .bin o (strict x) (strict y)

/-- The expression has a truth value by its form: a comparison or a logical combination. -/
def Logical : Expr → Prop
  | .bin .rem _ _ => False
  | .bin _ _ _ => True
  | _ => False

/-- Every operand of `&&`, `||` and every condition of `?:` is a comparison or a logical
combination (as in every plural formula that people write). -/
def Boolean : Expr → Prop
  | .n => True
  | .num _ => True
  | .bin .and x y => Logical x ∧ Logical y ∧ Boolean x ∧ Boolean y
  | .bin .or x y => Logical x ∧ Logical y ∧ Boolean x ∧ Boolean y
  | .bin _ x y => Boolean x ∧ Boolean y
  | .cond c t e => Logical c ∧ Boolean c ∧ Boolean t ∧ Boolean e

/-- All numerals fit an int64. -/
def Small : Expr → Prop
  | .n => True
  | .num k => k < 2 ^ 63
  | .bin _ x y => Small x ∧ Small y
  | .cond c t e => Small c ∧ Small t ∧ Small e

/-! ## Tokens and texts -/

inductive Kw
  | n | nplurals | plural
  deriving DecidableEq, Repr

def Kw.name : Kw → List Char
  | .n => ['n']
  | .nplurals => ['n', 'p', 'l', 'u', 'r', 'a', 'l', 's']
  | .plural => ['p', 'l', 'u', 'r', 'a', 'l']

/-- Tokens with their spelling where it can vary. -/
inductive T
  | word (k : Kw) (spelling : List Char)
  | num (digits : List Char)
  | bin (o : BinOp)
  | assign | semi | quest | colon | lp | rp
  deriving DecidableEq, Repr

def BinOp.text : BinOp → List Char
  | .and => ['&', '&']
  | .or => ['|', '|']
  | .eq => ['=', '=']
  | .ne => ['!', '=']
  | .gt => ['>']
  | .ge => ['>', '=']
  | .lt => ['<']
  | .le => ['<', '=']
  | .rem => ['%']

def T.text : T → List Char
  | .word _ s => s
  | .num ds => ds
  | .bin o => o.text
  | .assign => ['=']
  | .semi => [';']
  | .quest => ['?']
  | .colon => [':']
  | .lp => ['(']
  | .rp => [')']

/-- Keywords in any case, numerals are non-empty digit sequences. -/
def T.WF : T → Prop
  | .word k s => s.map Char.toLower = k.name
  | .num ds => ds ≠ [] ∧ ∀ c ∈ ds, c.isDigit
  | _ => True

/-- The text after a token must not continue the token. -/
def NoMerge (t : T) (s : List Char) : Prop :=
  match t with
  | .word _ _ => ∀ c, s.head? = some c → ¬ (c.isAlpha ∨ c = '_')
  | .num _ => ∀ c, s.head? = some c → ¬ (c.isDigit ∨ c = '_')
  | .assign => s.head? ≠ some '='
  | .bin .gt => s.head? ≠ some '='
  | .bin .lt => s.head? ≠ some '='
  | _ => True

/-- White space of the formula language. -/
def Blank (c : Char) : Prop := c = ' ' ∨ c = '\t' ∨ c = '\n'

/-- A text spells a token sequence: tokens with any white space around them. -/
inductive Spells : List T → List Char → Prop
  | nil (w : List Char) : (∀ c ∈ w, Blank c) → Spells [] w
  | cons (w : List Char) (t : T) (ts : List T) (s : List Char) :
    (∀ c ∈ w, Blank c) → t.WF → NoMerge t s → Spells ts s → Spells (t :: ts) (w ++ t.text ++ s)

/-! ## Grammar -/

/-- Value of a digit sequence. -/
def decVal (ds : List Char) : Nat := ds.foldl (fun a c => a * 10 + (c.toNat - '0'.toNat)) 0

def BinOp.isRel : BinOp → Prop
  | .gt => True | .ge => True | .lt => True | .le => True | _ => False

def BinOp.isEq : BinOp → Prop
  | .eq => True | .ne => True | _ => False

/-- The C grammar of conditional expressions without the operators that spreak does not support,
and without chains of `%`, of relations or of equalities.  Levels: 0 `?:`, 1 `||`, 2 `&&`,
3 equality, 4 relation, 5 remainder, 6 atom.  `&&` and `||` associate to the left. -/
inductive Der : Nat → List T → Expr → Prop
  | n (w : List Char) : Der 6 [.word .n w] .n
  | num (ds : List Char) : Der 6 [.num ds] (.num (decVal ds))
  | paren {ts e} : Der 0 ts e → Der 6 (.lp :: ts ++ [.rp]) e
  | up {l ts e} : Der (l + 1) ts e → Der l ts e
  | rem {a x b y} : Der 6 a x → Der 6 b y → Der 5 (a ++ .bin .rem :: b) (.bin .rem x y)
  | rel {a x b y o} : BinOp.isRel o → Der 5 a x → Der 5 b y →
      Der 4 (a ++ .bin o :: b) (.bin o x y)
  | eq {a x b y o} : BinOp.isEq o → Der 4 a x → Der 4 b y →
      Der 3 (a ++ .bin o :: b) (.bin o x y)
  | and {a x b y} : Der 2 a x → Der 3 b y → Der 2 (a ++ .bin .and :: b) (.bin .and x y)
  | or {a x b y} : Der 1 a x → Der 2 b y → Der 1 (a ++ .bin .or :: b) (.bin .or x y)
  | cond {a c b t d e} : Der 1 a c → Der 0 b t → Der 0 d e →
      Der 0 (a ++ .quest :: (b ++ .colon :: d)) (.cond c t e)

/-- The text is a `Plural-Forms` value with `k` plurals and the expression `e`:
`nplurals=k; plural=e;`. -/
def Formula (text : List Char) (k : Nat) (e : Expr) : Prop :=
  ∃ w₁ ds w₂ ts,
    Spells (.word .nplurals w₁ :: .assign :: .num ds :: .semi :: .word .plural w₂ :: .assign ::
      (ts ++ [.semi])) text ∧ k = decVal ds ∧ Der 0 ts e

/-- No operand in parentheses binds looser than its operator allows, except `||`:
formulas such as `n % (10 == 1)` are excluded. -/
def Plain : Nat → Expr → Prop
  | _, .n => True
  | _, .num _ => True
  | l, .bin .rem x y => l ≤ 5 ∧ Plain 6 x ∧ Plain 6 y
  | l, .bin .gt x y => l ≤ 4 ∧ Plain 5 x ∧ Plain 5 y
  | l, .bin .ge x y => l ≤ 4 ∧ Plain 5 x ∧ Plain 5 y
  | l, .bin .lt x y => l ≤ 4 ∧ Plain 5 x ∧ Plain 5 y
  | l, .bin .le x y => l ≤ 4 ∧ Plain 5 x ∧ Plain 5 y
  | l, .bin .eq x y => l ≤ 3 ∧ Plain 4 x ∧ Plain 4 y
  | l, .bin .ne x y => l ≤ 3 ∧ Plain 4 x ∧ Plain 4 y
  | l, .bin .and x y => l ≤ 2 ∧ Plain 2 x ∧ Plain 2 y
  | _, .bin .or x y => Plain 1 x ∧ Plain 1 y
  | l, .cond c t e => l ≤ 0 ∧ Plain 1 c ∧ Plain 0 t ∧ Plain 0 e

/-! ## Rounding -/

/-- `k` is `|m * 2^e|` rounded to an integer, ties to even. -/
def RoundsTo (m e : Int) (k : Nat) : Prop :=
  if 0 ≤ e then k = m.natAbs * 2 ^ e.toNat
  else
    let d := 2 ^ (-e).toNat
    -- the distance of `k` is at most one half, and `k` is even if it is exactly one half
    (2 * k * d ≤ 2 * m.natAbs + d ∧ 2 * m.natAbs ≤ 2 * k * d + d) ∧
    ((2 * k * d = 2 * m.natAbs + d ∨ 2 * m.natAbs = 2 * k * d + d) → k % 2 = 0)

end Verif.Spec.PoPlural
