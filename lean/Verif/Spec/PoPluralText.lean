import Verif.Spec.PoPlural
/-!
# Specification: which texts are read as a `Plural-Forms` value

`Verif/Spec/PoPlural.lean` says what a formula is.  This file adds the two liberties of the scanner: numerals may contain
underscores, and a NUL counts as the end of a word, of a numeral, of white space or of the text.
-/
namespace Verif.Spec.PoPlural

def NUL : Char := '\x00'

/-- A digit, then digits and underscores. -/
def Numeral (ds : List Char) : Prop := ∃ c r, ds = c :: r ∧ c.isDigit ∧ ∀ d ∈ r, d.isDigit ∨ d = '_'

/-- The token can be written like this. -/
def T.Written : T → Prop
  | .word k s => s.map Char.toLower = k.name
  | .num ds => Numeral ds
  | _ => True

/-- Words and numerals. -/
def T.Long : T → Prop
  | .word _ _ => True
  | .num _ => True
  | _ => False

/-- What may stand behind a token in front of `s`: nothing, if `s` does not continue the token, or, behind a word or a
numeral, a NUL. -/
def Tail (t : T) (g s : List Char) : Prop :=
  (g = [] ∧ NoMerge t s ∧ (t.Long → s.head? ≠ some NUL)) ∨ (g = [NUL] ∧ t.Long)

/-- What may stand in front of a token: white space, and a NUL behind it. -/
def Gap (g : List Char) : Prop :=
  (∀ c ∈ g, Blank c) ∨ ∃ b, b ≠ [] ∧ (∀ c ∈ b, Blank c) ∧ g = b ++ [NUL]

/-- What may stand behind the last token: white space; a NUL and anything; white space with a NUL; white space, two NULs and
anything. -/
def Ends (s : List Char) : Prop :=
  (∀ c ∈ s, Blank c) ∨ (∃ junk, s = NUL :: junk) ∨
    ∃ b, b ≠ [] ∧ (∀ c ∈ b, Blank c) ∧ (s = b ++ [NUL] ∨ ∃ junk, s = b ++ NUL :: NUL :: junk)

/-- The text is read as these tokens. -/
inductive Reads : List T → List Char → Prop
  | stop (s : List Char) : Ends s → Reads [] s
  | cons (g : List Char) (t : T) (tail : List Char) (ts : List T) (s : List Char) :
    Gap g → t.Written → Tail t tail s → Reads ts s → Reads (t :: ts) (g ++ (t.text ++ (tail ++ s)))

/-- The digits that count: a numeral with an underscore is 0, or what stands in front of it if that is already too large for 64
bits. -/
def readNum (ds : List Char) : List Char :=
  if '_' ∈ ds then
    (if 2 ^ 64 ≤ decVal (ds.takeWhile Char.isDigit) then ds.takeWhile Char.isDigit else ['0'])
  else ds

def T.read : T → T
  | .num ds => .num (readNum ds)
  | t => t

/-- The text is read as a `Plural-Forms` value with `k` plurals and the expression `e`. -/
def Accepted (text : List Char) (k : Nat) (e : Expr) : Prop :=
  ∃ w₁ ds w₂ ts,
    Reads (.word .nplurals w₁ :: .assign :: .num ds :: .semi :: .word .plural w₂ :: .assign ::
      (ts ++ [.semi])) text ∧ k = decVal (readNum ds) ∧ Der 0 (ts.map T.read) e

end Verif.Spec.PoPlural
