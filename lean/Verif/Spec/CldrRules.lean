import Verif.Spec.CldrSamples
import Verif.Go.Utf8
/-!
# Which texts are CLDR plural rules for the parser

Written from the comment in catalog/cldrplural/ast/parser.go:10-33, the token table of UTS 35, part 3, and the regular
expressions of catalog/cldrplural/ast/scanner.go:29-33, without following the scanner or the parser.
-/
namespace Verif.Spec.Cldr

/-! ## Words -/

/-- White space and commas separate words. -/
def Gap (c : Char) : Prop := Verif.Go.isSpace c = true ∨ c = ','

/-- The words of a text. -/
inductive Splits : List Char → List (List Char) → Prop
  | done : Splits [] []
  | gap {c : Char} {s ws} : Gap c → Splits s ws → Splits (c :: s) ws
  | word {w s ws} : w ≠ [] → (∀ c ∈ w, ¬ Gap c) → (s = [] ∨ ∃ c s', s = c :: s' ∧ Gap c) → Splits s ws → Splits (w ++ s) (w :: ws)

/-- A letter of a keyword in a word: in either case; the dotted capital I also counts as an i. -/
def Letter (c k : Char) : Prop :=
  c = k ∨ (c.toNat + 32 = k.toNat ∧ 65 ≤ c.toNat ∧ c.toNat ≤ 90) ∨ (c.toNat = 0x130 ∧ k = 'i')

/-- The word is a spelling of the keyword (none of the keywords contains capital letters). -/
inductive Spelled : List Char → List Char → Prop
  | done : Spelled [] []
  | more {c k : Char} {w ks} : Letter c k → Spelled w ks → Spelled (c :: w) (k :: ks)

/-- What a word or three joined words can be. -/
inductive Lexeme
  | operand (w : List Char)
  | mod | eq | ne | and | or | samples
  | number (w : List Char)

inductive Keyword : List Char → Lexeme → Prop
  | operand {w k} : k ∈ [['n'], ['i'], ['v'], ['w'], ['f'], ['t'], ['c'], ['e']] → Spelled w k → Keyword w (.operand w)
  | percent : Keyword ['%'] .mod
  | mod {w} : Spelled w ['m', 'o', 'd'] → Keyword w .mod
  | eq : Keyword ['='] .eq
  | ne : Keyword ['!', '='] .ne
  | integer {w} : Spelled w ['@', 'i', 'n', 't', 'e', 'g', 'e', 'r'] → Keyword w .samples
  | decimal {w} : Spelled w ['@', 'd', 'e', 'c', 'i', 'm', 'a', 'l'] → Keyword w .samples
  | and {w} : Spelled w ['a', 'n', 'd'] → Keyword w .and
  | or {w} : Spelled w ['o', 'r'] → Keyword w .or

/-- Words without meaning. -/
def Ellipsis (w : List Char) : Prop := w = ['…'] ∨ w = ['.', '.', '.'] ∨ w = ['.']

/-- The signs of a range, if they stand alone. -/
def Joins (w : List Char) : Prop := w = ['.', '.'] ∨ w = ['~']

/-- The words as a rule reads them. -/
inductive Reads : List (List Char) → List Lexeme → Prop
  | done : Reads [] []
  | skip {w ws ls} : Ellipsis w → Reads ws ls → Reads (w :: ws) ls
  | keyword {w l ws ls} : Keyword w l → Reads ws ls → Reads (w :: ws) (l :: ls)
  | joined {w j v ws ls} : (∀ l, ¬ Keyword w l) → ¬ Ellipsis w → Joins j → Reads ws ls →
      Reads (w :: j :: v :: ws) (.number (w ++ j ++ v) :: ls)
  | number {w ws ls} : (∀ l, ¬ Keyword w l) → ¬ Ellipsis w → (∀ j ws', ws = j :: ws' → ¬ Joins j) → Reads ws ls →
      Reads (w :: ws) (.number w :: ls)

/-! ## Numbers and ranges of a relation -/

def AllDigits (w : List Char) : Prop := ∀ c ∈ w, c.isDigit = true

instance (w : List Char) : Decidable (AllDigits w) := inferInstanceAs (Decidable (∀ c ∈ w, c.isDigit = true))

/-- A number (the largest int64 if it is larger) or a range `a..b`; `b` may not begin with a zero. -/
inductive IsItem : List Char → Nat × Option Nat → Prop
  | value {w} : w ≠ [] → AllDigits w → IsItem w (min (digitsVal w) (2 ^ 63 - 1), none)
  | range {a b} : a ≠ [] → AllDigits a → b ≠ [] → AllDigits b → b.head? ≠ some '0' → digitsVal a ≤ digitsVal b →
      digitsVal b < 2 ^ 63 → IsItem (a ++ '.' :: '.' :: b) (digitsVal a, some (digitsVal b))

/-! ## Relations and conditions -/

/-- A relation as written: the operand in its spelling. -/
structure Relation where
  opd : List Char
  mod : Option Nat
  neg : Bool
  items : List (Nat × Option Nat)
  deriving DecidableEq

inductive Items : List Lexeme → List (Nat × Option Nat) → Prop
  | one {w it} : IsItem w it → Items [.number w] [it]
  | more {w it ls its} : IsItem w it → Items ls its → Items (.number w :: ls) (it :: its)

inductive LeftSide : List Lexeme → List Char → Option Nat → Prop
  | plain {o} : LeftSide [.operand o] o none
  | mod {o w m} : IsItem w (m, none) → LeftSide [.operand o, .mod, .number w] o (some m)

def sign (neg : Bool) : Lexeme := if neg then .ne else .eq

inductive IsRelation : List Lexeme → Relation → Prop
  | mk {left right o m its} (neg : Bool) : LeftSide left o m → Items right its →
      IsRelation (left ++ sign neg :: right) ⟨o, m, neg, its⟩

inductive IsConj : List Lexeme → List Relation → Prop
  | one {ls r} : IsRelation ls r → IsConj ls [r]
  | more {l1 l2 r rs} : IsRelation l1 r → IsConj l2 rs → IsConj (l1 ++ .and :: l2) (r :: rs)

inductive IsCond : List Lexeme → List (List Relation) → Prop
  | one {ls c} : IsConj ls c → IsCond ls [c]
  | more {l1 l2 c cs} : IsConj l1 c → IsCond l2 cs → IsCond (l1 ++ .or :: l2) (c :: cs)

/-! ## Samples -/

/-- No zero before other digits. -/
def Canonical (w : List Char) : Prop := w ≠ [] ∧ AllDigits w ∧ (w.head? = some '0' → w = ['0'])

/-- A single sample. -/
inductive IsSample : List Char → Prop
  | digits {w} : w ≠ [] → AllDigits w → IsSample w
  | point {i f} : Canonical i → AllDigits f → IsSample (i ++ '.' :: f)
  | pointExp {i f e} : Canonical i → AllDigits f → AllDigits e → IsSample (i ++ '.' :: (f ++ 'c' :: e))
  | exp {i e} : Canonical i → i ≠ ['0'] → AllDigits e → IsSample (i ++ 'c' :: e)
  | expPoint {i e f} : Canonical i → i ≠ ['0'] → AllDigits e → AllDigits f → IsSample (i ++ 'c' :: (e ++ '.' :: f))

/-- What a word among the samples stands for; nothing for the headings `@integer` and `@decimal`. -/
inductive Stands : Lexeme → List (List Char) → Prop
  | heading : Stands .samples []
  | one {w} : IsSample w → Stands (.number w) [w]
  | range {a b : Fixed} : a.WF → b.WF → Ascending a b → Stands (.number (a.text ++ '~' :: b.text)) ((between a b).map Fixed.text)

inductive Samples : List Lexeme → List (List Char) → Prop
  | done : Samples [] []
  | more {l ls xs ys} : Stands l xs → Samples ls ys → Samples (l :: ls) (xs ++ ys)

/-! ## Rules -/

/-- The text is a rule: a condition, samples behind a heading, or both. -/
inductive IsRule (text : List Char) : Option (List (List Relation)) → List (List Char) → Prop
  | cond {ws ls c} : Splits text ws → Reads ws ls → IsCond ls c → IsRule text (some c) []
  | condSamples {ws ls ls' c xs} : Splits text ws → Reads ws (ls ++ .samples :: ls') → IsCond ls c → Samples ls' xs →
      IsRule text (some c) xs
  | samples {ws ls xs} : Splits text ws → Reads ws (.samples :: ls) → Samples ls xs → IsRule text none xs

end Verif.Spec.Cldr
