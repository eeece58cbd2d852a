import Verif.Spec.Cldr
/-!
# The samples of CLDR plural rules

Written from UTS 35, part 3, "Samples": a rule may be followed by lists of numbers to which it applies,
`@integer 2~4, 22~24, 1000, …  @decimal 0.1~0.9, 1.1c6, …`.
-/
namespace Verif.Spec.Cldr

/-- The last `k` decimal digits of a number. -/
def lastDigits : Nat → Nat → List Char
  | 0, _ => []
  | k + 1, m => lastDigits k (m / 10) ++ [(m % 10).digitChar]

/-- A number in fixed point notation: `value` units of the last of `places` places.  With a point and no places it is
written like `5.`. -/
structure Fixed where
  point : Bool
  places : Nat
  value : Nat
  deriving DecidableEq

def Fixed.text (x : Fixed) : List Char :=
  dec (x.value / 10 ^ x.places) ++ if x.point then '.' :: lastDigits x.places x.value else []

def Fixed.WF (x : Fixed) : Prop := x.point = false → x.places = 0

/-- The range `a~b` goes upwards, in steps of one unit of the last place. -/
def Ascending (a b : Fixed) : Prop := a.point = b.point ∧ a.places = b.places ∧ a.value ≤ b.value

/-- The numbers of the range, from the first to the last. -/
def between (a b : Fixed) : List Fixed := (List.range (b.value - a.value + 1)).map fun j => { a with value := a.value + j }

/-- The range `a~b` occurs among the words, as one word or with spaces around the sign. -/
def Occurs (toks : List (List Char)) (a b : Fixed) : Prop :=
  ∃ T R, toks = T ++ (a.text ++ '~' :: b.text) :: R ∨ toks = T ++ a.text :: ['~'] :: b.text :: R

/-- A sample: a number, possibly with a compact exponent, or a range. -/
inductive Sample
  | one (x : Fixed)
  | compact (x : Fixed) (e : Nat)
  | range (a b : Fixed)

def Sample.text : Sample → List Char
  | .one x => x.text
  | .compact x e => x.text ++ 'c' :: dec e
  | .range a b => a.text ++ '~' :: b.text

/-- What a sample stands for. -/
def Sample.numbers : Sample → List (List Char)
  | .one x => [x.text]
  | .compact x e => [x.text ++ 'c' :: dec e]
  | .range a b => (between a b).map Fixed.text

/-- Numbers in notation; a compact number is not `0c…`. -/
def Sample.WF : Sample → Prop
  | .one x => x.WF
  | .compact x _ => x.WF ∧ (x.point = true ∨ 0 < x.value)
  | .range a b => a.WF ∧ b.WF

/-- `@integer` or `@decimal` with its samples; `more`: the list ends with an ellipsis. -/
structure Group where
  decimal : Bool
  samples : List Sample
  more : Bool

def Group.text (g : Group) : List Char :=
  (if g.decimal then ['@', 'd', 'e', 'c', 'i', 'm', 'a', 'l'] else ['@', 'i', 'n', 't', 'e', 'g', 'e', 'r']) ++ ' ' ::
    sepBy [',', ' '] (g.samples.map Sample.text ++ if g.more then [['…']] else [])

def Group.WF (g : Group) : Prop := g.samples ≠ [] ∧ ∀ s ∈ g.samples, s.WF

/-- The samples as they follow a rule: every list after a space. -/
def samplesText : List Group → List Char
  | [] => []
  | g :: gs => ' ' :: (g.text ++ samplesText gs)

/-- All ranges of the samples go upwards. -/
def Upwards (gs : List Group) : Prop := ∀ g ∈ gs, ∀ a b, Sample.range a b ∈ g.samples → Ascending a b

end Verif.Spec.Cldr
