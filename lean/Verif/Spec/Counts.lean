import Verif.Model.Humanize.Counts
import Verif.Model.Humanize.Print
import Verif.Model.PoPlural.Builtin
/-!
# Texts that show what they are given
-/
namespace Verif.Spec.Counts
open Verif.Go Verif.Model.Humanize Verif.Model.PoPlural

/-- Printed with one argument, the text shows it, with the verb, at one place; the rest does not depend on the argument. -/
def Shows (w : Writer) (verb : UInt8) (text : Bytes) : Prop :=
  ∃ before after : Bytes, ∀ a : Arg, takes a verb = true → w.print text [a] = some (before ++ w.show' verb a ++ after)

/-- The text for a number: the translation of the form that the rule chooses, or the source text if there is none. -/
def template (r : Rule) (forms : List Bytes) (singular plural : Bytes) (n : Int) : Bytes :=
  match forms[(r.form n).toNat]? with
  | some (b :: rest) => b :: rest
  | _ => if n = 1 then singular else plural

/-- The text for a message without plural. -/
def single (translation : Option Bytes) (source : Bytes) : Bytes :=
  match translation with
  | some (b :: rest) => b :: rest
  | _ => source

/-- Who writes: a translation is written in the language of the catalog, the source text in the source language. -/
def hand (w e : Writer) (translation : Option Bytes) : Writer :=
  match translation with
  | some (_ :: _) => w
  | _ => e

/-- The localizer prints the texts of the catalog: translations as `w` does, source texts as `e` does.  Numbers above 2^53 are
rounded before the form is chosen. -/
structure Answers (w e : Writer) (c : Counts) (loc : Loc) : Prop where
  plural : ∀ (i : Nat) (ctx singular plural : Bytes) (forms : List Bytes) (r : Rule) (n : Int) (args : List Arg) (out : Bytes),
    pluralMessages[i]? = some (ctx, singular, plural) → c.plural[i]? = some forms → parseRule c.locale.pluralForms = .ok r → 0 ≤ n → n ≤ 2 ^ 53 →
    (hand w e forms[(r.form n).toNat]?).print (template r forms singular plural n) args = some out →
    loc.npGetf ctx singular plural n args = out ∧ (ctx = [] → loc.nGetf singular plural n args = out)
  single : ∀ (i : Nat) (ctx source : Bytes) (t : Option Bytes) (args : List Arg) (out : Bytes),
    singularMessages[i]? = some (ctx, source) → c.singular[i]? = some t →
    (hand w e t).print (single t source) args = some out →
    loc.pGetf ctx source args = out ∧ (ctx = [] → loc.getf source args = out)

/-- The ways to ask for a plural message: with its context, or without if it has none. -/
def asks (loc : Loc) (ctx singular plural : Bytes) : List (Int → List Arg → Bytes) :=
  loc.npGetf ctx singular plural :: if ctx = [] then [loc.nGetf singular plural] else []

/-- The ways to ask for a message without plural. -/
def asksSingle (loc : Loc) (ctx source : Bytes) : List (List Arg → Bytes) :=
  loc.pGetf ctx source :: if ctx = [] then [loc.getf source] else []

/-- The verb of the first directive of a source text. -/
def verbOf : Bytes → UInt8
  | 37 :: 91 :: 49 :: 93 :: v :: _ => v
  | 37 :: v :: _ => v
  | _ :: r => verbOf r
  | [] => 0

/-- The least number for which a message is used: one without a number in its singular is not used for 0. -/
def least (singular : Bytes) : Int := if singular.contains 37 then 0 else 1

end Verif.Spec.Counts
