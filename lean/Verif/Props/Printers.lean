import Verif.Model.Spreak.Printer
import Verif.Props.Creation
/-!
# C112: the print functions of a bundle

`sprintf lang` is the formatting of the language (golang.org/x/text), arbitrary here.
-/
namespace Verif.Props.Printers
open Verif.Go Verif.Model.Spreak Verif.Proofs.Spreak Verif.Spec.Creation Verif.Props.Bundle Verif.Props.Localizer Verif.Props.Creation

variable {L N V S : Type} [DecidableEq L]

/-- What is printed for a language: the text itself without values, otherwise what the formatting of the language gives. -/
def printed (sprintf : L → Bytes → List V → Bytes) (lang : L) (text : Bytes) : List V → Bytes
  | [] => text
  | v :: vs => sprintf lang text (v :: vs)

/-- The languages that a printer is asked for, in order. -/
def askedFor (es : List (Event L)) : List L :=
  es.filterMap fun | .getPrintFunc lang => some lang | _ => none

theorem default_eq (sprintf : L → Bytes → List V → Bytes) (lang : L) : defaultPrintFunc sprintf lang = printed sprintf lang := by
  funext text vars
  cases vars <;> rfl

/-- Every function in the map prints in its language. -/
def Right (sprintf : L → Bytes → List V → Bytes) (m : GoMap L (PrintFunc V)) : Prop :=
  ∀ lang f, m.get? lang = some f → f = printed sprintf lang

theorem right_initLoop (sprintf : L → Bytes → List V → Bytes) (langs : List L) (m : GoMap L (PrintFunc V)) (h : Right sprintf m) :
    Right sprintf (initLoop sprintf m langs) := by
  induction langs generalizing m with
  | nil => exact h
  | cons lang langs ih =>
    refine ih _ fun x f hx => ?_
    rw [GoMap.get?_set] at hx
    split at hx
    · rename_i hxl
      cases hx
      rw [default_eq, hxl]
    · exact h x f hx

/-- **C112.** The default printer returns the function of the language asked for: in every history of calls, also before the first
`Init`, after `Init` with other languages, and if several bundles share the printer. -/
theorem C112_default (sprintf : L → Bytes → List V → Bytes) (es : List (Event L)) :
    ((defaultPrinter sprintf).run newDefaultPrinter es).1 = (askedFor es).map fun lang => (lang, printed sprintf lang) := by
  have key : ∀ (es : List (Event L)) (m : GoMap L (PrintFunc V)), Right sprintf m →
      ((defaultPrinter sprintf).run m es).1 = (askedFor es).map fun lang => (lang, printed sprintf lang) := by
    intro es
    induction es with
    | nil => intro m _; rfl
    | cons e es ih =>
      intro m h
      cases e with
      | missing e => exact ih m h
      | init langs => exact ih _ (right_initLoop sprintf langs [] (fun _ _ hx => by cases hx))
      | getPrintFunc lang =>
        have hr : (defaultPrinter sprintf).getPrintFunc m lang = (printed sprintf lang, m) := by
          unfold defaultPrinter
          simp only []
          cases hg : m.get? lang with
          | none => simp only [default_eq]
          | some f => simp only [h lang f hg]
        simp only [Printer.run, hr, askedFor, List.filterMap_cons, List.map_cons]
        rw [ih m h]
        rfl
  exact key es _ (fun _ _ hx => by cases hx)

/-- **C112.** A print function given by the caller is used as it is for every language. -/
theorem C112_function (f : PrintFunc V) (es : List (Event L)) :
    (printFunctionWrapper.run f es).1 = (askedFor es).map fun lang => (lang, f) := by
  induction es with
  | nil => rfl
  | cons e es ih =>
    cases e with
    | missing e => exact ih
    | init langs => exact ih
    | getPrintFunc lang =>
      simp only [Printer.run, printFunctionWrapper, askedFor, List.filterMap_cons, List.map_cons]
      exact congrArg _ ih

theorem askedFor_filter (es : List (Event L)) : askedFor (es.filter isPrinter) = askedFor es := by
  induction es with
  | nil => rfl
  | cons e es ih =>
    cases e with
    | missing e => rw [List.filter_cons_of_neg (by intro h; cases h)]; exact ih
    | init langs => rw [List.filter_cons_of_pos rfl]; exact ih
    | getPrintFunc lang =>
      rw [List.filter_cons_of_pos rfl]
      simp only [askedFor, List.filterMap_cons] at ih ⊢
      rw [ih]

/-- **C112.** In a new bundle each language, and the source language, prints in its own language, whatever the default printer was used
for before. -/
theorem C112_bundle {w : World L N V} {order : Order L N} (ho : Perms order) {opts : List (Opt L N)} {B : Bundle L N}
    {es : List (Event L)} (h : newBundle w order opts = .ok (B, es)) (sprintf : L → Bytes → List V → Bytes) (before : List (Event L)) :
    ((defaultPrinter sprintf).run newDefaultPrinter (before ++ es)).1 =
      (askedFor before ++ B.languages ++ if B.source.language ∈ B.languages then [] else [B.source.language]).map
        fun lang => (lang, printed sprintf lang) := by
  rw [C112_default]
  congr 1
  have hm : askedFor (B.languages.map .getPrintFunc) = B.languages := by
    induction B.languages with
    | nil => rfl
    | cons l ls ih =>
      simp only [askedFor, List.map_cons, List.filterMap_cons] at ih ⊢
      rw [ih]
  have he := askedFor_filter es
  rw [C45_exact ho h] at he
  unfold askedFor at he hm ⊢
  rw [List.filterMap_append, ← he, List.filterMap_append, hm, List.append_assoc, List.filterMap_cons]
  simp only []
  congr 2
  by_cases hs : B.source.language ∈ B.languages
  · rw [if_pos hs, if_pos hs]; rfl
  · rw [if_neg hs, if_neg hs]; rfl

/-- **C112.** With the default printer a text is returned as the catalog has it if no values are given, verbs or not; the source text
too. -/
theorem C112_plain {w : World L N V} {sprintf : L → Bytes → List V → Bytes} (hw : w.print = printed sprintf) {l : Localizer L N}
    {domain ctx id : Bytes} :
    (∀ cat t, l.locale.isSource = false → l.locale.catalogs.get? domain = some (some cat) → cat.lookup ctx id = .ok t →
      l.dpGet w domain ctx id = .ok ([], t) ∧ l.dpGetf w domain ctx id [] = .ok ([], t)) ∧
    (l.locale.isSource = true → l.dpGet w domain ctx id = .ok ([], id)) := by
  have hp : ∀ lang t, w.print lang t [] = t := fun lang t => by rw [hw]; rfl
  refine ⟨fun cat t hs hc ht => ?_, fun hs => ?_⟩
  · have := C39_own (l := l) (Offers.translation (w := w) (vars := ([] : List V)) hs hc ht)
    rw [hp] at this
    obtain ⟨_, this⟩ := this
    unfold Localizer.dpGet Localizer.dpGetf text
    rw [this]
    exact ⟨rfl, rfl⟩
  · have := C39_own (l := l) (Offers.source (w := w) (domain := domain) (ctx := ctx) (id := id) (vars := ([] : List V)) hs)
    rw [hp] at this
    obtain ⟨_, this⟩ := this
    unfold Localizer.dpGet text
    rw [this]

/-- The last printer given, or the default one. -/
def lastOf {P : Type} (os : List (PrinterOpt P V)) : Chosen P V :=
  match os.getLast? with
  | some (.printer (some p)) => .custom p
  | some (.function (some f)) => .function f
  | _ => .default

/-- No option was given nil. -/
def NoNil {P : Type} (os : List (PrinterOpt P V)) : Prop := (PrinterOpt.printer none) ∉ os ∧ (PrinterOpt.function none) ∉ os

/-- **C112.** The options are accepted if and only if none was given nil, and then the last one decides. -/
theorem C112_options {P : Type} (os : List (PrinterOpt P V)) (c : Chosen P V) :
    Chosen.default.applyAll os = some c ↔ NoNil os ∧ c = lastOf os := by
  have key : ∀ (os : List (PrinterOpt P V)) (c0 c : Chosen P V),
      c0.applyAll os = some c ↔ NoNil os ∧ c = if os = [] then c0 else lastOf os := by
    intro os
    induction os with
    | nil =>
      intro c0 c
      unfold NoNil
      simp [Chosen.applyAll, eq_comm]
    | cons o os ih =>
      intro c0 c
      have hl : ∀ c1, c0.apply o = some c1 → (if os = [] then c1 else lastOf os) = lastOf (o :: os) := by
        intro c1 h1
        cases os with
        | nil =>
          rw [if_pos rfl]
          rcases o with ⟨_ | p⟩ | ⟨_ | f⟩ <;> cases h1 <;> rfl
        | cons o' os' => rw [if_neg (by intro x; cases x)]; unfold lastOf; rw [List.getLast?_cons_cons]
      rw [if_neg (by intro x; cases x)]
      cases h1 : c0.apply o with
      | none =>
        rw [Chosen.applyAll, h1]
        refine ⟨fun x => (by cases x), fun ⟨⟨n1, n2⟩, _⟩ => ?_⟩
        rcases o with ⟨_ | p⟩ | ⟨_ | f⟩
        · exact absurd List.mem_cons_self n1
        · cases h1
        · exact absurd List.mem_cons_self n2
        · cases h1
      | some c1 =>
        rw [Chosen.applyAll, h1]
        simp only []
        rw [ih, hl c1 h1]
        have hn : NoNil (o :: os) ↔ NoNil os := by
          unfold NoNil
          rcases o with ⟨_ | p⟩ | ⟨_ | f⟩
          · cases h1
          · simp
          · cases h1
          · simp
        rw [hn]
  rw [key]
  cases os with
  | nil => rfl
  | cons o os => rw [if_neg (by intro x; cases x)]

/-! ### Examples -/

/-- A formatting that shows its language, the text and the number of values. -/
def show' (lang : Nat) (text : Bytes) (vars : List Nat) : Bytes := UInt8.ofNat lang :: text ++ [UInt8.ofNat vars.length]

/-- Asked before `Init`, after it, and after another `Init` without the language. -/
example : ((defaultPrinter show').run newDefaultPrinter
      [.getPrintFunc 65, .init [65, 66], .getPrintFunc 66, .init [67], .getPrintFunc 66]).1.map (fun p => (p.1, p.2 b!"%" [1], p.2 b!"%" [])) =
    [(65, [65, 37, 1], b!"%"), (66, [66, 37, 1], b!"%"), (66, [66, 37, 1], b!"%")] := by decide

/-- A bundle that was created. -/
example : ∃ B es, newBundle demoWorld rev demoOpts = .ok (B, es) ∧ B.languages = [1, 2, 3] ∧ B.source.language = 1 :=
  ⟨_, _, rfl, by decide, by decide⟩

/-- A world with the default printer, and a text with a percent sign in its catalog. -/
example : ∃ (w : World Nat Int Nat) (l : Localizer Nat Int), w.print = printed show' ∧
    l.dpGet w [] [] b!"a" = .ok ([], b!"100%") ∧ l.dpGetf w [] [] b!"a" [7] ≠ .ok ([], b!"100%") :=
  ⟨⟨0, printed show', fun _ _ => some 0, fun _ => none⟩,
    ⟨demoBundle, ⟨1, [([], some ⟨fun _ _ => .ok b!"100%", fun _ _ _ => .ok b!"100%"⟩)], false⟩, [], true⟩, rfl, by decide, by decide⟩

example : Chosen.default.applyAll [.function (some fun t (_ : List Nat) => t), .printer (some 5)] = some (.custom 5) ∧
    NoNil [PrinterOpt.function (some fun t (_ : List Nat) => t), .printer (some 5)] :=
  ⟨rfl, by simp [NoNil]⟩

end Verif.Props.Printers
