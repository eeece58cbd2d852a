import Verif.Proofs.Cldr.Eval
import Verif.Proofs.Cldr.Samples
/-!
# C61, C101: samples of CLDR plural rules

`budget` is the number of steps that the enumeration of a range may take; a result `hang` for every budget means that the
call does not return.
-/
namespace Verif.Props.Samples
open Verif.Go Verif.Model.Cldr Verif.Spec.Cldr Verif.Cldr Verif.Proofs.Cldr

/-! ## C61 -/

/-- What the scanner takes for a sample range are two numbers in fixed point notation. -/
theorem C61_ranges (s : List Char) : reSampleRange s = true ↔ ∃ a b : Fixed, a.WF ∧ b.WF ∧ s = a.text ++ '~' :: b.text := by
  constructor
  · exact range_fixed
  · rintro ⟨a, b, ha, hb, rfl⟩
    exact classify_sampleRange (classify_sample_range ha hb)

/-- A range is enumerated without end exactly if it does not go upwards; otherwise all its numbers are listed in order. -/
theorem C61_range_iff {a b : Fixed} (ha : a.WF) (hb : b.WF) :
    ((∀ budget, parseSampleRange budget (a.text ++ '~' :: b.text) = .error .hang) ↔ ¬ Ascending a b) ∧
    (Ascending a b → ∀ budget, b.value - a.value < budget →
      parseSampleRange budget (a.text ++ '~' :: b.text) = .ok ((between a b).map Fixed.text)) := by
  refine ⟨⟨fun h hu => ?_, fun h budget => range_never ha hb h budget⟩, fun h budget hw => range_up hb h hw⟩
  have := h (b.value - a.value + 1)
  rw [range_up hb hu (by omega)] at this
  cases this

/-- Every text in which all ranges go upwards is parsed in finitely many steps, whether it is a rule or not. -/
theorem C61_returns (text : List Char) (h : ∀ a b : Fixed, a.WF → b.WF → Occurs (generateTokens text) a b → Ascending a b)
    (budget : Nat) (hb : 10 ^ text.length ≤ budget) : ∃ r, parse budget text = r ∧ r ≠ .error .hang ∧ r ≠ .error .fuel :=
  ⟨_, rfl, parse_returns h hb, parse_no_fuel budget text⟩

/-- The numbers `0.0` and `1.5` with one place; the range goes upwards. -/
example : (⟨true, 1, 0⟩ : Fixed).text = "0.0".toList ∧ (⟨true, 1, 15⟩ : Fixed).text = "1.5".toList ∧
    Ascending ⟨true, 1, 0⟩ ⟨true, 1, 15⟩ ∧ (⟨true, 1, 15⟩ : Fixed).WF ∧ (between ⟨true, 1, 0⟩ ⟨true, 1, 15⟩).length = 16 := by
  refine ⟨by decide, by decide, ⟨rfl, rfl, by decide⟩, by simp [Fixed.WF], by decide⟩

example : parseSampleRange 5 "9.8~10.1".toList = .ok ["9.8".toList, "9.9".toList, "10.0".toList, "10.1".toList] := by decide

/-- Ranges between numbers with different numbers of places do not end. -/
example : ¬ Ascending ⟨true, 1, 0⟩ ⟨true, 2, 15⟩ := fun h => absurd h.2.1 (by decide)

/-! ## C101 -/

/-- A rule is the same with and without samples, and all samples are read, with ranges written out. -/
theorem C101_read {b : Nat} (hb : b ≤ 2 ^ 63) {c : Cond} (hc : c.WF b) {gs : List Group} (hg : ∀ g ∈ gs, g.WF) (hu : Upwards gs)
    {budget : Nat} (hw : ∀ g ∈ gs, ∀ x y, Sample.range x y ∈ g.samples → y.value - x.value < budget) :
    ∃ rule, parse budget (c.text ++ samplesText gs) = .ok rule ∧ parse budget c.text = .ok ⟨rule.root, []⟩ ∧ rule.root ≠ none ∧
      rule.samples = gs.flatMap fun g => g.samples.flatMap Sample.numbers := by
  have ht : Tail (generateTokens (samplesText gs)) := by
    rw [words_samples gs hg]
    cases gs with
    | nil => exact .nil
    | cons g gs =>
      rw [List.flatMap_cons, groupAtoms, List.cons_append, List.map_cons, Atom.text]
      cases g.decimal
      · exact .integer
      · exact .decimal
  have hs : samplesText gs = [] ∨ ∃ x r, samplesText gs = x :: r ∧ sepc x = true := by
    cases gs with
    | nil => exact .inl rfl
    | cons g gs => exact .inr ⟨' ', _, rfl, by decide⟩
  have h := parse_cond hb hc budget hs ht
  rw [(group_samples hg (by rw [words_samples gs hg]; simp only [List.length_map]; omega)).1 fun x y ⟨g, hm, hr⟩ =>
    ⟨hu g hm x y hr, hw g hm x y hr⟩] at h
  exact ⟨_, h, parse_cond_plain hb hc budget, by simp, rfl⟩

/-- The same for `other`, which has samples only. -/
theorem C101_other {gs : List Group} (hg : ∀ g ∈ gs, g.WF) (hne : gs ≠ []) (hu : Upwards gs) {budget : Nat}
    (hw : ∀ g ∈ gs, ∀ x y, Sample.range x y ∈ g.samples → y.value - x.value < budget) :
    parse budget (samplesText gs) = .ok ⟨none, gs.flatMap fun g => g.samples.flatMap Sample.numbers⟩ := by
  have hgs := (group_samples hg (budget := budget) (f := (generateTokens (samplesText gs)).length + 3)
    (by rw [words_samples gs hg]; simp only [List.length_map]; omega)).1 fun x y ⟨g, hm, hr⟩ => ⟨hu g hm x y hr, hw g hm x y hr⟩
  have ht : (stateOf (generateTokens (samplesText gs))).tok = .sample := by
    rw [words_samples gs hg]
    cases gs with
    | nil => exact absurd rfl hne
    | cons g gs => rw [List.flatMap_cons, groupAtoms, List.cons_append, List.map_cons, stateOf_marker]
  unfold parse parseTokens
  rw [scanNext_eq (by simp only []; rw [ht]; decide)]
  simp only [bind, Except.bind]
  rw [if_neg (by rw [ht]; simp), hgs]

/-- A rule with samples is parsed without end exactly if some range does not go upwards. -/
theorem C101_hangs_iff {b : Nat} (hb : b ≤ 2 ^ 63) {c : Cond} (hc : c.WF b) {gs : List Group} (hg : ∀ g ∈ gs, g.WF) :
    (∀ budget, parse budget (c.text ++ samplesText gs) = .error .hang) ↔ ¬ Upwards gs := by
  constructor
  · intro h hu
    obtain ⟨B, hB⟩ : ∃ B, ∀ g ∈ gs, ∀ x y, Sample.range x y ∈ g.samples → y.value - x.value < B := by
      have one : ∀ l : List Sample, ∃ B, ∀ x y, Sample.range x y ∈ l → y.value - x.value < B := by
        intro l
        induction l with
        | nil => exact ⟨0, fun x y h => by cases h⟩
        | cons s l ih =>
          obtain ⟨B, hB⟩ := ih
          cases s with
          | range x y =>
            refine ⟨B + (y.value - x.value + 1), fun x' y' h => ?_⟩
            rcases List.mem_cons.mp h with h | h
            · injection h with h1 h2; subst h1 h2; omega
            · have := hB x' y' h; omega
          | one x => exact ⟨B, fun x' y' h => hB x' y' (by simpa using h)⟩
          | compact x e => exact ⟨B, fun x' y' h => hB x' y' (by simpa using h)⟩
      clear h hu hg
      induction gs with
      | nil => exact ⟨0, fun g h => by cases h⟩
      | cons g gs ih =>
        obtain ⟨B, hB⟩ := ih
        obtain ⟨B', hB'⟩ := one g.samples
        refine ⟨B + B', fun g' h x y hr => ?_⟩
        rcases List.mem_cons.mp h with rfl | h
        · have := hB' x y hr; omega
        · have := hB g' h x y hr; omega
    obtain ⟨rule, hr, _⟩ := C101_read hb hc hg hu hB
    rw [h B] at hr
    cases hr
  · intro hn budget
    have ht : Tail (generateTokens (samplesText gs)) := by
      rw [words_samples gs hg]
      cases gs with
      | nil => exact .nil
      | cons g gs =>
        rw [List.flatMap_cons, groupAtoms, List.cons_append, List.map_cons, Atom.text]
        cases g.decimal
        · exact .integer
        · exact .decimal
    have hs : samplesText gs = [] ∨ ∃ x r, samplesText gs = x :: r ∧ sepc x = true := by
      cases gs with
      | nil => exact .inl rfl
      | cons g gs => exact .inr ⟨' ', _, rfl, by decide⟩
    rw [parse_cond hb hc budget hs ht, (group_samples hg (by rw [words_samples gs hg]; simp only [List.length_map]; omega)).2 hn]
    rfl

/-- The French rule for `many` without its condition on `e`: `@integer 1000000, 1c6, 2c6, … @decimal 1.0000001c6, 1.1c6`; and
the samples for `one` in German and `other` in English. -/
def many : List Group := [⟨false, [.one ⟨false, 0, 1000000⟩, .compact ⟨false, 0, 1⟩ 6, .compact ⟨false, 0, 2⟩ 6], true⟩,
  ⟨true, [.compact ⟨true, 7, 10000001⟩ 6, .compact ⟨true, 1, 11⟩ 6], false⟩]

def english : List Group := [⟨false, [.one ⟨false, 0, 0⟩, .range ⟨false, 0, 2⟩ ⟨false, 0, 16⟩, .one ⟨false, 0, 100⟩], true⟩,
  ⟨true, [.range ⟨true, 1, 0⟩ ⟨true, 1, 15⟩, .one ⟨true, 1, 100⟩], true⟩]

example : samplesText many = " @integer 1000000, 1c6, 2c6, … @decimal 1.0000001c6, 1.1c6".toList ∧
    samplesText english = " @integer 0, 2~16, 100, … @decimal 0.0~1.5, 10.0, …".toList := by decide +kernel

theorem many_wf : (∀ g ∈ many, g.WF) ∧ Upwards many := by
  constructor
  · intro g hg
    simp only [many, List.mem_cons, List.not_mem_nil, or_false] at hg
    rcases hg with rfl | rfl <;> refine ⟨by simp, ?_⟩ <;> simp [Sample.WF, Fixed.WF]
  · intro g hg a b h
    simp only [many, List.mem_cons, List.not_mem_nil, or_false] at hg
    rcases hg with rfl | rfl <;> simp at h

theorem english_wf : (∀ g ∈ english, g.WF) ∧ Upwards english := by
  constructor
  · intro g hg
    simp only [english, List.mem_cons, List.not_mem_nil, or_false] at hg
    rcases hg with rfl | rfl <;> refine ⟨by simp, ?_⟩ <;> simp [Sample.WF, Fixed.WF]
  · intro g hg a b h
    simp only [english, List.mem_cons, List.not_mem_nil, or_false] at hg
    rcases hg with rfl | rfl <;> simp at h <;> obtain ⟨rfl, rfl⟩ := h <;> exact ⟨rfl, rfl, by decide⟩

/-- `i = 1 and v = 0` with these samples. -/
def one : Cond := [[⟨.i, none, false, [(1, none)]⟩, ⟨.v, none, false, [(0, none)]⟩]]

example : ∃ rule, parse 20 (one.text ++ samplesText english) = .ok rule ∧ rule.samples.length = 34 := by
  obtain ⟨rule, h, _, _, hs⟩ := C101_read (b := 2 ^ 53) (by decide) (c := one) (condOk_wf (by decide +kernel)) english_wf.1 english_wf.2
    (budget := 20) (by
      intro g hg a b h
      simp only [english, List.mem_cons, List.not_mem_nil, or_false] at hg
      rcases hg with rfl | rfl <;> simp at h <;> obtain ⟨rfl, rfl⟩ := h <;> decide)
  exact ⟨rule, h, by rw [hs]; decide +kernel⟩

/-- `@integer 16~2`. -/
example : ∀ budget, parse budget (one.text ++ samplesText [⟨false, [.range ⟨false, 0, 16⟩ ⟨false, 0, 2⟩], false⟩]) = .error .hang :=
  (C101_hangs_iff (b := 2 ^ 53) (by decide) (c := one) (condOk_wf (by decide +kernel)) (by simp [Group.WF, Sample.WF, Fixed.WF])).mpr fun h =>
    absurd (h _ List.mem_cons_self _ _ List.mem_cons_self).2.2 (by decide)

end Verif.Props.Samples
