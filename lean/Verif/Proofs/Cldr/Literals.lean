import Verif.Proofs.Cldr.Samples
import Verif.Spec.CldrRules
/-! The regular expressions of the scanner of CLDR rules accept exactly the numbers of the specification. -/
namespace Verif.Proofs.Cldr.Rules
open Verif.Go Verif.Model.Cldr Verif.Spec.Cldr Verif.Cldr

theorem takeWhile_all (s : List Char) : AllDigits (s.takeWhile Char.isDigit) := fun _ h => of_takeWhile h

theorem dropWhile_nil {s : List Char} (h : s.dropWhile Char.isDigit = []) : AllDigits s := by
  have := List.takeWhile_append_dropWhile (p := Char.isDigit) (l := s)
  rw [h, List.append_nil] at this
  rw [← this]; exact takeWhile_all s

theorem reValue_iff {s : List Char} : reValue s = true ↔ s ≠ [] ∧ AllDigits s := by
  simp [reValue, AllDigits]

theorem afterInt_some {s r : List Char} (h : afterInt s = some r) : ∃ i, Canonical i ∧ s = i ++ r ∧ (s.head? ≠ some '0' → i ≠ ['0']) := by
  unfold afterInt at h
  split at h
  · cases h
    exact ⟨['0'], ⟨by simp, by intro c hc; simp at hc; subst hc; rfl, fun _ => rfl⟩, rfl, by simp⟩
  · rename_i c t h0
    split at h
    · rename_i hd
      cases h
      have hne : c ≠ '0' := fun e => h0 e
      refine ⟨c :: t.takeWhile Char.isDigit, ⟨by simp, ?_, ?_⟩, ?_, ?_⟩
      · intro x hx
        rcases List.mem_cons.mp hx with rfl | hx
        · exact hd
        · exact of_takeWhile hx
      · intro e; simp at e; exact absurd e hne
      · rw [List.cons_append, List.takeWhile_append_dropWhile]
      · intro _ e; exact hne (List.cons.inj e).1
    · cases h
  · cases h

theorem point_tail {i r : List Char} (hi : Canonical i) (h : (match r with
    | '.' :: r => optC (· = []) (r.dropWhile Char.isDigit)
    | _ => false) = true) : IsSample (i ++ r) := by
  split at h
  · rename_i r
    have e := List.takeWhile_append_dropWhile (p := Char.isDigit) (l := r)
    unfold optC at h
    split at h
    · rename_i q hq
      have := dropWhile_nil (of_decide_eq_true h)
      rw [← e, hq]
      exact .pointExp hi (takeWhile_all _) this
    · exact .point hi (dropWhile_nil (of_decide_eq_true h))
  · cases h

theorem frac_tail {i r : List Char} (hi : Canonical i) (h : optFraction r = true) : IsSample (i ++ r) := by
  unfold optFraction at h
  split at h
  · rw [List.append_nil]; exact .digits hi.1 hi.2.1
  · exact .point hi (fun c hc => List.all_eq_true.mp h c hc)
  · cases h

theorem exp_tail {i r : List Char} (hi : Canonical i) (h0 : i ≠ ['0']) (h : optC optFraction r = true) : IsSample (i ++ r) := by
  unfold optC at h
  split at h
  · rename_i r
    have e := List.takeWhile_append_dropWhile (p := Char.isDigit) (l := r)
    unfold optFraction at h
    split at h
    · rename_i hq
      exact .exp hi h0 (dropWhile_nil hq)
    · rename_i q hq
      rw [← e, hq]
      exact .expPoint hi h0 (takeWhile_all _) (fun c hc => List.all_eq_true.mp h c hc)
    · cases h
  · exact frac_tail hi h

theorem sampleValue_sound {s : List Char} (h : reSampleValue s = true) : IsSample s := by
  unfold reSampleValue at h
  split at h
  · rename_i r
    have hz : Canonical ['0'] := ⟨by simp, by intro c hc; simp at hc; subst hc; rfl, fun _ => rfl⟩
    rw [Bool.or_eq_true] at h
    rcases h with h | h
    · exact frac_tail hz h
    · exact point_tail hz h
  · rename_i hn
    have hz : s.head? ≠ some '0' := by
      intro e
      cases s with
      | nil => cases e
      | cons c r => simp at e; exact hn r (by rw [e])
    split at h
    · cases h
    · rename_i r ha
      obtain ⟨i, hi, rfl, h0⟩ := afterInt_some ha
      rw [Bool.or_eq_true] at h
      rcases h with h | h
      · exact exp_tail hi (h0 hz) h
      · exact point_tail hi h

theorem canonical_dec {i : List Char} (h : Canonical i) : ∃ n, i = dec n ∧ (i ≠ ['0'] → n ≠ 0) := by
  obtain ⟨h1, h2, h3⟩ := h
  cases i with
  | nil => exact absurd rfl h1
  | cons c r =>
    rcases Decidable.em (c = '0') with rfl | hc
    · rw [h3 rfl]
      exact ⟨0, by decide, fun h => absurd rfl h⟩
    · refine ⟨_, (dec_of hc h2).symm, fun _ e => ?_⟩
      have := dec_of hc h2
      rw [e] at this
      exact hc (List.cons.inj this).1.symm

theorem classify_sampleValue {s : List Char} {c : Char} (h : c ∈ s) (hc : c.isDigit = false) (hs : reSampleValue s = true) :
    classify s = .sampleValue := by
  unfold classify
  rw [if_neg (by rw [reValue_not h hc]; simp), if_pos hs]

theorem sample_complete {s : List Char} (h : IsSample s) : classify s = .value ∨ classify s = .sampleValue := by
  cases h with
  | digits h0 h => left; unfold classify; rw [if_pos (reValue_iff.mpr ⟨h0, h⟩)]
  | point hi hf =>
    right
    refine classify_sampleValue (c := '.') (by simp) rfl ?_
    obtain ⟨n, rfl, _⟩ := canonical_dec hi
    rw [sampleValue_of_int rfl]
    have := List.all_eq_true.mpr hf
    split <;> simp [optC, optFraction, this]
  | pointExp hi hf he =>
    right
    refine classify_sampleValue (c := '.') (by simp) rfl ?_
    obtain ⟨n, rfl, _⟩ := canonical_dec hi
    rw [sampleValue_of_int rfl]
    simp only [dropWhile_app hf, List.dropWhile_cons_of_neg (show ¬ 'c'.isDigit = true by decide), optC,
      dropWhile_digits he, decide_true, Bool.or_true]
  | exp hi h0 he =>
    right
    refine classify_sampleValue (c := 'c') (by simp) rfl ?_
    obtain ⟨n, rfl, hn⟩ := canonical_dec hi
    rw [sampleValue_of_int rfl, if_neg (hn h0)]
    simp [optC, dropWhile_digits he, optFraction]
  | expPoint hi h0 he hf =>
    right
    refine classify_sampleValue (c := '.') (by simp) rfl ?_
    obtain ⟨n, rfl, hn⟩ := canonical_dec hi
    rw [sampleValue_of_int rfl, if_neg (hn h0)]
    have := List.all_eq_true.mpr hf
    simp [optC, dropWhile_app he, List.dropWhile_cons_of_neg (show ¬ '.'.isDigit = true by decide), optFraction, this]

theorem classify_value_iff {s : List Char} : classify s = .value ↔ s ≠ [] ∧ AllDigits s := by
  rw [← reValue_iff]
  unfold classify
  constructor
  · intro h
    split at h
    · assumption
    all_goals (repeat' split at h) <;> cases h
  · intro h; rw [if_pos h]

theorem sample_iff {s : List Char} : (classify s = .value ∨ classify s = .sampleValue) ↔ IsSample s := by
  refine ⟨?_, sample_complete⟩
  rintro (h | h)
  · obtain ⟨h0, h⟩ := classify_value_iff.mp h; exact .digits h0 h
  · unfold classify at h
    split at h
    · cases h
    · split at h
      · rename_i hs; exact sampleValue_sound hs
      · (repeat' split at h) <;> cases h

theorem digits_no_dot {a : List Char} (h : AllDigits a) {r : List Char} : splitRange (a ++ '.' :: '.' :: r) = some (a, r) := by
  induction a with
  | nil => rfl
  | cons c l ih =>
    have hc := digit_ne (h c List.mem_cons_self) (rfl : '.'.isDigit = false)
    have ih := ih fun x hx => h x (List.mem_cons_of_mem _ hx)
    simp only [List.cons_append]
    unfold splitRange
    split
    · rename_i he; exact absurd (List.cons.inj he).1 hc
    · rename_i he; cases he; rw [ih]; rfl
    · rename_i he; cases he

theorem reRange_parts {s : List Char} (h : reRange s = true) : ∃ a b, s = a ++ '.' :: '.' :: b ∧ a ≠ [] ∧ AllDigits a ∧
    b ≠ [] ∧ AllDigits b ∧ b.head? ≠ some '0' := by
  unfold reRange at h
  rw [Bool.and_eq_true] at h
  have e := List.takeWhile_append_dropWhile (p := Char.isDigit) (l := s)
  obtain ⟨h1, h2⟩ := h
  split at h2
  · rename_i c r hd
    simp only [Bool.and_eq_true, decide_eq_true_eq, ne_eq] at h1 h2
    refine ⟨s.takeWhile Char.isDigit, c :: r, by rw [← hd, e], h1, takeWhile_all _, by simp, ?_, ?_⟩
    · intro x hx
      rcases List.mem_cons.mp hx with rfl | hx
      · exact h2.1.2
      · exact List.all_eq_true.mp h2.2 x hx
    · simp; exact h2.1.1
  · cases h2

theorem parseInt_large {ds : List Char} (h0 : ds ≠ []) (h : AllDigits ds)
    (hv : ¬ Spec.Cldr.digitsVal ds < 2 ^ 63) : parseInt ds = none := by
  obtain ⟨c, r, rfl, _, hm, hp⟩ := digits_cons h0 h
  unfold parseInt
  split
  rename_i neg ds' hs
  split at hs
  · rename_i hs'; exact absurd (List.cons.inj hs').1 hm
  · rename_i hs'; exact absurd (List.cons.inj hs').1 hp
  · cases hs
    rw [if_neg (by simp only [allDigits_iff.mpr h]; simp)]
    simp only [Bool.false_eq_true, if_false, digitsVal_eq]
    rw [if_neg (by omega)]

theorem satInt_min (w : List Char) : satInt w = ((min (Spec.Cldr.digitsVal w) (2 ^ 63 - 1) : Nat) : Int) := by
  unfold satInt
  rw [digitsVal_eq]
  split <;> omega

theorem scanNext_all (st : PState) : scanNext st = .ok (stateOf st.rest) := by
  unfold scanNext scanToken
  exact if_neg (by decide)

/-- What `item` does with a literal of the kind that the scanner found. -/
theorem item_sound {st st' : PState} {x : Item} (hk : st.tok = .value ∨ st.tok = .valueRange → st.tok = classify st.lit)
    (h : item st = .ok (x, st')) :
    ∃ it, x = astItem it ∧ IsItem st.lit it ∧ st' = stateOf st.rest ∧ (st.tok = .value ∨ st.tok = .valueRange) := by
  unfold item at h
  split at h
  · rename_i ht
    have hc := classify_value_iff.mp ((hk (Or.inl ht)) ▸ ht)
    simp only [value, ht, ne_eq, not_true_eq_false, if_false, scanNext_all, bind, Except.bind] at h
    cases h
    exact ⟨_, by rw [satInt_min]; rfl, .value hc.1 hc.2, rfl, Or.inl ht⟩
  · split at h
    · rename_i ht
      have hc : reRange st.lit = true := by
        have hc := (hk (Or.inr ht)) ▸ ht
        unfold classify at hc
        split at hc
        · cases hc
        split at hc
        · cases hc
        split at hc
        · assumption
        split at hc <;> cases hc
      obtain ⟨a, b, hl, ha0, ha, hb0, hb, hz⟩ := reRange_parts hc
      unfold rangeExpression at h
      rw [hl, digits_no_dot ha] at h
      simp only [] at h
      rcases Decidable.em (Spec.Cldr.digitsVal a < 2 ^ 63) with h1 | h1
      · rw [parseInt_digits ha0 ha h1] at h
        rcases Decidable.em (Spec.Cldr.digitsVal b < 2 ^ 63) with h2 | h2
        · rw [parseInt_digits hb0 hb h2] at h
          simp only [scanNext_all, bind, Except.bind] at h
          split at h
          · cases h
          · rename_i hle
            cases h
            exact ⟨(_, some _), rfl, by rw [hl]; exact .range ha0 ha hb0 hb hz (by omega) h2, rfl, Or.inr ht⟩
        · rw [parseInt_large hb0 hb h2] at h
          cases h
      · rw [parseInt_large ha0 ha h1] at h
        cases h
    · cases h

theorem item_classify {w : List Char} {it : Nat × Option Nat} (h : IsItem w it) :
    classify w = .value ∧ it.2 = none ∨ classify w = .valueRange ∧ it.2 ≠ none := by
  cases h with
  | value h0 h => exact Or.inl ⟨classify_value_iff.mpr ⟨h0, h⟩, rfl⟩
  | @range a b ha0 ha hb0 hb hz hle hlt =>
    right
    refine ⟨?_, by simp⟩
    have hr : reRange (a ++ '.' :: '.' :: b) = true := by
      unfold reRange
      rw [takeWhile_app ha, dropWhile_app ha]
      cases b with
      | nil => exact absurd rfl hb0
      | cons c r =>
        simp only [List.takeWhile_cons_of_neg (show ¬ '.'.isDigit = true by decide),
          List.dropWhile_cons_of_neg (show ¬ '.'.isDigit = true by decide), List.append_nil]
        have h1 : c ≠ '0' := by simpa using hz
        have h2 : c.isDigit = true := hb c List.mem_cons_self
        have h3 : r.all Char.isDigit = true := List.all_eq_true.mpr fun x hx => hb x (List.mem_cons_of_mem _ hx)
        simp [ha0, h1, h2, h3]
    unfold classify
    rw [if_neg (by rw [reValue_not (c := '.') (by simp) (by decide)]; simp), if_neg, if_pos hr]
    intro hs
    have hcount : ∀ {l : List Char}, AllDigits l → l.count '.' = 0 := by
      intro l hl
      exact List.count_eq_zero.mpr fun hm => by have := hl _ hm; revert this; decide
    have hi := sampleValue_sound hs
    generalize hw : a ++ '.' :: '.' :: b = w at hi
    have hc : w.count '.' = 2 := by
      rw [← hw]; simp [hcount ha, hcount hb]
    cases hi with
    | digits _ h => rw [hcount h] at hc; cases hc
    | point h1 h2 => simp [hcount h1.2.1, hcount h2] at hc
    | pointExp h1 h2 h3 => simp [hcount h1.2.1, hcount h2, hcount h3] at hc
    | exp h1 h2 h3 => simp [hcount h1.2.1, hcount h3] at hc
    | expPoint h1 h2 h3 h4 => simp [hcount h1.2.1, hcount h3, hcount h4] at hc

theorem item_complete {st : PState} {it : Nat × Option Nat} (hk : st.tok = classify st.lit) (h : IsItem st.lit it) :
    item st = .ok (astItem it, stateOf st.rest) ∧ (st.tok = .value ∨ st.tok = .valueRange) := by
  have hc := item_classify h
  unfold item
  generalize hw : st.lit = w at *
  cases h with
  | value h0 h =>
    have ht : st.tok = .value := by rw [hk]; exact classify_value_iff.mpr ⟨h0, h⟩
    refine ⟨?_, Or.inl ht⟩
    rw [if_pos ht]
    simp only [value, ht, ne_eq, not_true_eq_false, if_false, scanNext_all, bind, Except.bind, satInt_min, hw]
    rfl
  | range ha0 ha hb0 hb hz hle hlt =>
    have ht : st.tok = .valueRange := by
      rcases hc with hc | hc
      · cases hc.2
      · rw [hk]; exact hc.1
    refine ⟨?_, Or.inr ht⟩
    rw [if_neg (by rw [ht]; decide), if_pos ht]
    unfold rangeExpression
    rw [hw, digits_no_dot ha]
    simp only [parseInt_digits ha0 ha (Nat.lt_of_le_of_lt hle hlt), parseInt_digits hb0 hb hlt, scanNext_all, bind, Except.bind]
    rw [if_neg (by omega)]
    rfl

end Verif.Proofs.Cldr.Rules
