import Verif.Model.PoPlural.Examples
import Verif.Spec.Examples
import Verif.Proofs.Po.EntryRead
/-!
# Lemmas: the examples for the generated tests
-/
namespace Verif.Proofs.PoPlural.Examples
open Verif.Go
open Verif.Model.Po (trimSpace)
open Verif.Model.PoPlural.Examples Verif.Spec.Examples

theorem countUp_eq (n : Nat) : ∀ i : Int, countUp n i = (List.range n).map fun k : Nat => itoa (i + k) := by
  induction n with
  | zero => intro i; rfl
  | succ n ih =>
    intro i
    rw [countUp, ih, List.range_succ_eq_map, List.map_cons, List.map_map]
    congr 1
    · simp
    · refine List.map_congr_left fun k _ => ?_
      simp only [Function.comp]
      congr 1
      omega

theorem splitByte_append {c : UInt8} {x : Bytes} (h : c ∉ x) (y : Bytes) :
    splitByte c (x ++ c :: y) = x :: splitByte c y := by
  induction x with
  | nil => simp [splitByte]
  | cons b x ih =>
    rw [List.mem_cons, not_or] at h
    rw [List.cons_append, splitByte, if_neg fun e => h.1 e.symm, ih h.2]

theorem splitByte_one {c : UInt8} {x : Bytes} (h : c ∉ x) : splitByte c x = [x] := by
  induction x with
  | nil => rfl
  | cons b x ih =>
    rw [List.mem_cons, not_or] at h
    rw [splitByte, if_neg fun e => h.1 e.symm, ih h.2]

theorem length_splitByte (c : UInt8) (s : Bytes) : (splitByte c s).length = s.count c + 1 := by
  induction s with
  | nil => rfl
  | cons b s ih =>
    rw [splitByte]
    split
    · rename_i h; subst h; simp [ih]
    · rename_i h
      rw [List.count_cons_of_ne (fun e => h e)]
      cases hs : splitByte c s with
      | nil => rw [hs] at ih; simp at ih
      | cons l ls => rw [hs] at ih; simpa using ih

/-- A text with exactly one separator. -/
theorem splitByte_two {c : UInt8} {s a b : Bytes} (h : splitByte c s = [a, b]) : s = a ++ c :: b ∧ c ∉ a ∧ c ∉ b := by
  have hj := Verif.Proofs.Po.join_splitByte c s
  rw [h] at hj
  have hs : s = a ++ c :: b := by rw [← hj]; simp [join]
  have hl := length_splitByte c s
  rw [h, hs, List.count_append, List.count_cons_self] at hl
  simp only [List.length_cons, List.length_nil] at hl
  refine ⟨hs, ?_, ?_⟩
  · exact List.count_eq_zero.1 (by omega)
  · exact List.count_eq_zero.1 (by omega)

/-- A part that is a range. -/
theorem split_isRange {p : Bytes} (h : IsRange p) : ∃ a b, splitByte 0x7e (trimSpace p) = [a, b] := by
  have hl := length_splitByte 0x7e (trimSpace p)
  unfold IsRange at h
  rw [h] at hl
  match hs : splitByte 0x7e (trimSpace p), hl with
  | [a, b], _ => exact ⟨a, b, rfl⟩

theorem range_split {p : Bytes} {a b : Int} (h : Range p a b) : ∃ x y, splitByte 0x7e (trimSpace p) = [x, y] ∧
    atoi x = some a ∧ atoi y = some b := by
  obtain ⟨x, y, h1, h2, h3, h4, h5⟩ := h
  exact ⟨x, y, by rw [h1, splitByte_append h2, splitByte_one h3], h4, h5⟩

theorem split_range {p x y : Bytes} {a b : Int} (h : splitByte 0x7e (trimSpace p) = [x, y]) (hx : atoi x = some a)
    (hy : atoi y = some b) : Range p a b := by
  obtain ⟨h1, h2, h3⟩ := splitByte_two h
  exact ⟨x, y, h1, h2, h3, hx, hy⟩

theorem range_isRange {p : Bytes} {a b : Int} (h : Range p a b) : IsRange p := by
  obtain ⟨x, y, h1, h2, h3, _⟩ := h
  unfold IsRange
  rw [h1, List.count_append, List.count_cons_self, List.count_eq_zero.2 h2, List.count_eq_zero.2 h3]

/-- A part can be read, and what it adds are its examples. -/
theorem addPart_iff (p : Bytes) (l : List Bytes) : addPart p = .ok l ↔
    (IsRange p → ∃ a b, Range p a b ∧ b ≠ 9223372036854775807) ∧ Shows p l := by
  by_cases hr : IsRange p
  · obtain ⟨x, y, hs⟩ := split_isRange hr
    unfold addPart
    simp only [hs]
    cases hx : atoi x with
    | none =>
      refine ⟨nofun, fun h => ?_⟩
      obtain ⟨a, b, h1, _⟩ := h.1 hr
      obtain ⟨x', y', h2, h3, _⟩ := range_split h1
      rw [hs] at h2; cases h2
      rw [hx] at h3; cases h3
    | some a =>
      simp only []
      cases hy : atoi y with
      | none =>
        refine ⟨nofun, fun h => ?_⟩
        obtain ⟨a, b, h1, _⟩ := h.1 hr
        obtain ⟨x', y', h2, _, h4⟩ := range_split h1
        rw [hs] at h2; cases h2
        rw [hy] at h4; cases h4
      | some b =>
        simp only [numbers]
        have huniq : ∀ a' b', Range p a' b' → a' = a ∧ b' = b := by
          intro a' b' h1
          obtain ⟨x', y', h2, h3, h4⟩ := range_split h1
          rw [hs] at h2; cases h2
          rw [hx] at h3; rw [hy] at h4
          exact ⟨(Option.some.inj h3).symm, (Option.some.inj h4).symm⟩
        by_cases hb : b = 9223372036854775807
        · rw [if_pos hb]
          refine ⟨nofun, fun h => ?_⟩
          obtain ⟨a', b', h1, h2⟩ := h.1 hr
          exact absurd ((huniq _ _ h1).2.trans hb) h2
        · rw [if_neg hb, countUp_eq]
          constructor
          · intro h
            cases h
            exact ⟨fun _ => ⟨a, b, split_range hs hx hy, hb⟩, .range (split_range hs hx hy)⟩
          · rintro ⟨_, h⟩
            cases h with
            | range h1 => obtain ⟨rfl, rfl⟩ := huniq _ _ h1; rfl
            | value h1 => exact absurd hr h1
  · have hl := length_splitByte 0x7e (trimSpace p)
    have : addPart p = .ok [(trimSpace p).map fun c => if c = 0x63 then 0x65 else c] := by
      unfold addPart
      simp only []
      split
      · rename_i x y hs
        exact absurd (by unfold IsRange; rw [hs] at hl; simp at hl; omega) hr
      · rfl
    rw [this]
    constructor
    · intro h; cases h; exact ⟨fun h => absurd h hr, .value hr⟩
    · rintro ⟨_, h⟩
      cases h with
      | range h1 => exact absurd (range_isRange h1) hr
      | value _ => rfl

theorem partLoop_iff (ps : List Bytes) : ∀ (acc l : List Bytes), partLoop acc ps = .ok l ↔
    (∀ p ∈ ps.takeWhile (· ≠ b!" …"), IsRange p → ∃ a b, Range p a b ∧ b ≠ 9223372036854775807) ∧
    ∃ l', l = acc ++ l' ∧ ShowsAll (ps.takeWhile (· ≠ b!" …")) l' := by
  induction ps with
  | nil =>
    intro acc l
    simp only [partLoop]
    constructor
    · intro h; cases h; exact ⟨nofun, [], (List.append_nil _).symm, .nil⟩
    · rintro ⟨_, l', rfl, h⟩; cases h; rw [List.append_nil]
  | cons p ps ih =>
    intro acc l
    rw [partLoop]
    by_cases hp : p = b!" …"
    · rw [if_pos hp, List.takeWhile_cons_of_neg (by simpa using hp)]
      constructor
      · intro h; cases h; exact ⟨nofun, [], (List.append_nil _).symm, .nil⟩
      · rintro ⟨_, l', rfl, h⟩; cases h; rw [List.append_nil]
    · rw [if_neg hp, List.takeWhile_cons_of_pos (by simpa using hp)]
      constructor
      · intro h
        cases ha : addPart p with
        | error s => rw [ha] at h; cases h
        | ok x =>
          rw [ha] at h
          obtain ⟨h1, l', rfl, h2⟩ := (ih _ _).1 h
          obtain ⟨g1, g2⟩ := (addPart_iff p x).1 ha
          refine ⟨?_, x ++ l', by simp, .cons g2 h2⟩
          intro q hq
          rcases List.mem_cons.1 hq with rfl | hq
          · exact g1
          · exact h1 q hq
      · rintro ⟨h1, l', rfl, h2⟩
        cases h2 with
        | @cons _ x _ y g1 g2 =>
          rw [(addPart_iff p x).2 ⟨h1 p List.mem_cons_self, g1⟩]
          exact (ih _ _).2 ⟨fun q hq => h1 q (List.mem_cons_of_mem _ hq), y, by simp, g2⟩

/-- A readable part shows something. -/
theorem shows_exists {p : Bytes} (h : IsRange p → ∃ a b, Range p a b ∧ b ≠ 9223372036854775807) : ∃ l, Shows p l := by
  by_cases hr : IsRange p
  · obtain ⟨a, b, h1, _⟩ := h hr
    exact ⟨_, .range h1⟩
  · exact ⟨_, .value hr⟩

theorem showsAll_exists {ps : List Bytes}
    (h : ∀ p ∈ ps, IsRange p → ∃ a b, Range p a b ∧ b ≠ 9223372036854775807) : ∃ l, ShowsAll ps l := by
  induction ps with
  | nil => exact ⟨_, .nil⟩
  | cons p ps ih =>
    obtain ⟨l, h1⟩ := shows_exists (h p List.mem_cons_self)
    obtain ⟨ls, h2⟩ := ih fun q hq => h q (List.mem_cons_of_mem _ hq)
    exact ⟨_, .cons h1 h2⟩

theorem caseIndex_iff (name : Bytes) (cs : List Bytes) : ∀ k i, caseIndex name k cs = some i ↔
    ∃ j, i = k + j ∧ FirstAt cs name j := by
  induction cs with
  | nil => intro k i; simp [caseIndex, FirstAt]
  | cons c cs ih =>
    intro k i
    rw [caseIndex]
    by_cases hc : c = name
    · rw [if_pos hc]
      constructor
      · intro h; cases h; exact ⟨0, rfl, by simp [hc], nofun⟩
      · rintro ⟨j, rfl, h1, h2⟩
        cases j with
        | zero => rfl
        | succ j => exact absurd (by simp [hc]) (h2 0 (by omega))
    · rw [if_neg hc, ih]
      constructor
      · rintro ⟨j, rfl, h1, h2⟩
        refine ⟨j + 1, by omega, by simpa using h1, ?_⟩
        intro m hm
        cases m with
        | zero => simpa using hc
        | succ m => simpa using h2 m (by omega)
      · rintro ⟨j, rfl, h1, h2⟩
        cases j with
        | zero => exact absurd (by simpa using h1) hc
        | succ j =>
          exact ⟨j, by omega, by simpa using h1, fun m hm => by simpa using h2 (m + 1) (by omega)⟩

theorem firstAt_name {cs : List Bytes} {a b : Bytes} {i : Nat} (h1 : FirstAt cs a i) (h2 : FirstAt cs b i) : a = b :=
  Option.some.inj (h1.1.symm.trans h2.1)

theorem caseLoop_iff (cs : List Bytes) (data : GoMap Bytes Bytes) : ∀ (acc : GoMap Nat (List Bytes)), data.WF →
    ((∃ m, caseLoop cs acc data = .ok m) ↔ ∀ p ∈ data, Readable p.2) ∧
    ∀ m, caseLoop cs acc data = .ok m → ∀ i l, m.get? i = some l ↔
      (∃ name text, (name, text) ∈ data ∧ FirstAt cs name i ∧ ShowsAll (parts text) l) ∨
      ((∀ name text, (name, text) ∈ data → ¬ FirstAt cs name i) ∧ acc.get? i = some l) := by
  induction data with
  | nil =>
    intro acc _
    refine ⟨⟨fun _ => nofun, fun _ => ⟨acc, rfl⟩⟩, ?_⟩
    intro m h i l
    cases h
    simp
  | cons p data ih =>
    intro acc hwf
    obtain ⟨name, text⟩ := p
    have hwf' : GoMap.WF data := (List.nodup_cons.1 hwf).2
    have hfresh : ∀ t, (name, t) ∉ data := by
      intro t ht
      exact (List.nodup_cons.1 hwf).1 (List.mem_map.2 ⟨_, ht, rfl⟩)
    rw [caseLoop]
    have hpl := fun l => partLoop_iff (splitByte 0x2c text) [] l
    cases hp : partLoop [] (splitByte 0x2c text) with
    | error s =>
      refine ⟨⟨fun ⟨m, h⟩ => (nomatch h), fun h => ?_⟩, nofun⟩
      have hr := h _ List.mem_cons_self
      obtain ⟨l, hl⟩ := showsAll_exists hr
      have := (hpl l).2 ⟨hr, l, rfl, hl⟩
      rw [hp] at this; cases this
    | ok ex =>
      obtain ⟨hr, l0, hl0, hsh⟩ := (hpl ex).1 hp
      rw [List.nil_append] at hl0
      subst hl0
      have huniq : ∀ l, ShowsAll (parts text) l → l = ex := by
        intro l hl
        have := (hpl l).2 ⟨hr, l, rfl, hl⟩
        rw [hp] at this
        exact (Except.ok.inj this).symm
      have hread : ∀ P : Prop, (P ↔ ∀ p ∈ data, Readable p.2) → (P ↔ ∀ p ∈ (name, text) :: data, Readable p.2) := by
        intro P hP
        rw [hP]
        constructor
        · intro h q hq
          rcases List.mem_cons.1 hq with rfl | hq
          · exact hr
          · exact h q hq
        · intro h q hq; exact h q (List.mem_cons_of_mem _ hq)
      simp only []
      cases hc : caseIndex name 0 cs with
      | none =>
        obtain ⟨i1, i2⟩ := ih acc hwf'
        refine ⟨hread _ i1, fun m hm i l => ?_⟩
        have hno : ∀ j, ¬ FirstAt cs name j := by
          intro j hj
          have := (caseIndex_iff name cs 0 j).2 ⟨j, by omega, hj⟩
          rw [hc] at this; cases this
        rw [i2 m hm i l]
        constructor
        · rintro (⟨n, t, h1, h2⟩ | ⟨h1, h2⟩)
          · exact .inl ⟨n, t, List.mem_cons_of_mem _ h1, h2⟩
          · refine .inr ⟨fun n t hn => ?_, h2⟩
            rcases List.mem_cons.1 hn with e | hn
            · cases e; exact hno i
            · exact h1 n t hn
        · rintro (⟨n, t, h1, h2⟩ | ⟨h1, h2⟩)
          · rcases List.mem_cons.1 h1 with e | h1
            · cases e; exact absurd h2.1 (hno i)
            · exact .inl ⟨n, t, h1, h2⟩
          · exact .inr ⟨fun n t hn => h1 n t (List.mem_cons_of_mem _ hn), h2⟩
      | some k =>
        obtain ⟨i1, i2⟩ := ih (acc.set k ex) hwf'
        refine ⟨hread _ i1, fun m hm i l => ?_⟩
        have hk : FirstAt cs name k := by
          obtain ⟨j, hj, h⟩ := (caseIndex_iff name cs 0 k).1 hc
          rw [Nat.zero_add] at hj; subst hj; exact h
        have hki : ∀ j, FirstAt cs name j → j = k := by
          intro j hj
          have := (caseIndex_iff name cs 0 j).2 ⟨j, by omega, hj⟩
          rw [hc] at this
          exact (Option.some.inj this).symm
        rw [i2 m hm i l, GoMap.get?_set]
        constructor
        · rintro (⟨n, t, h1, h2⟩ | ⟨h1, h2⟩)
          · exact .inl ⟨n, t, List.mem_cons_of_mem _ h1, h2⟩
          · by_cases e : k = i
            · subst e
              rw [if_pos rfl] at h2
              exact .inl ⟨name, text, List.mem_cons_self, hk, (Option.some.inj h2) ▸ hsh⟩
            · rw [if_neg e] at h2
              refine .inr ⟨fun n t hn => ?_, h2⟩
              rcases List.mem_cons.1 hn with e' | hn
              · cases e'; exact fun h => e (hki i h).symm
              · exact h1 n t hn
        · rintro (⟨n, t, h1, h2, h3⟩ | ⟨h1, h2⟩)
          · rcases List.mem_cons.1 h1 with e | h1
            · cases e
              have e := hki i h2
              subst e
              refine .inr ⟨fun n t hn h => ?_, by rw [if_pos rfl, huniq l h3]⟩
              have := firstAt_name hk h
              subst this
              exact hfresh t hn
            · exact .inl ⟨n, t, h1, h2, h3⟩
          · have e : k ≠ i := fun e => h1 name text List.mem_cons_self (e ▸ hk)
            exact .inr ⟨fun n t hn => h1 n t (List.mem_cons_of_mem _ hn), by rw [if_neg e]; exact h2⟩

end Verif.Proofs.PoPlural.Examples
