import Verif.Proofs.Gen.Sets
/-!
# The labels of the generated switch statements
-/
namespace Verif.Proofs.Gen
open Verif.Go Verif.Model.Gen Verif.Spec.GenData

theorem quoted_inj {a b : Bytes} (h : quoted a = quoted b) : a = b := by
  unfold quoted at h
  exact List.append_cancel_right (List.cons.inj h).2

theorem mem_addKey {x y : Bytes} {l : List Bytes} : y ∈ addKey x l ↔ y ∈ l ∨ y = x := by
  unfold addKey
  split
  · rename_i h
    exact ⟨.inl, fun h' => h'.elim id (fun e => e ▸ h)⟩
  · simp

theorem nodup_addKey {x : Bytes} {l : List Bytes} (h : l.Nodup) : (addKey x l).Nodup := by
  unfold addKey
  split
  · exact h
  · rename_i hx
    exact List.nodup_append.mpr ⟨h, by simp, fun a ha b hb => by
      simp only [List.mem_singleton] at hb; subst hb; exact fun e => hx (e ▸ ha)⟩

theorem caseKeys_spec {canon : Bytes → Option Bytes} : ∀ {langs acc keys : List Bytes}, caseKeys canon acc langs = some keys →
    acc.Nodup → keys.Nodup ∧ (∀ x, x ∈ keys ↔ x ∈ acc ∨ ∃ l ∈ langs, ∃ y, Spelling canon l y ∧ x = quoted y) ∧
      ∀ l ∈ langs, ∃ p, canon l = some p
  | [], acc, keys, h, hn => by
    cases h
    exact ⟨hn, by simp, by simp⟩
  | l :: ls, acc, keys, h, hn => by
    unfold caseKeys at h
    split at h
    · cases h
    · rename_i p hp
      obtain ⟨h1, h2, h3⟩ := caseKeys_spec h (by
        split
        · exact nodup_addKey (nodup_addKey hn)
        · exact nodup_addKey hn)
      refine ⟨h1, fun x => ?_, fun l' hl' => ?_⟩
      · rw [h2]
        have hstep : x ∈ (if l ≠ p then addKey (quoted p) (addKey (quoted l) acc) else addKey (quoted l) acc) ↔
            x ∈ acc ∨ ∃ y, Spelling canon l y ∧ x = quoted y := by
          have : (∃ y, Spelling canon l y ∧ x = quoted y) ↔ x = quoted l ∨ x = quoted p := by
            unfold Spelling
            constructor
            · rintro ⟨y, rfl | hy, rfl⟩
              · exact .inl rfl
              · rw [hp] at hy; cases hy; exact .inr rfl
            · rintro (rfl | rfl)
              · exact ⟨l, .inl rfl, rfl⟩
              · exact ⟨p, .inr hp, rfl⟩
          rw [this]
          split
          · rw [mem_addKey, mem_addKey, or_assoc]
          · rename_i he
            have he : l = p := by simpa using he
            rw [mem_addKey, he, or_self]
        rw [hstep]
        constructor
        · rintro ((h | h) | ⟨l', hl', h⟩)
          · exact .inl h
          · exact .inr ⟨l, by simp, h⟩
          · exact .inr ⟨l', List.mem_cons_of_mem _ hl', h⟩
        · rintro (h' | ⟨l', hl', h'⟩)
          · exact .inl (.inl h')
          · rcases List.mem_cons.mp hl' with rfl | hl'
            · exact .inl (.inr h')
            · exact .inr ⟨l', hl', h'⟩
      · rcases List.mem_cons.mp hl' with rfl | hl'
        · exact ⟨p, hp⟩
        · exact h3 l' hl'

theorem caseLabels_spec {canon : Bytes → Option Bytes} {langs labels : List Bytes} (h : caseLabels canon langs = some labels) :
    labels.Nodup ∧ ∀ x, x ∈ labels ↔ ∃ l ∈ langs, ∃ y, Spelling canon l y ∧ x = quoted y := by
  unfold caseLabels at h
  obtain ⟨keys, hk, rfl⟩ := Option.map_eq_some_iff.mp h
  obtain ⟨h1, h2, -⟩ := caseKeys_spec hk List.nodup_nil
  exact ⟨(sortBy_perm _ _).nodup_iff.mpr h1, fun x => by rw [mem_sortBy, h2]; simp⟩

end Verif.Proofs.Gen
