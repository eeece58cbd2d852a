import Verif.Go.Bytes
/-! Lemmas about splitting, joining and searching byte strings. -/
namespace Verif.Go

theorem splitByte_ne_nil (sep : UInt8) (s : Bytes) : splitByte sep s ≠ [] := by
  cases s with
  | nil => simp [splitByte]
  | cons c cs =>
    unfold splitByte
    split
    · simp
    · split <;> simp

theorem splitByte_append_sep (sep : UInt8) (x y : Bytes) :
    splitByte sep (x ++ sep :: y) = splitByte sep x ++ splitByte sep y := by
  induction x with
  | nil => simp [splitByte]
  | cons c cs ih =>
    simp only [List.cons_append, splitByte]
    split
    · rw [ih]; simp
    · rw [ih]
      cases h : splitByte sep cs with
      | nil => exact absurd h (splitByte_ne_nil sep cs)
      | cons l ls => simp

theorem splitByte_of_not_mem (sep : UInt8) (s : Bytes) (h : sep ∉ s) : splitByte sep s = [s] := by
  induction s with
  | nil => rfl
  | cons c cs ih =>
    simp at h
    unfold splitByte
    rw [if_neg (fun e => h.1 e.symm), ih h.2]

theorem splitByte_line (sep : UInt8) (a b : Bytes) (h : sep ∉ a) :
    splitByte sep (a ++ sep :: b) = a :: splitByte sep b := by
  rw [splitByte_append_sep, splitByte_of_not_mem sep a h]; rfl

/-- First-separator decomposition. -/
theorem exists_first (sep : UInt8) (s : Bytes) (h : sep ∈ s) : ∃ a b, s = a ++ sep :: b ∧ sep ∉ a := by
  induction s with
  | nil => simp at h
  | cons c cs ih =>
    by_cases hc : c = sep
    · exact ⟨[], cs, by simp [hc], by simp⟩
    · have : sep ∈ cs := by
        rcases List.mem_cons.1 h with h | h
        · exact absurd h.symm hc
        · exact h
      obtain ⟨a, b, h1, h2⟩ := ih this
      exact ⟨c :: a, b, by simp [h1], by simp [h2, Ne.symm hc]⟩

/-- Last-separator decomposition. -/
theorem exists_last (sep : UInt8) (s : Bytes) (h : sep ∈ s) : ∃ a b, s = a ++ sep :: b ∧ sep ∉ b := by
  induction s with
  | nil => simp at h
  | cons c cs ih =>
    by_cases hc : sep ∈ cs
    · obtain ⟨a, b, h1, h2⟩ := ih hc
      exact ⟨c :: a, b, by simp [h1], h2⟩
    · have : c = sep := by
        rcases List.mem_cons.1 h with h | h
        · exact h.symm
        · exact absurd h hc
      exact ⟨[], cs, by simp [this], hc⟩

theorem splitByte_join (sep : UInt8) (ls : List Bytes) (hne : ls ≠ []) (h : ∀ l ∈ ls, sep ∉ l) :
    splitByte sep (join [sep] ls) = ls := by
  induction ls with
  | nil => exact absurd rfl hne
  | cons l ls ih =>
    cases ls with
    | nil => simp [join, splitByte_of_not_mem sep l (h l List.mem_cons_self)]
    | cons m ms =>
      simp only [join, List.append_assoc, List.singleton_append]
      rw [splitByte_line _ _ _ (h l List.mem_cons_self),
        ih (by simp) (fun x hx => h x (List.mem_cons_of_mem _ hx))]

theorem not_mem_of_mem_splitByte (sep : UInt8) (s : Bytes) : ∀ l ∈ splitByte sep s, sep ∉ l := by
  induction s with
  | nil => simp [splitByte]
  | cons c cs ih =>
    unfold splitByte
    split
    · intro l hl
      rcases List.mem_cons.1 hl with hl | hl
      · subst hl; simp
      · exact ih l hl
    · rename_i hc
      split
      · intro l hl; simp at hl; subst hl; simp [Ne.symm hc]
      · rename_i m ms hm
        rw [hm] at ih
        intro l hl
        rcases List.mem_cons.1 hl with hl | hl
        · subst hl
          have := ih m List.mem_cons_self
          simp [this, Ne.symm hc]
        · exact ih l (List.mem_cons_of_mem _ hl)

theorem indexByte?_first (c : UInt8) (a b : Bytes) (h : c ∉ a) : indexByte? c (a ++ c :: b) = some a.length := by
  induction a with
  | nil => simp [indexByte?]
  | cons x xs ih =>
    simp at h
    simp [indexByte?, Ne.symm h.1, ih h.2]

theorem indexByte?_none (c : UInt8) (a : Bytes) : indexByte? c a = none ↔ c ∉ a := by
  induction a with
  | nil => simp [indexByte?]
  | cons x xs ih =>
    unfold indexByte?
    split
    · rename_i h; simp [h]
    · rename_i h; simp [ih, Ne.symm h]

theorem lastIndexByte?_none (c : UInt8) (a : Bytes) : lastIndexByte? c a = none ↔ c ∉ a := by
  induction a with
  | nil => simp [lastIndexByte?]
  | cons x xs ih =>
    unfold lastIndexByte?
    cases h : lastIndexByte? c xs with
    | some i =>
      have : c ∈ xs := by
        by_cases hc : c ∈ xs
        · exact hc
        · rw [ih.2 hc] at h; simp at h
      simp [this]
    | none =>
      have := ih.1 h
      simp only
      split
      · rename_i hx; simp [hx]
      · rename_i hx; simp [this, Ne.symm hx]

theorem lastIndexByte?_last (c : UInt8) (a b : Bytes) (h : c ∉ b) :
    lastIndexByte? c (a ++ c :: b) = some a.length := by
  induction a with
  | nil => simp [lastIndexByte?, (lastIndexByte?_none c b).2 h]
  | cons x xs ih => simp [lastIndexByte?, ih]

theorem join_nil_sep (ls : List Bytes) : join [] ls = ls.flatten := by
  induction ls with
  | nil => rfl
  | cons l ls ih =>
    cases ls with
    | nil => simp [join]
    | cons m ms => simp only [join, List.append_nil, List.flatten_cons] at ih ⊢; rw [ih]

end Verif.Go
