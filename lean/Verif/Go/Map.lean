/-!
# Go maps

A map is a list of key/value pairs without repeated keys; the order of the list is the order in
which one `range` loop visits it.  Go leaves that order open, so theorems quantify over all lists, and
order independence is stated over permutations.
-/
namespace Verif.Go

/-- Go `map[κ]α`; the list order stands for an iteration order. -/
abbrev GoMap (κ α : Type) := List (κ × α)

namespace GoMap
variable {κ α β : Type} [DecidableEq κ]

/-- Go `v, ok := m[k]`. -/
def get? : GoMap κ α → κ → Option α
  | [], _ => none
  | (k', v) :: m, k => if k' = k then some v else get? m k

/-- Go `m[k] = v`. -/
def set : GoMap κ α → κ → α → GoMap κ α
  | [], k, v => [(k, v)]
  | (k', v') :: m, k, v => if k' = k then (k, v) :: m else (k', v') :: set m k v

/-- Go `delete(m, k)`. -/
def erase : GoMap κ α → κ → GoMap κ α
  | [], _ => []
  | (k', v') :: m, k => if k' = k then erase m k else (k', v') :: erase m k

/-- The keys in the order of the iteration. -/
def keys (m : GoMap κ α) : List κ := m.map (·.1)

/-- A map has no repeated keys. -/
def WF (m : GoMap κ α) : Prop := m.keys.Nodup

instance (m : GoMap κ α) : Decidable m.WF := inferInstanceAs (Decidable (List.Nodup _))

/-- The same map, whatever the iteration order. -/
def Same (m n : GoMap κ α) : Prop := ∀ k, m.get? k = n.get? k

theorem get?_nil (k : κ) : get? ([] : GoMap κ α) k = none := rfl

theorem get?_set (m : GoMap κ α) (k : κ) (v : α) (k' : κ) :
    (m.set k v).get? k' = if k = k' then some v else m.get? k' := by
  induction m with
  | nil => rfl
  | cons p m ih =>
    obtain ⟨a, b⟩ := p
    simp only [set]
    split
    · rename_i h
      simp only [get?]
      by_cases h' : k = k'
      · simp [h']
      · rw [if_neg h', if_neg h']
        rw [if_neg (fun e => h' (h.symm.trans e))]
    · rename_i h
      simp only [get?, ih]
      by_cases h' : k = k'
      · rw [if_pos h', if_pos h', if_neg (fun e => h (e.trans h'.symm))]
      · rw [if_neg h', if_neg h']

theorem get?_erase (m : GoMap κ α) (k k' : κ) :
    (m.erase k).get? k' = if k = k' then none else m.get? k' := by
  induction m with
  | nil => simp [erase, get?]
  | cons p m ih =>
    obtain ⟨a, b⟩ := p
    simp only [erase]
    split
    · rename_i h
      rw [ih]
      by_cases h' : k = k'
      · simp [h']
      · rw [if_neg h', if_neg h']
        simp only [get?]
        rw [if_neg (fun e => h' (h.symm.trans e))]
    · rename_i h
      simp only [get?, ih]
      by_cases h' : k = k'
      · rw [if_pos h', if_neg (fun e => h (e.trans h'.symm)), if_pos h']
      · rw [if_neg h', if_neg h']

theorem mem_of_get? {m : GoMap κ α} {k : κ} {v : α} (h : m.get? k = some v) : (k, v) ∈ m := by
  induction m with
  | nil => cases h
  | cons p m ih =>
    obtain ⟨a, b⟩ := p
    simp only [get?] at h
    split at h
    · rename_i he; cases h; rw [he]; exact List.mem_cons_self
    · exact List.mem_cons_of_mem _ (ih h)

omit [DecidableEq κ] in
theorem mem_keys_of_mem {m : GoMap κ α} {k : κ} {v : α} (h : (k, v) ∈ m) : k ∈ m.keys :=
  List.mem_map.mpr ⟨_, h, rfl⟩

theorem get?_eq_none {m : GoMap κ α} {k : κ} : m.get? k = none ↔ k ∉ m.keys := by
  induction m with
  | nil => simp [get?, keys]
  | cons p m ih =>
    obtain ⟨a, b⟩ := p
    simp only [get?, keys, List.map_cons, List.mem_cons, not_or]
    split
    · rename_i h; simp [h]
    · rename_i h
      rw [ih]
      constructor
      · intro h'; exact ⟨fun e => h e.symm, h'⟩
      · intro h'; exact h'.2

theorem get?_isSome {m : GoMap κ α} {k : κ} : (m.get? k).isSome ↔ k ∈ m.keys := by
  cases h : m.get? k with
  | none => simp [get?_eq_none.mp h]
  | some v => simp [mem_keys_of_mem (mem_of_get? h)]

theorem get?_of_mem {m : GoMap κ α} (h : m.WF) {k : κ} {v : α} (hm : (k, v) ∈ m) : m.get? k = some v := by
  induction m with
  | nil => cases hm
  | cons p m ih =>
    obtain ⟨a, b⟩ := p
    have hn := List.nodup_cons.mp h
    simp only [get?]
    rcases List.mem_cons.mp hm with e | hm
    · cases e; rw [if_pos rfl]
    · rw [if_neg ?_, ih hn.2 hm]
      rintro rfl
      exact hn.1 (mem_keys_of_mem hm)

theorem mem_iff {m : GoMap κ α} (h : m.WF) {k : κ} {v : α} : (k, v) ∈ m ↔ m.get? k = some v :=
  ⟨get?_of_mem h, mem_of_get?⟩

omit [DecidableEq κ] in
theorem keys_cons (a : κ) (b : α) (m : GoMap κ α) : keys ((a, b) :: m) = a :: keys m := rfl

omit [DecidableEq κ] in
theorem WF.cons_inv {a : κ} {b : α} {m : GoMap κ α} (h : GoMap.WF ((a, b) :: m)) : a ∉ keys m ∧ m.WF :=
  List.nodup_cons.mp h

theorem keys_set (m : GoMap κ α) (k : κ) (v : α) :
    (m.set k v).keys = if k ∈ m.keys then m.keys else m.keys ++ [k] := by
  induction m with
  | nil => simp [set, keys]
  | cons p m ih =>
    obtain ⟨a, b⟩ := p
    simp only [set]
    by_cases h : a = k
    · rw [if_pos h, keys_cons, keys_cons, h, if_pos List.mem_cons_self]
    · rw [if_neg h, keys_cons, keys_cons, ih]
      by_cases hk : k ∈ keys m
      · rw [if_pos hk, if_pos (List.mem_cons_of_mem _ hk)]
      · rw [if_neg hk, if_neg]
        · rfl
        · intro hc
          rcases List.mem_cons.mp hc with e | e
          · exact h e.symm
          · exact hk e

theorem WF.set {m : GoMap κ α} (h : m.WF) (k : κ) (v : α) : (m.set k v).WF := by
  unfold WF at h ⊢
  rw [keys_set]
  split
  · exact h
  · rename_i hk
    rw [List.nodup_append]
    refine ⟨h, by simp, ?_⟩
    intro a ha b hb
    simp only [List.mem_cons, List.not_mem_nil, or_false] at hb
    subst hb
    rintro rfl
    exact hk ha

theorem erase_eq_filter (m : GoMap κ α) (k : κ) : m.erase k = m.filter (fun p => decide (p.1 ≠ k)) := by
  induction m with
  | nil => rfl
  | cons p m ih =>
    obtain ⟨a, b⟩ := p
    simp only [erase, List.filter_cons]
    by_cases h : a = k
    · simp [h, ih]
    · simp [h, ih]

theorem WF.erase {m : GoMap κ α} (h : m.WF) (k : κ) : (m.erase k).WF := by
  rw [erase_eq_filter]
  exact (List.Sublist.map _ (List.filter_sublist (l := m))).nodup h

omit [DecidableEq κ] in
theorem WF.nil : GoMap.WF ([] : GoMap κ α) := List.nodup_nil

omit [DecidableEq κ] in
theorem WF.perm {m n : GoMap κ α} (h : m.WF) (hp : m.Perm n) : n.WF :=
  (hp.map _).nodup_iff.mp h

theorem same_of_perm {m n : GoMap κ α} (h : m.WF) (hp : m.Perm n) : m.Same n := by
  intro k
  cases hk : m.get? k with
  | none =>
    have := get?_eq_none.mp hk
    exact (get?_eq_none.mpr fun hc => this ((hp.map _).mem_iff.mpr hc)).symm
  | some v => exact (get?_of_mem (h.perm hp) (hp.mem_iff.mp (mem_of_get? hk))).symm

omit [DecidableEq κ] in
theorem WF.nodup {m : GoMap κ α} (h : m.WF) : m.Nodup := by
  unfold WF keys at h
  induction m with
  | nil => exact List.nodup_nil
  | cons p m ih =>
    rw [List.map_cons, List.nodup_cons] at h
    rw [List.nodup_cons]
    exact ⟨fun hm => h.1 (List.mem_map.mpr ⟨p, hm, rfl⟩), ih h.2⟩

theorem perm_of_same [DecidableEq α] {m n : GoMap κ α} (hm : m.WF) (hn : n.WF) (h : m.Same n) : m.Perm n := by
  rw [List.perm_ext_iff_of_nodup hm.nodup hn.nodup]
  rintro ⟨k, v⟩
  rw [mem_iff hm, mem_iff hn, h k]

theorem Same.refl (m : GoMap κ α) : m.Same m := fun _ => rfl
theorem Same.symm {m n : GoMap κ α} (h : m.Same n) : n.Same m := fun k => (h k).symm
theorem Same.trans {m n o : GoMap κ α} (h : m.Same n) (h' : n.Same o) : m.Same o := fun k => (h k).trans (h' k)

theorem get?_map (f : α → β) (m : GoMap κ α) (k : κ) :
    get? (m.map fun p => (p.1, f p.2)) k = (m.get? k).map f := by
  induction m with
  | nil => rfl
  | cons p m ih =>
    obtain ⟨a, b⟩ := p
    simp only [List.map_cons, get?]
    split
    · rfl
    · exact ih

omit [DecidableEq κ] in
theorem keys_map (f : α → β) (m : GoMap κ α) : keys (m.map fun p => (p.1, f p.2)) = m.keys := by
  simp [keys, List.map_map, Function.comp_def]

end GoMap
end Verif.Go
