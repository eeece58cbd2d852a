import Verif.Go.Sort
/-!
# Go slices in memory

A slice is a view of an array: where it starts, how long it is, and how far it may grow in place.  The arrays are a list,
an address is an index.  `append` writes into the array if there is room and makes a new array otherwise; the room that the
new array has beyond its elements is left open (`room`, with arbitrary elements).
-/
namespace Verif.Go

/-- The arrays in memory. -/
abbrev Arrays (α : Type) := List (List α)

/-- A slice; the nil slice has capacity 0. -/
structure Slice where
  arr : Nat
  off : Nat
  len : Nat
  cap : Nat
  deriving DecidableEq, Repr

/-- The nil slice. -/
def Slice.nil : Slice := ⟨0, 0, 0, 0⟩

variable {α : Type}

/-- The array at an address. -/
def arrayAt (A : Arrays α) (a : Nat) : List α := A[a]?.getD []

/-- The elements of a slice. -/
def Slice.get (A : Arrays α) (s : Slice) : List α := ((arrayAt A s.arr).drop s.off).take s.len

/-- The elements from index `i` of the array at `a` on are overwritten. -/
def writeAt (A : Arrays α) (a i : Nat) (xs : List α) : Arrays α :=
  A.set a ((arrayAt A a).take i ++ xs ++ (arrayAt A a).drop (i + xs.length))

/-- A slice literal or the result of `make`, filled with `xs`; `room` is the rest of its array. -/
def makeSlice (A : Arrays α) (xs room : List α) : Arrays α × Slice :=
  (A ++ [xs ++ room], ⟨A.length, 0, xs.length, xs.length + room.length⟩)

/-- Go `append(s, x)`. -/
def Slice.append (room : Nat → List α) (A : Arrays α) (s : Slice) (x : α) : Arrays α × Slice :=
  if s.len < s.cap then (writeAt A s.arr (s.off + s.len) [x], { s with len := s.len + 1 })
  else makeSlice A (s.get A ++ [x]) (room s.len)

/-- `sort.Slice` and `slices.Sort`: the elements are sorted where they are. -/
def Slice.sort (le : α → α → Bool) (A : Arrays α) (s : Slice) : Arrays α :=
  writeAt A s.arr s.off (sortBy le (s.get A))

/-- The slice lies within its array. -/
def Slice.Ok (A : Arrays α) (s : Slice) : Prop :=
  s.len ≤ s.cap ∧ (s.cap = 0 ∨ s.arr < A.length ∧ s.off + s.cap ≤ (arrayAt A s.arr).length)

/-- The two slices have no element of an array in common, not even in the room behind their elements. -/
def Slice.Apart (s t : Slice) : Prop :=
  s.cap = 0 ∨ t.cap = 0 ∨ s.arr ≠ t.arr ∨ s.off + s.cap ≤ t.off ∨ t.off + t.cap ≤ s.off

instance (A : Arrays α) (s : Slice) : Decidable (s.Ok A) := inferInstanceAs (Decidable (_ ∧ _))
instance (s t : Slice) : Decidable (s.Apart t) := inferInstanceAs (Decidable (_ ∨ _))

theorem Slice.Apart.symm {s t : Slice} (h : s.Apart t) : t.Apart s := by
  unfold Slice.Apart at *; omega

theorem Slice.nil_ok (A : Arrays α) : Slice.nil.Ok A := ⟨Nat.le_refl _, .inl rfl⟩

theorem Slice.nil_apart (t : Slice) : Slice.nil.Apart t := .inl rfl

theorem Slice.get_nil (A : Arrays α) : Slice.nil.get A = [] := by simp [Slice.get, Slice.nil]

theorem Slice.get_length {A : Arrays α} {s : Slice} (h : s.Ok A) : (s.get A).length = s.len := by
  obtain ⟨h1, h2⟩ := h
  simp only [Slice.get, List.length_take, List.length_drop]
  omega

theorem arrayAt_writeAt (A : Arrays α) (a i : Nat) (xs : List α) (b : Nat) :
    arrayAt (writeAt A a i xs) b =
      if a = b ∧ a < A.length then (arrayAt A a).take i ++ xs ++ (arrayAt A a).drop (i + xs.length) else arrayAt A b := by
  unfold writeAt arrayAt
  rw [List.getElem?_set]
  by_cases h : a = b
  · subst h
    by_cases h' : a < A.length
    · simp [h']
    · simp [h']
  · rw [if_neg h, if_neg (fun x => h x.1)]

theorem arrayAt_writeAt_length {A : Arrays α} {a i : Nat} {xs : List α} (h : i + xs.length ≤ (arrayAt A a).length) (b : Nat) :
    (arrayAt (writeAt A a i xs) b).length = (arrayAt A b).length := by
  rw [arrayAt_writeAt]
  split
  · rename_i hb
    rw [← hb.1]
    simp only [List.length_append, List.length_take, List.length_drop]
    omega
  · rfl

theorem length_writeAt (A : Arrays α) (a i : Nat) (xs : List α) : (writeAt A a i xs).length = A.length :=
  List.length_set

theorem arrayAt_push (A : Arrays α) (l : List α) (b : Nat) :
    arrayAt (A ++ [l]) b = if b = A.length then l else arrayAt A b := by
  unfold arrayAt
  by_cases h : b < A.length
  · rw [List.getElem?_append_left h, if_neg (by omega)]
  · by_cases h' : b = A.length
    · subst h'; simp
    · rw [if_neg h', List.getElem?_eq_none (by simp; omega), List.getElem?_eq_none (by omega)]

/-- A write within bounds keeps every slice in its array. -/
theorem Slice.Ok.writeAt {A : Arrays α} {t : Slice} (h : t.Ok A) {a i : Nat} {xs : List α}
    (hb : i + xs.length ≤ (arrayAt A a).length) : t.Ok (writeAt A a i xs) := by
  refine ⟨h.1, h.2.imp id fun h2 => ?_⟩
  rw [length_writeAt, arrayAt_writeAt_length hb]
  exact h2

theorem Slice.Ok.push {A : Arrays α} {t : Slice} (h : t.Ok A) (l : List α) : t.Ok (A ++ [l]) := by
  refine ⟨h.1, h.2.imp id fun h2 => ⟨by simp; omega, ?_⟩⟩
  rw [arrayAt_push, if_neg (by omega)]
  exact h2.2

/-- A write outside of a slice does not change its elements. -/
theorem Slice.get_writeAt_other {A : Arrays α} {t : Slice} (h : t.Ok A) {a i : Nat} {xs : List α}
    (hb : i + xs.length ≤ (arrayAt A a).length)
    (ho : t.cap = 0 ∨ t.arr ≠ a ∨ i + xs.length ≤ t.off ∨ t.off + t.cap ≤ i) : t.get (writeAt A a i xs) = t.get A := by
  unfold Slice.get
  rw [arrayAt_writeAt]
  split
  · rename_i hc
    obtain ⟨rfl, hlt⟩ := hc
    obtain ⟨h1, h2⟩ := h
    apply List.ext_getElem?
    intro k
    simp only [List.getElem?_take, List.getElem?_drop]
    by_cases hk : k < t.len
    · rw [if_pos hk, if_pos hk]
      have hk' : t.off + k < i ∨ i + xs.length ≤ t.off + k := by omega
      rcases hk' with hk' | hk'
      · rw [List.append_assoc, List.getElem?_append_left (by simp; omega), List.getElem?_take, if_pos hk']
      · rw [List.getElem?_append_right (by simp; omega), List.getElem?_drop]
        congr 1
        simp only [List.length_append, List.length_take]
        omega
    · rw [if_neg hk, if_neg hk]
  · rfl

theorem Slice.get_push {A : Arrays α} {t : Slice} (h : t.Ok A) (l : List α) : t.get (A ++ [l]) = t.get A := by
  obtain ⟨h1, h2⟩ := h
  unfold Slice.get
  rw [arrayAt_push]
  split
  · rename_i he
    have : t.len = 0 := by omega
    simp [this]
  · rfl

theorem makeSlice_get (A : Arrays α) (xs room : List α) : (makeSlice A xs room).2.get (makeSlice A xs room).1 = xs := by
  simp [makeSlice, Slice.get, arrayAt_push]

theorem makeSlice_ok (A : Arrays α) (xs room : List α) : (makeSlice A xs room).2.Ok (makeSlice A xs room).1 := by
  refine ⟨by simp [makeSlice], .inr ⟨by simp [makeSlice], ?_⟩⟩
  simp [makeSlice, arrayAt_push]

theorem makeSlice_apart {A : Arrays α} {t : Slice} (h : t.Ok A) (xs room : List α) : (makeSlice A xs room).2.Apart t := by
  obtain ⟨h1, h2⟩ := h
  simp only [makeSlice, Slice.Apart]
  omega

theorem sortBy_length (le : α → α → Bool) (l : List α) : (sortBy le l).length = l.length :=
  (sortBy_perm le l).length_eq

/-- The step of an operation on one slice: every slice stays in its array, and what is apart from the slice is not touched. -/
def Slice.Step (A : Arrays α) (s : Slice) (A' : Arrays α) (s' : Slice) : Prop :=
  s'.Ok A' ∧ (∀ t : Slice, t.Ok A → t.Ok A') ∧ ∀ t : Slice, t.Ok A → t.Apart s → t.get A' = t.get A ∧ t.Apart s'

theorem Slice.Step.refl {A : Arrays α} {s : Slice} (h : s.Ok A) : Slice.Step A s A s :=
  ⟨h, fun _ ht => ht, fun _ _ ha => ⟨rfl, ha⟩⟩

theorem Slice.Step.trans {A A' A'' : Arrays α} {s s' s'' : Slice} (h : Slice.Step A s A' s') (h' : Slice.Step A' s' A'' s'') :
    Slice.Step A s A'' s'' := by
  refine ⟨h'.1, fun t ht => h'.2.1 t (h.2.1 t ht), fun t ht ha => ?_⟩
  obtain ⟨b, c⟩ := h.2.2 t ht ha
  obtain ⟨b', c'⟩ := h'.2.2 t (h.2.1 t ht) c
  exact ⟨b'.trans b, c'⟩

theorem Slice.step_make {A : Arrays α} (s : Slice) (xs room : List α) :
    Slice.Step A s (makeSlice A xs room).1 (makeSlice A xs room).2 :=
  ⟨makeSlice_ok A xs room, fun _ ht => ht.push _, fun _ ht _ => ⟨Slice.get_push ht _, (makeSlice_apart ht xs room).symm⟩⟩

theorem Slice.append_step (room : Nat → List α) {A : Arrays α} {s : Slice} (h : s.Ok A) (x : α) :
    Slice.Step A s (s.append room A x).1 (s.append room A x).2 := by
  unfold Slice.append
  split
  · rename_i hlt
    obtain ⟨h1, h2⟩ := h
    have hb : s.off + s.len + [x].length ≤ (arrayAt A s.arr).length := by simp only [List.length_singleton]; omega
    refine ⟨?_, fun t ht => ht.writeAt hb, fun t ht ha => ⟨Slice.get_writeAt_other ht hb ?_, ha⟩⟩
    · refine ⟨hlt, .inr ⟨?_, ?_⟩⟩
      · rw [length_writeAt]; show s.arr < _; omega
      · show s.off + s.cap ≤ (arrayAt _ s.arr).length
        rw [arrayAt_writeAt_length hb]; omega
    · unfold Slice.Apart at ha
      simp only [List.length_singleton]
      omega
  · exact Slice.step_make s _ _

theorem Slice.append_get (room : Nat → List α) {A : Arrays α} {s : Slice} (h : s.Ok A) (x : α) :
    (s.append room A x).2.get (s.append room A x).1 = s.get A ++ [x] := by
  unfold Slice.append
  split
  · rename_i hlt
    obtain ⟨h1, h2⟩ := h
    unfold Slice.get
    rw [arrayAt_writeAt, if_pos ⟨rfl, by omega⟩]
    show ((List.take (s.off + s.len) _ ++ [x] ++ _).drop s.off).take (s.len + 1) = _
    have hl : ((arrayAt A s.arr).take (s.off + s.len)).length = s.off + s.len := by simp; omega
    rw [List.append_assoc, List.drop_append_of_le_length (by omega), List.drop_take]
    rw [List.take_append, List.take_of_length_le (by simp; omega)]
    congr 1
    · congr 1; omega
    · have : s.len + 1 - (List.take (s.off + s.len - s.off) (List.drop s.off (arrayAt A s.arr))).length = 1 := by
        simp only [List.length_take, List.length_drop]; omega
      rw [this]; rfl
  · exact makeSlice_get A _ _

theorem Slice.sort_step (le : α → α → Bool) {A : Arrays α} {s : Slice} (h : s.Ok A) :
    Slice.Step A s (s.sort le A) s := by
  unfold Slice.sort
  have hl : (sortBy le (s.get A)).length = s.len := by rw [sortBy_length, Slice.get_length h]
  by_cases h0 : s.cap = 0
  · have h00 : s.len = 0 := by have := h.1; omega
    have he : sortBy le (s.get A) = [] := List.length_eq_zero_iff.mp (hl.trans h00)
    have : writeAt A s.arr s.off (sortBy le (s.get A)) = A := by
      rw [he]; unfold writeAt
      rw [List.append_nil, List.length_nil, Nat.add_zero, List.take_append_drop]
      unfold arrayAt
      apply List.ext_getElem?
      intro k
      rw [List.getElem?_set]
      split
      · rename_i hk
        subst hk
        split
        · rename_i hk
          simp [hk]
        · rename_i hk
          rw [List.getElem?_eq_none (by omega)]
      · rfl
    rw [this]
    exact Slice.Step.refl h
  · obtain ⟨h1, h2⟩ := h
    have hb : s.off + (sortBy le (s.get A)).length ≤ (arrayAt A s.arr).length := by omega
    refine ⟨Slice.Ok.writeAt ⟨h1, h2⟩ hb, fun t ht => ht.writeAt hb, fun t ht ha => ⟨Slice.get_writeAt_other ht hb ?_, ha⟩⟩
    unfold Slice.Apart at ha
    omega

theorem Slice.sort_get (le : α → α → Bool) {A : Arrays α} {s : Slice} (h : s.Ok A) :
    s.get (s.sort le A) = sortBy le (s.get A) := by
  have hl : (sortBy le (s.get A)).length = s.len := by rw [sortBy_length, Slice.get_length h]
  by_cases h0 : s.len = 0
  · have he : sortBy le (s.get A) = [] := List.length_eq_zero_iff.mp (hl.trans h0)
    rw [he]; unfold Slice.get; rw [h0]; rfl
  · obtain ⟨h1, h2⟩ := h
    unfold Slice.sort
    show List.take s.len (List.drop s.off (arrayAt (writeAt A s.arr s.off (sortBy le (s.get A))) s.arr)) = _
    rw [arrayAt_writeAt, if_pos ⟨rfl, by omega⟩, List.append_assoc,
      List.drop_append_of_le_length (by simp; omega), List.drop_take, Nat.sub_self, List.take_zero, List.nil_append,
      List.take_append_of_le_length (by omega), List.take_of_length_le (by omega)]

end Verif.Go
