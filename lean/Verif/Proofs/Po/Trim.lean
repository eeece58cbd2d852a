import Verif.Proofs.Po.File
/-!
# Lemmas about `strings.TrimSpace`
-/
namespace Verif.Proofs.Po
open Verif.Go Verif.Model.Po

/-- Byte in the middle of an encoded rune. -/
def isCont (b : UInt8) : Bool := decide (0x80 ≤ b.toNat) && decide (b.toNat < 0xC0)

theorem enc_shape : ∀ e ∈ spaceEncodings, (∃ h ∈ e.head?, isCont h = false) ∧ e.tail.all isCont = true := by decide

theorem enc_ne_nil {e : Bytes} (h : e ∈ spaceEncodings) : e ≠ [] := by
  obtain ⟨⟨x, hx, _⟩, _⟩ := enc_shape e h
  rintro rfl
  cases hx

theorem enc_prefix_eq : ∀ e ∈ spaceEncodings, ∀ e' ∈ spaceEncodings, e <+: e' → e = e' := by decide +kernel

theorem enc_suffix_eq : ∀ e ∈ spaceEncodings, ∀ e' ∈ spaceEncodings, e <:+ e' → e = e' := by decide +kernel

theorem enc_unique {e e' s : Bytes} (he : e ∈ spaceEncodings) (he' : e' ∈ spaceEncodings) (h : e <+: s) (h' : e' <+: s) :
    e = e' := by
  rcases Nat.le_total e.length e'.length with hl | hl
  · exact enc_prefix_eq e he e' he' (List.prefix_of_prefix_length_le h h' hl)
  · exact (enc_prefix_eq e' he' e he (List.prefix_of_prefix_length_le h' h hl)).symm

theorem enc_unique_suffix {e e' s : Bytes} (he : e ∈ spaceEncodings) (he' : e' ∈ spaceEncodings) (h : e <:+ s)
    (h' : e' <:+ s) : e = e' := by
  rcases Nat.le_total e.length e'.length with hl | hl
  · exact enc_suffix_eq e he e' he' (List.suffix_of_suffix_length_le h h' hl)
  · exact (enc_suffix_eq e' he' e he (List.suffix_of_suffix_length_le h' h hl)).symm

/-- An encoded space does not straddle the start of a rune. -/
theorem enc_straddle {e s b : Bytes} (he : e ∈ spaceEncodings) (hs : s ≠ []) (hb : ∀ x ∈ b.head?, isCont x = false)
    (h : e <+: s ++ b) : e <+: s := by
  by_cases hl : e.length ≤ s.length
  · exact List.prefix_of_prefix_length_le h (List.prefix_append _ _) hl
  · exfalso
    have hp : s <+: e := List.prefix_of_prefix_length_le (List.prefix_append s b) h (by omega)
    obtain ⟨c, rfl⟩ := hp
    have hc := List.prefix_append_right_inj s |>.1 h
    match c, s with
    | [], _ => simp at hl
    | x :: c, [] => exact hs rfl
    | x :: c, y :: s =>
      obtain ⟨r, rfl⟩ := hc
      have h1 := hb x rfl
      have h2 := (enc_shape _ he).2
      simp at h2
      rw [h2.2.1] at h1
      cases h1

theorem stripOne_eq_some {es : List Bytes} {s r : Bytes} (h : stripOne es s = some r) :
    ∃ e ∈ es, s = e ++ r := by
  induction es with
  | nil => cases h
  | cons e es ih =>
    unfold stripOne at h
    split at h
    · rename_i hp
      obtain ⟨t, rfl⟩ := List.isPrefixOf_iff_prefix.1 hp
      cases h
      exact ⟨e, List.mem_cons_self, by simp⟩
    · obtain ⟨e', h1, h2⟩ := ih h
      exact ⟨e', List.mem_cons_of_mem _ h1, h2⟩

theorem stripOne_eq_none {es : List Bytes} {s : Bytes} (h : stripOne es s = none) : ∀ e ∈ es, ¬ e <+: s := by
  induction es with
  | nil => simp
  | cons e es ih =>
    unfold stripOne at h
    split at h
    · cases h
    · rename_i hp
      intro e' he'
      rcases List.mem_cons.1 he' with rfl | he'
      · simpa using hp
      · exact ih h e' he'

theorem stripOne_append {es : List Bytes} {e s : Bytes} (he : e ∈ es)
    (hu : ∀ e' ∈ es, e' <+: e ++ s → e' = e) : stripOne es (e ++ s) = some s := by
  induction es with
  | nil => cases he
  | cons e' es ih =>
    unfold stripOne
    by_cases hp : e'.isPrefixOf (e ++ s) = true
    · rw [if_pos hp]
      have := hu e' List.mem_cons_self (List.isPrefixOf_iff_prefix.1 hp)
      subst this
      simp
    · rw [if_neg hp]
      rcases List.mem_cons.1 he with rfl | he
      · exact absurd (List.isPrefixOf_iff_prefix.2 (List.prefix_append _ _)) hp
      · exact ih he fun e'' he'' => hu e'' (List.mem_cons_of_mem _ he'')

theorem stripAll_spec {es : List Bytes} : ∀ (f : Nat) (s : Bytes), (∀ e ∈ es, e ≠ []) → s.length ≤ f →
    ∃ xs : List Bytes, (∀ x ∈ xs, x ∈ es) ∧ s = xs.flatten ++ stripAll es f s ∧ ∀ e ∈ es, ¬ e <+: stripAll es f s := by
  intro f
  induction f with
  | zero =>
    intro s hes hs
    have : s = [] := List.length_eq_zero_iff.1 (by omega)
    subst this
    refine ⟨[], by simp, by simp [stripAll], ?_⟩
    intro e he h
    exact hes e he (List.prefix_nil.1 h)
  | succ f ih =>
    intro s hes hs
    unfold stripAll
    cases h : stripOne es s with
    | none => exact ⟨[], by simp, by simp, stripOne_eq_none h⟩
    | some r =>
      obtain ⟨e, he, rfl⟩ := stripOne_eq_some h
      have hl : 0 < e.length := List.length_pos_iff.2 (hes e he)
      obtain ⟨xs, h1, h2, h3⟩ := ih r hes (by simp at hs; omega)
      refine ⟨e :: xs, ?_, ?_, h3⟩
      · intro x hx
        rcases List.mem_cons.1 hx with rfl | hx
        · exact he
        · exact h1 x hx
      · simp only [List.flatten_cons, List.append_assoc]
        rw [← h2]

theorem stripAll_fuel {es : List Bytes} (hes : ∀ e ∈ es, e ≠ []) : ∀ (f g : Nat) (s : Bytes), s.length ≤ f → s.length ≤ g →
    stripAll es f s = stripAll es g s := by
  intro f
  induction f with
  | zero =>
    intro g s hf hg
    have : s = [] := List.length_eq_zero_iff.1 (by omega)
    subst this
    rw [stripAll_none (fun e he h => hes e he (List.prefix_nil.1 h))]
    rw [stripAll_none (fun e he h => hes e he (List.prefix_nil.1 h))]
  | succ f ih =>
    intro g s hf hg
    match g with
    | 0 =>
      have : s = [] := List.length_eq_zero_iff.1 (by omega)
      subst this
      rw [stripAll_none (fun e he h => hes e he (List.prefix_nil.1 h))]
      rw [stripAll_none (fun e he h => hes e he (List.prefix_nil.1 h))]
    | g + 1 =>
      unfold stripAll
      cases h : stripOne es s with
      | none => rfl
      | some r =>
        obtain ⟨e, he, rfl⟩ := stripOne_eq_some h
        have hl : 0 < e.length := List.length_pos_iff.2 (hes e he)
        simp at hf hg
        exact ih g r (by omega) (by omega)

theorem stripAll_enc {es : List Bytes} (hes : ∀ e ∈ es, e ≠ []) {e s : Bytes} (he : e ∈ es)
    (hu : ∀ e' ∈ es, e' <+: e ++ s → e' = e) :
    stripAll es (e ++ s).length (e ++ s) = stripAll es s.length s := by
  have hl : 0 < e.length := List.length_pos_iff.2 (hes e he)
  have : (e ++ s).length = (e.length - 1 + s.length) + 1 := by simp; omega
  rw [this]
  rw [stripAll, stripOne_append he hu]
  exact stripAll_fuel hes _ _ _ (by omega) (Nat.le_refl _)

/-- A sequence of encoded spaces. -/
def Spaces (s : Bytes) : Prop := ∃ xs : List Bytes, (∀ x ∈ xs, x ∈ spaceEncodings) ∧ s = xs.flatten

theorem trimLeft_enc {e : Bytes} (he : e ∈ spaceEncodings) (s : Bytes) : trimLeft (e ++ s) = trimLeft s :=
  stripAll_enc (fun _ h => enc_ne_nil h) he
    fun _ he' hp => enc_unique he' he hp (List.prefix_append _ _)

theorem trimLeft_spaces {a : Bytes} (ha : Spaces a) (s : Bytes) : trimLeft (a ++ s) = trimLeft s := by
  obtain ⟨xs, hx, rfl⟩ := ha
  induction xs with
  | nil => rfl
  | cons x xs ih =>
    rw [List.flatten_cons, List.append_assoc, trimLeft_enc (hx x List.mem_cons_self)]
    exact ih fun y hy => hx y (List.mem_cons_of_mem _ hy)

theorem trimLeft_spec (s : Bytes) : ∃ a, Spaces a ∧ s = a ++ trimLeft s ∧ ∀ e ∈ spaceEncodings, ¬ e <+: trimLeft s := by
  obtain ⟨xs, h1, h2, h3⟩ := stripAll_spec (es := spaceEncodings) s.length s (fun _ h => enc_ne_nil h) (Nat.le_refl _)
  exact ⟨xs.flatten, ⟨xs, h1, rfl⟩, h2, h3⟩

theorem rev_ne_nil {e : Bytes} (h : e ∈ spaceEncodings.map List.reverse) : e ≠ [] := by
  obtain ⟨e', he', rfl⟩ := List.mem_map.1 h
  simpa using enc_ne_nil he'

theorem trimRight_enc {e : Bytes} (he : e ∈ spaceEncodings) (s : Bytes) : trimRight (s ++ e) = trimRight s := by
  unfold trimRight
  congr 1
  rw [List.reverse_append]
  have := stripAll_enc (es := spaceEncodings.map List.reverse) (e := e.reverse) (s := s.reverse)
    (fun _ h => rev_ne_nil h) (List.mem_map.2 ⟨e, he, rfl⟩) ?_
  · simp only [List.length_append, List.length_reverse] at this ⊢
    rw [Nat.add_comm]
    exact this
  · intro e' he' hp
    obtain ⟨e'', he'', rfl⟩ := List.mem_map.1 he'
    rw [← List.reverse_append] at hp
    rw [enc_unique_suffix he'' he (List.reverse_prefix.1 hp) (List.suffix_append _ _)]

theorem trimRight_spaces {b : Bytes} (hb : Spaces b) (s : Bytes) : trimRight (s ++ b) = trimRight s := by
  obtain ⟨xs, hx, rfl⟩ := hb
  induction xs generalizing s with
  | nil => simp
  | cons x xs ih =>
    rw [List.flatten_cons, ← List.append_assoc, ih _ (fun y hy => hx y (List.mem_cons_of_mem _ hy)),
      trimRight_enc (hx x List.mem_cons_self)]

theorem trimRight_spec (s : Bytes) : ∃ b, Spaces b ∧ s = trimRight s ++ b ∧ ∀ e ∈ spaceEncodings, ¬ e <:+ trimRight s := by
  obtain ⟨xs, h1, h2, h3⟩ := stripAll_spec (es := spaceEncodings.map List.reverse) s.reverse.length s.reverse
    (fun _ h => rev_ne_nil h) (Nat.le_refl _)
  rw [List.length_reverse] at h2 h3
  refine ⟨xs.flatten.reverse, ⟨(xs.map List.reverse).reverse, ?_, ?_⟩, ?_, ?_⟩
  · intro x hx
    simp only [List.mem_reverse, List.mem_map] at hx
    obtain ⟨y, hy, rfl⟩ := hx
    obtain ⟨e, he, rfl⟩ := List.mem_map.1 (h1 y hy)
    simpa using he
  · rw [List.reverse_flatten]
  · have := congrArg List.reverse h2
    rw [List.reverse_reverse, List.reverse_append] at this
    exact this
  · intro e he hp
    refine h3 e.reverse (List.mem_map.2 ⟨e, he, rfl⟩) ?_
    have := List.reverse_prefix.2 hp
    simpa [trimRight] using this

theorem spaces_head {b : Bytes} (hb : Spaces b) : ∀ x ∈ b.head?, isCont x = false := by
  obtain ⟨xs, hx, rfl⟩ := hb
  match xs with
  | [] => simp
  | x :: xs =>
    obtain ⟨⟨h, hh, hc⟩, _⟩ := enc_shape x (hx x List.mem_cons_self)
    match x, hh with
    | y :: x, hh => cases hh; intro z hz; cases hz; exact hc

theorem trimLeft_all {b : Bytes} (hb : Spaces b) : trimLeft b = [] := by
  have := trimLeft_spaces hb []
  rw [List.append_nil] at this
  rw [this]; rfl

theorem trimRight_all {b : Bytes} (hb : Spaces b) : trimRight b = [] := by
  have := trimRight_spaces hb []
  rw [List.nil_append] at this
  rw [this]; rfl

/-- Trimming on the right first does not matter. -/
theorem trimSpace_trimRight (t : Bytes) : trimSpace (trimRight t) = trimSpace t := by
  obtain ⟨b, hb, e, hs⟩ := trimRight_spec t
  obtain ⟨a, ha, e2, hp⟩ := trimLeft_spec (trimRight t)
  unfold trimSpace
  by_cases hn : trimLeft (trimRight t) = []
  · rw [hn]
    have hnil : trimRight t = [] := by
      rw [hn, List.append_nil] at e2
      obtain ⟨xs, hx, rfl⟩ := ha
      rcases List.eq_nil_or_concat xs with rfl | ⟨ys, y, rfl⟩
      · rw [e2]; rfl
      · exfalso
        rw [List.concat_eq_append] at *
        refine hs y (hx y (by simp)) ?_
        rw [e2]
        simp
    rw [e, hnil, List.nil_append, trimLeft_all hb]
  · have ht : trimLeft t = trimLeft (trimRight t) ++ b := by
      generalize hg : trimLeft (trimRight t) = g at *
      have e3 : t = a ++ (g ++ b) := by rw [← List.append_assoc, ← e2]; exact e
      rw [e3, trimLeft_spaces ha, trimLeft_none]
      intro e' he' h
      exact hp e' he' (enc_straddle he' hn (spaces_head hb) h)
    rw [ht, trimRight_spaces hb]

theorem trimSpace_spaces_right {b : Bytes} (hb : Spaces b) (s : Bytes) : trimSpace (s ++ b) = trimSpace s := by
  rw [← trimSpace_trimRight, trimRight_spaces hb, trimSpace_trimRight]

theorem trimSpace_spaces_left {a : Bytes} (ha : Spaces a) (s : Bytes) : trimSpace (a ++ s) = trimSpace s := by
  unfold trimSpace; rw [trimLeft_spaces ha]

theorem trimSpace_nil_iff (t : Bytes) : trimSpace t = [] ↔ Spaces t := by
  constructor
  · intro h
    unfold trimSpace at h
    obtain ⟨a, ⟨xs, hx, rfl⟩, e, hp⟩ := trimLeft_spec t
    obtain ⟨b, ⟨ys, hy, rfl⟩, e2, _⟩ := trimRight_spec (trimLeft t)
    rw [h, List.nil_append] at e2
    rw [e, e2]
    refine ⟨xs ++ ys, ?_, by simp⟩
    intro x hx'
    rcases List.mem_append.1 hx' with h | h
    · exact hx x h
    · exact hy x h
  · intro h; unfold trimSpace; rw [trimLeft_all h]; rfl

theorem trimRight_nil_iff (t : Bytes) : trimRight t = [] ↔ Spaces t := by
  constructor
  · intro h
    obtain ⟨b, hb, e, _⟩ := trimRight_spec t
    rw [h, List.nil_append] at e
    rw [e]; exact hb
  · exact trimRight_all

/-- A byte that is part of no encoded space. -/
def Solid (x : UInt8) : Prop := ∀ e ∈ spaceEncodings, x ∉ e

instance (x : UInt8) : Decidable (Solid x) := by unfold Solid; infer_instance

theorem trimLeft_solid {x : UInt8} (hx : Solid x) (s : Bytes) : trimLeft (x :: s) = x :: s := by
  apply trimLeft_none
  intro e he hp
  match e, hp with
  | [], _ => exact enc_ne_nil he rfl
  | y :: e, hp =>
    rw [List.cons_prefix_cons] at hp
    exact hx _ he (by rw [hp.1]; simp)

theorem trimRight_solid {x : UInt8} (hx : Solid x) (t s : Bytes) : trimRight (t ++ x :: s) = t ++ x :: trimRight s := by
  obtain ⟨b, hb, e, hs⟩ := trimRight_spec s
  generalize trimRight s = r at *
  subst e
  have : t ++ x :: (r ++ b) = (t ++ x :: r) ++ b := by simp
  rw [this, trimRight_spaces hb, trimRight_none]
  intro e he hp
  have h2 : x :: r <:+ t ++ x :: r := List.suffix_append _ _
  by_cases hl : e.length ≤ r.length
  · exact hs e he (List.suffix_of_suffix_length_le hp ⟨t ++ [x], by simp⟩ hl)
  · have : x :: r <:+ e := List.suffix_of_suffix_length_le h2 hp (by simp; omega)
    exact hx e he (this.subset (by simp))

theorem trimRight_solid_end {x : UInt8} (hx : Solid x) (t : Bytes) : trimRight (t ++ [x]) = t ++ [x] :=
  trimRight_solid hx t []

theorem trimSpace_solid {x : UInt8} (hx : Solid x) (s : Bytes) : trimSpace (x :: s) = x :: trimRight s := by
  unfold trimSpace
  rw [trimLeft_solid hx]
  exact trimRight_solid hx [] s

/-- Spaces around a text that starts and ends with solid bytes are removed. -/
theorem trimSpace_around {a b : Bytes} (ha : Spaces a) (hb : Spaces b) {x y : UInt8} (hx : Solid x) (hy : Solid y)
    (s : Bytes) : trimSpace (a ++ (x :: (s ++ [y])) ++ b) = x :: (s ++ [y]) := by
  rw [trimSpace_spaces_right hb, trimSpace_spaces_left ha, trimSpace_solid hx, trimRight_solid_end hy]

theorem trimSpace_comment {a : Bytes} (ha : Spaces a) {x : UInt8} (hx : Solid x) (s : Bytes) :
    trimSpace (a ++ (x :: s)) = x :: trimRight s := by
  rw [trimSpace_spaces_left ha, trimSpace_solid hx]

end Verif.Proofs.Po
