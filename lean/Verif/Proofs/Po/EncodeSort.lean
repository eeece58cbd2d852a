import Verif.Spec.PoSort
import Verif.Spec.PoFile
import Mathlib.Data.List.Perm.Basic
/-! Helper lemmas for writing PO files: sorting. -/
namespace Verif.Proofs.Po
open Verif.Go Verif.Spec.PoSort Verif.Spec.PoFile
open Verif.Model.Po hiding Field

/-! ## Permutations up to a relation -/

/-- A permutation up to a relation. -/
def PermBy {α : Type} (R : α → α → Prop) (l m : List α) : Prop := ∃ l', l'.Perm l ∧ List.Forall₂ R l' m

theorem forall₂_trans {α : Type} {R : α → α → Prop} (ht : ∀ a b c, R a b → R b c → R a c) {l m n : List α}
    (h1 : List.Forall₂ R l m) (h2 : List.Forall₂ R m n) : List.Forall₂ R l n := by
  induction h1 generalizing n with
  | nil => cases h2; exact .nil
  | cons h _ ih =>
    cases h2 with
    | cons h' t => exact .cons (ht _ _ _ h h') (ih t)

theorem perm_forall₂ {α β : Type} {R : α → β → Prop} {l : List α} {m m' : List β} (h : List.Forall₂ R l m) (p : m'.Perm m) :
    ∃ l', l'.Perm l ∧ List.Forall₂ R l' m' := by
  have f : List.Forall₂ (flip R) m l := List.Forall₂.flip (R := flip R) h
  obtain ⟨l', f', p'⟩ := List.perm_comp_forall₂ p f
  exact ⟨l', p', f'.flip⟩

theorem permBy_trans {α : Type} {R : α → α → Prop} (ht : ∀ a b c, R a b → R b c → R a c) {l m n : List α}
    (h1 : PermBy R l m) (h2 : PermBy R m n) : PermBy R l n := by
  obtain ⟨l', p1, f1⟩ := h1
  obtain ⟨m', p2, f2⟩ := h2
  obtain ⟨l'', p3, f3⟩ := perm_forall₂ f1 p2
  exact ⟨l'', p3.trans p1, forall₂_trans ht f3 f2⟩

theorem permBy_perm {α : Type} {R : α → α → Prop} (hr : ∀ a, R a a) {l m : List α} (h : l.Perm m) : PermBy R l m :=
  ⟨m, h.symm, List.forall₂_same.2 fun a _ => hr a⟩

theorem permBy_cons {α : Type} {R : α → α → Prop} {a b : α} (h : R a b) {l m : List α} (hl : PermBy R l m) :
    PermBy R (a :: l) (b :: m) := by
  obtain ⟨l', p, f⟩ := hl
  exact ⟨a :: l', p.cons a, .cons h f⟩

theorem sink_permBy {cmp : Compare} {R : Message → Message → Prop} (hr : ∀ m, R m m) (ht : ∀ a b c, R a b → R b c → R a c)
    (hc : ∀ a b, R a (cmp a b).2.1 ∧ R b (cmp a b).2.2) (left : List Message) : ∀ x, PermBy R (x :: left) (sink cmp x left) := by
  induction left with
  | nil => intro x; exact permBy_perm hr (.refl _)
  | cons y left ih =>
    intro x
    obtain ⟨h1, h2⟩ := hc x y
    rw [sink]
    split
    rename_i c x' y' he
    rw [he] at h1 h2
    split
    · exact permBy_trans ht (permBy_perm hr (List.Perm.swap y x left)) (permBy_cons h2
        (permBy_trans ht (permBy_cons h1 (permBy_perm hr (.refl _))) (ih x')))
    · exact permBy_cons h1 (permBy_cons h2 (permBy_perm hr (.refl _)))

theorem insertionSort_honest : Honest insertionSort := by
  intro cmp R hr ht hc ms
  have key : ∀ (ms left : List Message), PermBy R (ms ++ left) (ms.foldl (fun left x => sink cmp x left) left) := by
    intro ms
    induction ms with
    | nil => intro left; exact permBy_perm hr (.refl _)
    | cons m ms ih =>
      intro left
      rw [List.foldl_cons]
      refine permBy_trans ht ?_ (ih _)
      have h1 : ((m :: ms) ++ left).Perm (ms ++ (m :: left)) := List.perm_middle.symm
      refine permBy_trans ht (permBy_perm hr h1) ?_
      obtain ⟨l', p, f⟩ := sink_permBy hr ht hc left m
      refine ⟨ms ++ l', (p.append_left ms), ?_⟩
      exact List.rel_append (List.forall₂_same.2 fun a _ => hr a) f
  obtain ⟨l', p, f⟩ := key ms []
  unfold insertionSort
  refine ⟨l'.reverse, ?_, List.rel_reverse f⟩
  rw [List.append_nil] at p
  exact (List.reverse_perm l').trans p

/-! ## Sorting by an order -/

section
variable {cmp : Compare} {N : Message → Message} {ms : List Message}

/-- A message of the list in normal form. -/
def Normal (N : Message → Message) (ms : List Message) (a : Message) : Prop := a ∈ ms.map N ∧ N a = a

theorem normal_of (hn : Normalises cmp N ms) {a : Message} (ha : a ∈ ms ++ ms.map N) : Normal N ms (N a) := by
  refine ⟨?_, hn.idem a⟩
  rcases List.mem_append.1 ha with ha | ha
  · exact List.mem_map.2 ⟨a, ha, rfl⟩
  · obtain ⟨b, hb, rfl⟩ := List.mem_map.1 ha
    rw [hn.idem]; exact ha

theorem not_lt_trans (hs : StrictOn cmp (ms.map N)) {a b c : Message} (ha : a ∈ ms.map N) (hb : b ∈ ms.map N) (hc : c ∈ ms.map N)
    (h1 : ¬ (cmp a b).1 < 0) (h2 : ¬ (cmp b c).1 < 0) : ¬ (cmp a c).1 < 0 := by
  intro h
  rcases hs.total b hb c hc with rfl | h3 | h3
  · exact h1 h
  · exact h2 h3
  · exact h1 (hs.trans a ha c hc b hb h h3)

theorem sink_sorted (hn : Normalises cmp N ms) (hs : StrictOn cmp (ms.map N)) (left : List Message) : ∀ x,
    x ∈ ms ++ ms.map N → (∀ y ∈ left, y ∈ ms ++ ms.map N) → (∀ y ∈ left.tail, Normal N ms y) →
    (left = [] → Normal N ms x) → (left.map N).Pairwise (fun a b => ¬ (cmp a b).1 < 0) →
    (sink cmp x left).Perm (N x :: left.map N) ∧ (∀ y ∈ sink cmp x left, Normal N ms y) ∧
      (sink cmp x left).Pairwise (fun a b => ¬ (cmp a b).1 < 0) := by
  induction left with
  | nil =>
    intro x hx _ _ h0 _
    obtain ⟨h1, h2⟩ := h0 rfl
    rw [sink, h2]
    exact ⟨.refl _, fun y hy => by rw [List.mem_singleton.1 hy]; exact ⟨h1, h2⟩, List.pairwise_singleton _ _⟩
  | cons y left ih =>
    intro x hx hl ht h0 hp
    have hy := hl y List.mem_cons_self
    have ha := hn.after x hx y hy
    have hb := hn.before x hx y hy
    have nx := normal_of hn hx
    have ny := normal_of hn hy
    have htl : left.map N = left := by
      conv => rhs; rw [← List.map_id left]
      exact List.map_congr_left fun z hz => (ht z hz).2
    rw [List.map_cons, htl, List.pairwise_cons] at hp
    rw [sink]
    split
    rename_i c x' y' he
    rw [he] at ha hb
    simp only [Prod.mk.injEq] at ha
    obtain ⟨rfl, rfl⟩ := ha
    simp only at hb
    split
    · rename_i hc
      obtain ⟨i1, i2, i3⟩ := ih (N x) (List.mem_append_right _ nx.1) (fun z hz => hl z (List.mem_cons_of_mem _ hz))
        (fun z hz => ht z (List.mem_of_mem_tail hz)) (fun _ => nx) (by rw [htl]; exact hp.2)
      rw [htl, hn.idem] at i1
      refine ⟨?_, ?_, ?_⟩
      · rw [List.map_cons, htl]
        exact ((List.perm_cons _).2 i1).trans (List.Perm.swap _ _ _)
      · intro z hz
        rcases List.mem_cons.1 hz with rfl | hz
        · exact ny
        · exact i2 z hz
      · rw [List.pairwise_cons]
        refine ⟨fun z hz => ?_, i3⟩
        rcases List.mem_cons.1 (i1.mem_iff.1 hz) with rfl | hz
        · intro h
          exact hs.irrefl _ nx.1 (hs.trans _ nx.1 _ ny.1 _ nx.1 (by rw [← hb]; exact hc) h)
        · exact hp.1 z hz
    · rename_i hc
      refine ⟨?_, ?_, ?_⟩
      · rw [List.map_cons, htl]
      · intro z hz
        rcases List.mem_cons.1 hz with rfl | hz
        · exact nx
        · rcases List.mem_cons.1 hz with rfl | hz
          · exact ny
          · exact ht z hz
      · have h1 : ¬ (cmp (N x) (N y)).1 < 0 := by rw [← hb]; exact hc
        rw [List.pairwise_cons, List.pairwise_cons]
        refine ⟨fun z hz => ?_, hp.1, hp.2⟩
        rcases List.mem_cons.1 hz with rfl | hz
        · exact h1
        · exact not_lt_trans hs nx.1 ny.1 (ht z hz).1 h1 (hp.1 z hz)

theorem fold_sorted (hn : Normalises cmp N ms) (hs : StrictOn cmp (ms.map N)) (xs : List Message) : ∀ left,
    (∀ x ∈ xs, x ∈ ms ++ ms.map N) → left ≠ [] → (∀ y ∈ left, Normal N ms y) → left.Pairwise (fun a b => ¬ (cmp a b).1 < 0) →
    (xs.foldl (fun left x => sink cmp x left) left).Perm (xs.map N ++ left) ∧
      (xs.foldl (fun left x => sink cmp x left) left).Pairwise (fun a b => ¬ (cmp a b).1 < 0) := by
  induction xs with
  | nil => intro left _ _ _ hp; exact ⟨.refl _, hp⟩
  | cons x xs ih =>
    intro left hx h0 hl hp
    rw [List.foldl_cons]
    have hm : left.map N = left := by
      conv => rhs; rw [← List.map_id left]
      exact List.map_congr_left fun z hz => (hl z hz).2
    have hin : ∀ y ∈ left, y ∈ ms ++ ms.map N := fun y hy => List.mem_append_right _ (hl y hy).1
    obtain ⟨s1, s2, s3⟩ := sink_sorted hn hs left x (hx x List.mem_cons_self) hin
      (fun y hy => hl y (List.mem_of_mem_tail hy)) (fun e => absurd e h0) (by rw [hm]; exact hp)
    have hne : sink cmp x left ≠ [] := fun e => by rw [e] at s1; exact List.cons_ne_nil _ _ s1.symm.eq_nil
    obtain ⟨i1, i2⟩ := ih _ (fun z hz => hx z (List.mem_cons_of_mem _ hz)) hne s2 s3
    refine ⟨i1.trans ?_, i2⟩
    rw [hm] at s1
    exact (s1.append_left _).trans (by rw [List.map_cons]; exact List.perm_middle)

theorem insertionSort_short (cmp : Compare) (ms : List Message) (h : ms.length ≤ 1) : insertionSort cmp ms = ms := by
  match ms, h with
  | [], _ => rfl
  | [_], _ => rfl

theorem insertionSort_sorts : Sorts insertionSort := by
  refine ⟨insertionSort_short, ?_⟩
  intro cmp N ms hlen hn hs
  match ms, hlen with
  | x :: y :: xs, _ =>
    have hx : x ∈ (x :: y :: xs) ++ (x :: y :: xs).map N := by simp
    have hy : y ∈ (x :: y :: xs) ++ (x :: y :: xs).map N := by simp
    obtain ⟨s1, s2, s3⟩ := sink_sorted hn hs [x] y hy (by intro z hz; rw [List.mem_singleton.1 hz]; exact hx) nofun
      (by simp) (List.pairwise_singleton _ _)
    obtain ⟨i1, i2⟩ := fold_sorted hn hs xs _ (fun z hz => by simp [hz])
      (fun e => by rw [e] at s1; exact List.cons_ne_nil _ _ s1.symm.eq_nil) s2 s3
    have e : insertionSort cmp (x :: y :: xs) = (xs.foldl (fun left x => sink cmp x left) (sink cmp y [x])).reverse := rfl
    rw [e]
    refine ⟨(List.reverse_perm _).trans (i1.trans ?_), List.pairwise_reverse.2 i2⟩
    refine (s1.append_left _).trans ?_
    simp only [List.map_cons, List.map_nil]
    refine List.perm_middle.trans ((List.perm_middle.trans ?_).cons _ |>.trans (List.Perm.swap _ _ _))
    simp
end

end Verif.Proofs.Po
