import Verif.Proofs.Gen.Names
/-!
# The sets of the generators, their names and their order
-/
namespace Verif.Proofs.Gen
open Verif.Go Verif.Model.Gen Verif.Spec.GenData

variable {κ β γ α : Type} [DecidableEq κ]

/-- The groups with their languages in order. -/
def setsOf (key : β → κ) (view : β → γ) (table : List (Bytes × β)) : List (List Bytes × γ) :=
  (collect key table).map fun g => (sortBy bytesLe g.languages, view g.data)

/-- Entries with the same key show the same. -/
def NoClash (key : β → κ) (view : β → γ) (table : List (Bytes × β)) : Prop :=
  ∀ a ∈ table, ∀ b ∈ table, key a.2 = key b.2 → view a.2 = view b.2

theorem setsOf_own {key : β → κ} {view : β → γ} {table : List (Bytes × β)} (hn : (table.map (·.1)).Nodup) :
    Own view table (setsOf key view table) ↔ NoClash key view table := by
  have h := collect_holds key table
  constructor
  · intro ho a ha b hb hk
    obtain ⟨g, hg, hgk⟩ := h.all a ha
    have hs : (sortBy bytesLe g.languages, view g.data) ∈ setsOf key view table := List.mem_map.mpr ⟨g, hg, rfl⟩
    obtain ⟨x, hx, hv⟩ := ho.own _ hs a.1 (mem_sortBy.mpr ((h.mem_langs hg).mpr ⟨a.2, ha, hgk.symm⟩))
    obtain ⟨y, hy, hw⟩ := ho.own _ hs b.1 (mem_sortBy.mpr ((h.mem_langs hg).mpr ⟨b.2, hb, hk.symm.trans hgk.symm⟩))
    rw [entry_unique hn hx ha] at hv
    rw [entry_unique hn hy hb] at hw
    exact hv.symm.trans hw
  · intro hc
    refine ⟨fun e he => ?_, fun s hs => ?_, ?_, fun s hs lang hl => ?_⟩
    · obtain ⟨g, hg, hgk⟩ := h.all e he
      exact ⟨_, List.mem_map.mpr ⟨g, hg, rfl⟩, mem_sortBy.mpr ((h.mem_langs hg).mpr ⟨e.2, he, hgk.symm⟩)⟩
    · obtain ⟨g, hg, rfl⟩ := List.mem_map.mp hs
      obtain ⟨lang, -, hl, -⟩ := h.data_mem hg
      exact List.ne_nil_of_mem (mem_sortBy.mpr hl)
    · have hp : ((setsOf key view table).map (·.1)).flatten.Perm ((collect key table).map (·.languages)).flatten := by
        unfold setsOf
        rw [List.map_map]
        generalize collect key table = gs
        induction gs with
        | nil => exact .refl _
        | cons g gs ih =>
          simp only [List.map_cons, List.flatten_cons]
          exact (sortBy_perm _ _).append ih
      exact hp.nodup_iff.mpr (languages_nodup h hn)
    · obtain ⟨g, hg, rfl⟩ := List.mem_map.mp hs
      obtain ⟨b, hb, hk⟩ := (h.mem_langs hg).mp (mem_sortBy.mp hl)
      obtain ⟨l, hd, -, hdk⟩ := h.data_mem hg
      exact ⟨b, hb, hc _ hd _ hb (hdk.trans hk.symm)⟩

/-- Every language of a set is in the table; no set is empty; no language is in two sets. -/
theorem setsOf_langs {key : β → κ} {view : β → γ} {table : List (Bytes × β)} (hn : (table.map (·.1)).Nodup) :
    (∀ s ∈ setsOf key view table, s.1 ≠ [] ∧ ∀ l ∈ s.1, ∃ b, (l, b) ∈ table) ∧
      (setsOf key view table).Pairwise (fun a b => ∀ l ∈ a.1, l ∉ b.1) ∧
      (setsOf key view table).Pairwise (fun a b => ∀ l ∈ a.1, ∀ l' ∈ b.1, ∀ x y, (l, x) ∈ table → (l', y) ∈ table → key x ≠ key y) := by
  have h := collect_holds key table
  have hk : (collect key table).Pairwise fun a b => a.key ≠ b.key := by
    have := h.nodup
    rwa [List.Nodup, List.pairwise_map] at this
  have hpw : (setsOf key view table).Pairwise
      (fun a b => ∀ l ∈ a.1, ∀ l' ∈ b.1, ∀ x y, (l, x) ∈ table → (l', y) ∈ table → key x ≠ key y) := by
    unfold setsOf
    rw [List.pairwise_map]
    refine hk.imp_of_mem fun {a b} ha hb hab l hl l' hl' x y hx hy he => hab ?_
    obtain ⟨x', h1, h2⟩ := (h.mem_langs ha).mp (mem_sortBy.mp hl)
    obtain ⟨y', h3, h4⟩ := (h.mem_langs hb).mp (mem_sortBy.mp hl')
    rw [← h2, ← h4, entry_unique hn h1 hx, entry_unique hn h3 hy, he]
  refine ⟨fun s hs => ?_, ?_, hpw⟩
  · obtain ⟨g, hg, rfl⟩ := List.mem_map.mp hs
    refine ⟨?_, fun l hl => ?_⟩
    · obtain ⟨lang, -, hl, -⟩ := h.data_mem hg
      exact List.ne_nil_of_mem (mem_sortBy.mpr hl)
    · obtain ⟨b, hb, -⟩ := (h.mem_langs hg).mp (mem_sortBy.mp hl)
      exact ⟨b, hb⟩
  · unfold setsOf
    rw [List.pairwise_map]
    refine hk.imp_of_mem fun {a b} ha hb hab l hl hl' => hab ?_
    obtain ⟨x', h1, h2⟩ := (h.mem_langs ha).mp (mem_sortBy.mp hl)
    obtain ⟨y', h3, h4⟩ := (h.mem_langs hb).mp (mem_sortBy.mp hl')
    rw [← h2, ← h4, entry_unique hn h1 h3]

/-- A set is determined by its key. -/
theorem setsOf_perm {key : β → κ} {view : β → γ} {t t' : List (Bytes × β)} (hp : t.Perm t') (hc : NoClash key view t) :
    (setsOf key view t).Perm (setsOf key view t') := by
  classical
  have hc' : NoClash key view t' := fun a ha b hb => hc a (hp.mem_iff.mpr ha) b (hp.mem_iff.mpr hb)
  have h := collect_holds key t
  have h' := collect_holds key t'
  let f : Group κ β → κ × List Bytes × γ := fun g => (g.key, sortBy bytesLe g.languages, view g.data)
  have hsub : ∀ {t t' : List (Bytes × β)}, t.Perm t' → NoClash key view t →
      ∀ x ∈ (collect key t).map f, x ∈ (collect key t').map f := by
    intro t t' hp hc x hx
    have h := collect_holds key t
    have h' := collect_holds key t'
    obtain ⟨g, hg, rfl⟩ := List.mem_map.mp hx
    obtain ⟨l, hd, -, hdk⟩ := h.data_mem hg
    obtain ⟨g', hg', hk⟩ := h'.all _ (hp.mem_iff.mp hd)
    obtain ⟨l', hd', -, hdk'⟩ := h'.data_mem hg'
    refine List.mem_map.mpr ⟨g', hg', ?_⟩
    have hgk : g'.key = g.key := hk.trans hdk
    have h1 : sortBy bytesLe g'.languages = sortBy bytesLe g.languages := by
      rw [h'.langs g' hg', h.langs g hg, hgk]
      exact sortBy_perm_eq bytesLe_order ((entries_perm hp.symm).map _)
    have h2 : view g'.data = view g.data := hc _ (hp.mem_iff.mpr hd') _ hd (hdk'.trans (hgk.trans hdk.symm))
    simp only [f, hgk, h1, h2]
  have hnd : ∀ t : List (Bytes × β), ((collect key t).map f).Nodup := fun t => by
    have := (collect_holds key t).nodup
    have e : (collect key t).map (·.key) = ((collect key t).map f).map (·.1) := by rw [List.map_map]; rfl
    rw [e] at this
    rw [List.Nodup, List.pairwise_map] at this
    exact this.imp fun hab he => hab (by rw [he])
  have := (List.perm_ext_iff_of_nodup (hnd t) (hnd t')).mpr fun x => ⟨hsub hp hc x, hsub hp.symm hc' x⟩
  have e : ∀ t : List (Bytes × β), setsOf key view t = ((collect key t).map f).map (·.2) := fun t => by
    unfold setsOf; rw [List.map_map]; rfl
  rw [e, e]
  exact this.map _

theorem own_perm {β γ : Type} {view : β → γ} {table : List (Bytes × β)} {a b : List (List Bytes × γ)} (hp : a.Perm b) :
    Own view table a → Own view table b := fun h =>
  ⟨fun e he => let ⟨s, hs, hl⟩ := h.all e he; ⟨s, hp.mem_iff.mp hs, hl⟩, fun s hs => h.some s (hp.mem_iff.mpr hs),
    (hp.map _).flatten.nodup_iff.mp h.once, fun s hs => h.own s (hp.mem_iff.mpr hs)⟩

/-! ## Names -/

theorem named_eq {name : α → Option Bytes} : ∀ {l : List α} {out : List (Bytes × α)}, named name l = some out →
    out = l.map fun d => ((name d).getD [], d)
  | [], out, h => by cases h; rfl
  | d :: ds, out, h => by
    unfold named at h
    split at h
    · rename_i n l h1 h2
      cases h
      rw [List.map_cons, ← named_eq h2, h1]; rfl
    · cases h

theorem named_name {name : α → Option Bytes} : ∀ {l : List α} {out : List (Bytes × α)}, named name l = some out →
    ∀ p ∈ out, name p.2 = some p.1
  | [], out, h, p, hp => by cases h; cases hp
  | d :: ds, out, h, p, hp => by
    unfold named at h
    split at h
    · rename_i n l h1 h2
      cases h
      rcases List.mem_cons.mp hp with rfl | hp
      · exact h1
      · exact named_name h2 p hp
    · cases h

theorem named_snd {name : α → Option Bytes} {l : List α} {out : List (Bytes × α)} (h : named name l = some out) :
    out.map (·.2) = l := by
  rw [named_eq h, List.map_map]
  exact List.map_id _

/-! ## Order -/

theorem less_iff {count : α → Int} {a b : Bytes × α} :
    less count b a = false ↔ count a.2 < count b.2 ∨ count a.2 = count b.2 ∧ bytesLe a.1 b.1 = true := by
  unfold less
  by_cases he : count b.2 = count a.2
  · rw [if_neg (fun h => h he)]
    simp only [he, Int.lt_irrefl, false_or, true_and, Bool.not_eq_false']
  · rw [if_pos he, decide_eq_false_iff_not]
    constructor
    · intro h; exact .inl (by omega)
    · rintro (h | ⟨h, -⟩) <;> omega

theorem less_false {count : α → Int} {a b : Bytes × α} (h1 : less count a b = false) (h2 : less count b a = false) : a.1 = b.1 := by
  rw [less_iff] at h1 h2
  rcases h1 with h1 | ⟨h1, h1'⟩ <;> rcases h2 with h2 | ⟨h2, h2'⟩
  · omega
  · omega
  · omega
  · exact bytesLe_antisymm _ _ h2' h1'

theorem fst_unique {l : List (Bytes × α)} (hn : (l.map (·.1)).Nodup) {a b : Bytes × α} (ha : a ∈ l) (hb : b ∈ l) (h : a.1 = b.1) :
    a = b := by
  obtain ⟨x, y⟩ := a
  obtain ⟨x', y'⟩ := b
  cases h
  rw [entry_unique hn ha hb]

theorem sorted_same {count : α → Int} {l l' out out' : List (Bytes × α)} (hp : l.Perm l') (hn : (l.map (·.1)).Nodup)
    (h : SortedBy (less count) l out) (h' : SortedBy (less count) l' out') : out = out' := by
  refine List.Perm.eq_of_pairwise (le := fun a b => less count b a = false) (fun a b ha hb h1 h2 => ?_) h.2 h'.2
    (h.1.trans (hp.trans h'.1.symm))
  exact fst_unique hn (h.1.mem_iff.mp ha) (hp.mem_iff.mpr (h'.1.mem_iff.mp hb)) (less_false h2 h1)

/-- There is always a result of sorting. -/
theorem sorted_exists (count : α → Int) (l : List (Bytes × α)) : ∃ out, SortedBy (less count) l out := by
  induction l with
  | nil => exact ⟨[], .refl _, .nil⟩
  | cons x l ih =>
    obtain ⟨out, hp, hs⟩ := ih
    have htrans : ∀ a b c : Bytes × α, less count b a = false → less count c b = false → less count c a = false := by
      intro a b c h1 h2
      rw [less_iff] at *
      rcases h1 with h1 | ⟨h1, h1'⟩ <;> rcases h2 with h2 | ⟨h2, h2'⟩
      · exact .inl (by omega)
      · exact .inl (by omega)
      · exact .inl (by omega)
      · exact .inr ⟨by omega, bytesLe_trans _ _ _ h1' h2'⟩
    have htotal : ∀ a b : Bytes × α, less count a b = true → less count b a = false := by
      intro a b h1
      cases h2 : less count b a
      · rfl
      · rw [← Bool.not_eq_false, less_iff] at h1 h2
        rcases Int.lt_trichotomy (count a.2) (count b.2) with h | h | h
        · exact absurd (.inl h) h2
        · rcases bytesLe_total a.1 b.1 with h' | h'
          · exact absurd (.inr ⟨h, h'⟩) h2
          · exact absurd (.inr ⟨h.symm, h'⟩) h1
        · exact absurd (.inl h) h1
    refine ⟨insertBy (fun a b => !less count b a) x out, (insertBy_perm _ x out).trans (hp.cons x), ?_⟩
    clear hp
    induction out with
    | nil => exact List.pairwise_singleton _ _
    | cons y ys ih =>
      have hy := List.pairwise_cons.mp hs
      unfold insertBy
      split
      · rename_i hxy
        have hxy : less count y x = false := by simpa using hxy
        refine List.pairwise_cons.mpr ⟨fun b hb => ?_, hs⟩
        rcases List.mem_cons.mp hb with rfl | hb
        · exact hxy
        · exact htrans _ _ _ hxy (hy.1 b hb)
      · rename_i hxy
        have hxy : less count y x = true := by simpa using hxy
        refine List.pairwise_cons.mpr ⟨fun b hb => ?_, ih hy.2⟩
        rcases List.mem_cons.mp ((insertBy_perm _ x ys).mem_iff.mp hb) with rfl | hb
        · exact htotal _ _ hxy
        · exact hy.1 b hb

end Verif.Proofs.Gen
