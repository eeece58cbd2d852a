import Verif.Model.Gen.Groups
import Verif.Proofs.Utf8
/-!
# The groups that the generators form
-/
namespace Verif.Proofs.Gen
open Verif.Go Verif.Model.Gen

variable {κ β : Type} [DecidableEq κ]

/-- The entries with a key, in the order of the table. -/
def entries (key : β → κ) (k : κ) (table : List (Bytes × β)) : List (Bytes × β) := table.filter fun e => decide (key e.2 = k)

/-- What a list of groups is, after the entries of `table`. -/
structure Holds (key : β → κ) (table : List (Bytes × β)) (gs : List (Group κ β)) : Prop where
  nodup : (gs.map (·.key)).Nodup
  langs : ∀ g ∈ gs, g.languages = (entries key g.key table).map (·.1)
  first : ∀ g ∈ gs, ((entries key g.key table).head?.map (·.2)) = some g.data
  all : ∀ e ∈ table, ∃ g ∈ gs, g.key = key e.2

theorem mem_addTo {k : κ} {lang : Bytes} {b : β} : ∀ {gs : List (Group κ β)} {g : Group κ β}, g ∈ addTo k lang b gs →
    (g ∈ gs ∧ g.key ≠ k) ∨ (∃ g' ∈ gs, g'.key = k ∧ g = { g' with languages := g'.languages ++ [lang] }) ∨
      (g = ⟨k, b, [lang]⟩ ∧ ∀ g' ∈ gs, g'.key ≠ k) ∨ (g ∈ gs ∧ g.key = k ∧ ∃ g' ∈ gs, g'.key = k ∧ ¬ (gs.map (·.key)).Nodup)
  | [], g, h => by
    simp only [addTo, List.mem_singleton] at h
    exact .inr (.inr (.inl ⟨h, by simp⟩))
  | x :: gs, g, h => by
    unfold addTo at h
    split at h
    · rename_i hx
      rcases List.mem_cons.mp h with rfl | h
      · exact .inr (.inl ⟨x, by simp, hx, rfl⟩)
      · by_cases hk : g.key = k
        · refine .inr (.inr (.inr ⟨List.mem_cons_of_mem _ h, hk, x, by simp, hx, ?_⟩))
          intro hn
          rw [List.map_cons, List.nodup_cons] at hn
          exact hn.1 (List.mem_map.mpr ⟨g, h, by rw [hk, hx]⟩)
        · exact .inl ⟨List.mem_cons_of_mem _ h, hk⟩
    · rename_i hx
      rcases List.mem_cons.mp h with rfl | h
      · exact .inl ⟨by simp, hx⟩
      · rcases mem_addTo h with ⟨h1, h2⟩ | ⟨g', h1, h2, h3⟩ | ⟨h1, h2⟩ | ⟨h1, h2, g', h3, h4, h5⟩
        · exact .inl ⟨List.mem_cons_of_mem _ h1, h2⟩
        · exact .inr (.inl ⟨g', List.mem_cons_of_mem _ h1, h2, h3⟩)
        · refine .inr (.inr (.inl ⟨h1, fun g' hg' => ?_⟩))
          rcases List.mem_cons.mp hg' with rfl | hg'
          · exact hx
          · exact h2 g' hg'
        · refine .inr (.inr (.inr ⟨List.mem_cons_of_mem _ h1, h2, g', List.mem_cons_of_mem _ h3, h4, fun hn => ?_⟩))
          rw [List.map_cons, List.nodup_cons] at hn
          exact h5 hn.2

theorem addTo_keys {k : κ} {lang : Bytes} {b : β} : ∀ gs : List (Group κ β), (addTo k lang b gs).map (·.key) =
    if k ∈ gs.map (·.key) then gs.map (·.key) else gs.map (·.key) ++ [k]
  | [] => by simp [addTo]
  | x :: gs => by
    unfold addTo
    split
    · rename_i hx; simp [hx]
    · rename_i hx
      rw [List.map_cons, addTo_keys gs]
      have : k ≠ x.key := fun h => hx h.symm
      by_cases h : k ∈ gs.map (·.key)
      · rw [if_pos h, if_pos (by simp only [List.map_cons, List.mem_cons]; exact .inr h)]; rfl
      · rw [if_neg h, if_neg (by simp only [List.map_cons, List.mem_cons]; exact fun h' => h'.elim this h)]; rfl

theorem entries_append (key : β → κ) (k : κ) (table : List (Bytes × β)) (e : Bytes × β) :
    entries key k (table ++ [e]) = if key e.2 = k then entries key k table ++ [e] else entries key k table := by
  unfold entries
  rw [List.filter_append]
  split <;> simp [*]

theorem holds_step {key : β → κ} {table : List (Bytes × β)} {gs : List (Group κ β)} (h : Holds key table gs) (e : Bytes × β) :
    Holds key (table ++ [e]) (addTo (key e.2) e.1 e.2 gs) := by
  have hk := addTo_keys (k := key e.2) (lang := e.1) (b := e.2) gs
  have hmem : ∀ g ∈ addTo (key e.2) e.1 e.2 gs, (g ∈ gs ∧ g.key ≠ key e.2) ∨
      (∃ g' ∈ gs, g'.key = key e.2 ∧ g = { g' with languages := g'.languages ++ [e.1] }) ∨
      (g = ⟨key e.2, e.2, [e.1]⟩ ∧ ∀ g' ∈ gs, g'.key ≠ key e.2) := fun g hg => by
    rcases mem_addTo hg with h1 | h1 | h1 | ⟨-, -, -, -, -, h5⟩
    · exact .inl h1
    · exact .inr (.inl h1)
    · exact .inr (.inr h1)
    · exact absurd h.nodup h5
  have hnone : (∀ g' ∈ gs, g'.key ≠ key e.2) → entries key (key e.2) table = [] := fun hn => by
    unfold entries
    rw [List.filter_eq_nil_iff]
    intro x hx hd
    obtain ⟨g, hg, hgk⟩ := h.all x hx
    exact hn g hg (hgk.trans (by simpa using hd))
  refine ⟨?_, fun g hg => ?_, fun g hg => ?_, fun x hx => ?_⟩
  · rw [hk]
    split
    · exact h.nodup
    · rename_i hn
      exact List.nodup_append.mpr ⟨h.nodup, by simp, fun a ha b hb => by
        simp only [List.mem_singleton] at hb; subst hb; exact fun h' => hn (h' ▸ ha)⟩
  · rw [entries_append]
    rcases hmem g hg with ⟨h1, h2⟩ | ⟨g', h1, h2, rfl⟩ | ⟨rfl, h2⟩
    · rw [if_neg (fun h' => h2 h'.symm)]; exact h.langs g h1
    · rw [if_pos h2.symm, List.map_append, ← h.langs g' h1]; rfl
    · rw [if_pos rfl, hnone h2]; rfl
  · rw [entries_append]
    rcases hmem g hg with ⟨h1, h2⟩ | ⟨g', h1, h2, rfl⟩ | ⟨rfl, h2⟩
    · rw [if_neg (fun h' => h2 h'.symm)]; exact h.first g h1
    · rw [if_pos h2.symm]
      have := h.first g' h1
      show Option.map _ (entries key g'.key table ++ [e]).head? = some g'.data
      revert this
      cases entries key g'.key table with
      | nil => intro h'; cases h'
      | cons a l => exact fun h' => h'
    · rw [if_pos rfl, hnone h2]; rfl
  · have hex : ∀ k, (k ∈ gs.map (·.key) ∨ k = key e.2) → ∃ g ∈ addTo (key e.2) e.1 e.2 gs, g.key = k := fun k hk' => by
      have : k ∈ (addTo (key e.2) e.1 e.2 gs).map (·.key) := by
        rw [hk]
        split
        · rename_i hin
          rcases hk' with h' | rfl
          · exact h'
          · exact hin
        · simp only [List.mem_append, List.mem_singleton]; exact hk'
      obtain ⟨g, hg, rfl⟩ := List.mem_map.mp this
      exact ⟨g, hg, rfl⟩
    rcases List.mem_append.mp hx with hx | hx
    · obtain ⟨g, hg, hgk⟩ := h.all x hx
      exact hex _ (.inl (List.mem_map.mpr ⟨g, hg, hgk⟩))
    · simp only [List.mem_singleton] at hx
      subst hx
      exact hex _ (.inr rfl)

theorem holds_foldl {key : β → κ} : ∀ (rest done : List (Bytes × β)) {gs : List (Group κ β)}, Holds key done gs →
    Holds key (done ++ rest) (rest.foldl (fun gs e => addTo (key e.2) e.1 e.2 gs) gs)
  | [], done, gs, h => by simpa using h
  | e :: rest, done, gs, h => by
    have := holds_foldl rest (done ++ [e]) (holds_step h e)
    rwa [List.append_assoc] at this

theorem collect_holds (key : β → κ) (table : List (Bytes × β)) : Holds key table (collect key table) :=
  holds_foldl (key := key) table [] (gs := []) ⟨by simp, by simp, by simp, by simp⟩

namespace Holds

variable {key : β → κ} {table : List (Bytes × β)} {gs : List (Group κ β)}

/-- The data of a group are those of one of its languages. -/
theorem data_mem (h : Holds key table gs) {g : Group κ β} (hg : g ∈ gs) :
    ∃ lang, (lang, g.data) ∈ table ∧ lang ∈ g.languages ∧ key g.data = g.key := by
  have := h.first g hg
  obtain ⟨e, he, hd⟩ := Option.map_eq_some_iff.mp this
  have hm : e ∈ entries key g.key table := List.mem_of_mem_head? he
  have hm2 := List.mem_filter.mp hm
  refine ⟨e.1, by rw [← hd]; exact hm2.1, ?_, by rw [← hd]; simpa using hm2.2⟩
  rw [h.langs g hg]
  exact List.mem_map.mpr ⟨e, hm, rfl⟩

theorem mem_langs (h : Holds key table gs) {g : Group κ β} (hg : g ∈ gs) {lang : Bytes} :
    lang ∈ g.languages ↔ ∃ b, (lang, b) ∈ table ∧ key b = g.key := by
  rw [h.langs g hg]
  simp only [entries, List.mem_map, List.mem_filter, decide_eq_true_eq]
  constructor
  · rintro ⟨e, ⟨h1, h2⟩, rfl⟩; exact ⟨e.2, h1, h2⟩
  · rintro ⟨b, h1, h2⟩; exact ⟨(lang, b), ⟨h1, h2⟩, rfl⟩

theorem same (h : Holds key table gs) {g g' : Group κ β} (hg : g ∈ gs) (hg' : g' ∈ gs) (hk : g.key = g'.key) : g = g' := by
  have hn := h.nodup
  clear h
  induction gs with
  | nil => cases hg
  | cons y l ih =>
    rw [List.map_cons, List.nodup_cons] at hn
    rcases List.mem_cons.mp hg with e | hg1 <;> rcases List.mem_cons.mp hg' with e' | hg2
    · rw [e, e']
    · exact absurd (List.mem_map.mpr ⟨g', hg2, by rw [← hk, e]⟩) hn.1
    · exact absurd (List.mem_map.mpr ⟨g, hg1, by rw [hk, e']⟩) hn.1
    · exact ih hg1 hg2 hn.2

end Holds

/-- In a table with one entry per language. -/
theorem entry_unique {table : List (Bytes × β)} (hn : (table.map (·.1)).Nodup) {lang : Bytes} {a b : β} (ha : (lang, a) ∈ table)
    (hb : (lang, b) ∈ table) : a = b := by
  induction table with
  | nil => cases ha
  | cons y l ih =>
    rw [List.map_cons, List.nodup_cons] at hn
    rcases List.mem_cons.mp ha with e | h1 <;> rcases List.mem_cons.mp hb with e' | h2
    · exact (Prod.mk.inj (e.trans e'.symm)).2
    · exact absurd (List.mem_map.mpr ⟨(lang, b), h2, by rw [← e]⟩) hn.1
    · exact absurd (List.mem_map.mpr ⟨(lang, a), h1, by rw [← e']⟩) hn.1
    · exact ih hn.2 h1 h2

theorem entries_perm {key : β → κ} {k : κ} {t t' : List (Bytes × β)} (h : t.Perm t') :
    (entries key k t).Perm (entries key k t') := h.filter _

/-- All languages of the groups, each once. -/
theorem languages_nodup {key : β → κ} {table : List (Bytes × β)} {gs : List (Group κ β)} (h : Holds key table gs)
    (hn : (table.map (·.1)).Nodup) : (gs.map (·.languages)).flatten.Nodup := by
  rw [List.Nodup, List.pairwise_flatten]
  refine ⟨fun l hl => ?_, ?_⟩
  · obtain ⟨g, hg, rfl⟩ := List.mem_map.mp hl
    rw [h.langs g hg]
    exact hn.sublist ((List.filter_sublist).map _)
  · rw [List.pairwise_map]
    have hk : gs.Pairwise fun a b => a.key ≠ b.key := by
      have := h.nodup
      rwa [List.Nodup, List.pairwise_map] at this
    refine hk.imp_of_mem fun {a b} ha hb hab => ?_
    intro x hxa y hxb e
    subst e
    obtain ⟨d, h1, h2⟩ := (h.mem_langs ha).mp hxa
    obtain ⟨d', h3, h4⟩ := (h.mem_langs hb).mp hxb
    rw [entry_unique hn h1 h3] at h2
    exact hab (h2.symm.trans h4)

theorem pairwise_mem {α : Type} {R : α → α → Prop} : ∀ {l : List α}, l.Pairwise R → ∀ {a b : α}, a ∈ l → b ∈ l → a ≠ b →
    R a b ∨ R b a
  | [], _, _, _, ha, _, _ => by cases ha
  | x :: l, h, a, b, ha, hb, hab => by
    obtain ⟨h1, h2⟩ := List.pairwise_cons.mp h
    rcases List.mem_cons.mp ha with e | ha' <;> rcases List.mem_cons.mp hb with e' | hb'
    · exact absurd (e.trans e'.symm) hab
    · exact .inl (e ▸ h1 b hb')
    · exact .inr (e' ▸ h1 a ha')
    · exact pairwise_mem h2 ha' hb' hab

end Verif.Proofs.Gen
