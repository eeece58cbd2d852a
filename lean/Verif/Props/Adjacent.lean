import Verif.Proofs.Po.Adjacent
import Verif.Props.PoParser
/-!
# Any sequence of entries (C09)
-/
namespace Verif.Props.Adjacent
open Verif.Go Verif.Model.Po Verif.Spec.PoEntry Verif.Spec.Adjacent Verif.Proofs.Po Verif.Props.PoParser

/-- A file of entries with well-formed lines, separated or not. -/
structure EntryFile (bs : List Block) (tail : List Bytes) (content : Bytes) : Prop where
  blocks : ∀ b ∈ bs, (∀ l ∈ b.1, BlankLine l) ∧ Loose b.2
  blank : ∀ l ∈ tail, BlankLine l
  lines : HasLines content (blockLines bs ++ tail)
  short : Short (blockLines bs ++ tail)

/-- Exactly the messages that `readBlocks` describes are found: an entry without a separator before it does not
begin a message but changes the one before. -/
theorem C09_exact (u : Unicode) (ignore : Bool) (bs : List Block) (tail : List Bytes) (content : Bytes)
    (h : EntryFile bs tail content) (f : File) (hf : parse u ignore content = .ok f) (c i : Bytes) (m : Message) :
    f.getMessage c i = some m ↔ m ∈ readBlocks ignore bs ∧ m.id ≠ [] ∧ m.context = c ∧ m.id = i := by
  rw [parse_run u ignore h.lines h.short, run_any u ignore h.blank h.blocks] at hf
  obtain ⟨st, hst, hf⟩ := bind_eq_ok.1 hf
  obtain ⟨g1, _⟩ := storeAll_ok hst
  rw [getMessage_find (finish_ok hf).1, g1]
  simp [PState.find, GoMap.get?, proper, keyOf, and_assoc]

/-- A file whose entries all have an ID is accepted exactly if there is one and the messages read have different
keys. -/
theorem C09_accepted_iff (u : Unicode) (ignore : Bool) (bs : List Block) (tail : List Bytes) (content : Bytes)
    (h : EntryFile bs tail content) (hid : ∀ b ∈ bs, b.2.id.value ≠ []) :
    (∃ f, parse u ignore content = .ok f) ↔
      bs ≠ [] ∧ ((readBlocks ignore bs).map fun m => (m.context, m.id)).Nodup := by
  have hids : ∀ m ∈ readBlocks ignore bs, m.id ≠ [] := by
    intro m hm
    obtain ⟨b, hb, e⟩ := readBlocks_id hm
    rw [e]; exact hid b hb
  rw [parse_run u ignore h.lines h.short, run_any u ignore h.blank h.blocks]
  constructor
  · rintro ⟨f, hf⟩
    obtain ⟨st, hst, hf⟩ := bind_eq_ok.1 hf
    obtain ⟨_, _, g3, _, g5⟩ := storeAll_ok hst
    rw [proper_eq hids] at g3 g5
    refine ⟨?_, g3⟩
    rintro rfl
    cases hst
    cases hf
  · rintro ⟨hne, hnd⟩
    obtain ⟨st, hst, _⟩ := storeAll_succeeds u (ms := readBlocks ignore bs) (st := ⟨none, []⟩) (fun _ _ => rfl)
      (by rw [proper_eq hids]; exact hnd) (.inl (heads_eq hids))
    obtain ⟨_, _, _, _, g5⟩ := storeAll_ok hst
    rw [hst]
    rcases finish_cases st with ⟨_, he, _⟩ | ⟨f, hf, _⟩
    · have := (g5.1 he).2
      rw [proper_eq hids] at this
      exact absurd this (readBlocks_ne_nil hne)
    · exact ⟨f, hf⟩

/-- As many messages are found as there are entries exactly if every entry but the first has a blank line or a
visible comment line before it; otherwise some are lost. -/
theorem C09_kept_iff (u : Unicode) (ignore : Bool) (bs : List Block) (tail : List Bytes) (content : Bytes)
    (h : EntryFile bs tail content) (hid : ∀ b ∈ bs, b.2.id.value ≠ []) (f : File) (hf : parse u ignore content = .ok f)
    (ks : List (Bytes × Bytes)) (hnd : ks.Nodup) (hks : ∀ c i, (c, i) ∈ ks ↔ f.getMessage c i ≠ none) :
    ks.length ≤ bs.length ∧ (ks.length = bs.length ↔ Apart ignore bs) := by
  have hids : ∀ m ∈ readBlocks ignore bs, m.id ≠ [] := by
    intro m hm
    obtain ⟨b, hb, e⟩ := readBlocks_id hm
    rw [e]; exact hid b hb
  have hn := ((C09_accepted_iff u ignore bs tail content h hid).1 ⟨f, hf⟩).2
  have hp : ks.Perm ((readBlocks ignore bs).map fun m => (m.context, m.id)) := by
    rw [List.perm_ext_iff_of_nodup hnd hn]
    rintro ⟨c, i⟩
    rw [hks, Option.ne_none_iff_exists', List.mem_map]
    refine exists_congr fun m => ?_
    rw [C09_exact u ignore bs tail content h f hf, Prod.mk.injEq]
    exact ⟨fun h => ⟨h.1, h.2.2⟩, fun h => ⟨h.1, hids m h.1, h.2⟩⟩
  have hl := hp.length_eq
  rw [List.length_map] at hl
  rw [hl]
  exact readBlocks_length ignore bs

/-- A file of three entries, the second directly below the first: it takes the place of the first and keeps its
context. -/
example (u : Unicode) : ∃ bs content f, EntryFile bs [] content ∧ (∀ b ∈ bs, b.2.id.value ≠ []) ∧
    parse u false content = .ok f ∧ ¬ Apart false bs ∧ bs.length = 3 ∧
    f.getMessage b!"x" b!"b" ≠ none ∧ f.getMessage [] b!"c" ≠ none ∧
    (∀ c i, (c, i) ∈ [(b!"x", b!"b"), ([], b!"c")] ↔ f.getMessage c i ≠ none) := by
  have hb : Blank [] := fun _ h => by cases h
  have hw : ∀ c d : Char, (∀ x ∈ [c], x ≠ '"' ∧ x ≠ '\\' ∧ x ≠ '\n') → (∀ x ∈ [d], x ≠ '"' ∧ x ≠ '\\' ∧ x ≠ '\n') → Loose (simple [c] [d]) := fun c d h1 h2 =>
    ⟨nofun, nofun, ⟨hb, ⟨hb, hb, means_plain h1⟩, nofun⟩, nofun, ⟨hb, ⟨hb, hb, means_plain h2⟩, nofun⟩⟩
  have hE : EntryFile [([], { simple ['a'] ['A'] with context := some ⟨[], ⟨[], ['x'], [], ['x']⟩, []⟩ }),
      ([], simple ['b'] ['B']), ([[]], simple ['c'] ['C'])] [] (textOf (blockLines [([], { simple ['a'] ['A'] with context := some ⟨[], ⟨[], ['x'], [], ['x']⟩, []⟩ }),
      ([], simple ['b'] ['B']), ([[]], simple ['c'] ['C'])])) := by
    refine ⟨?_, nofun, ⟨by decide, .inl rfl⟩, by decide⟩
    intro b hb'
    rcases hb' with _ | ⟨_, _ | ⟨_, _ | ⟨_, hb'⟩⟩⟩
    · obtain ⟨w1, _, w3, w4, w5⟩ := hw 'a' 'A' (by decide) (by decide)
      refine ⟨nofun, w1, ?_, w3, w4, w5⟩
      rintro f ⟨⟩
      exact ⟨hb, ⟨hb, hb, means_plain (by decide)⟩, nofun⟩
    · exact ⟨nofun, hw _ _ (by decide) (by decide)⟩
    · refine ⟨?_, hw _ _ (by decide) (by decide)⟩
      intro l hl
      rcases hl with _ | ⟨_, hl⟩
      · decide
      · cases hl
    · cases hb'
  refine ⟨_, _, _, hE, by decide, rfl, ?_, rfl, by decide, by decide, ?_⟩
  · intro h
    rcases h _ List.mem_cons_self with h | ⟨c, hc, _⟩
    · exact h rfl
    · cases hc
  · intro c i
    rw [Option.ne_none_iff_exists']
    simp only [C09_exact u false _ [] _ hE _ rfl]
    constructor
    · intro h
      rcases h with _ | ⟨_, _ | ⟨_, h⟩⟩
      · exact ⟨_, List.mem_cons_self, by decide, rfl, rfl⟩
      · exact ⟨_, List.mem_cons_of_mem _ List.mem_cons_self, by decide, rfl, rfl⟩
      · cases h
    · rintro ⟨m, hm, _, rfl, rfl⟩
      rcases hm with _ | ⟨_, _ | ⟨_, hm⟩⟩
      · exact List.mem_cons_self
      · exact List.mem_cons_of_mem _ List.mem_cons_self
      · cases hm

end Verif.Props.Adjacent
