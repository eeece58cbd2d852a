import Verif.Proofs.Po.Heads
import Verif.Props.Adjacent
/-!
# Which files of entries are accepted and which entries are served (C10, C12)
-/
namespace Verif.Props.AcceptedFiles
open Verif.Go Verif.Model.Po Verif.Model.Catalog Verif.Spec.PoEntry Verif.Spec.Adjacent Verif.Proofs.Po
open Verif.Props.PoParser Verif.Props.Adjacent Verif.Props.Gettext

/-- A file of entries is accepted exactly if the messages with an ID have different keys, no header follows one
that can be read, and there is a message with an ID or a header that can be read. -/
theorem C12_accepted_iff (u : Unicode) (ignore : Bool) (bs : List Block) (tail : List Bytes) (content : Bytes)
    (h : EntryFile bs tail content) : (∃ f, parse u ignore content = .ok f) ↔
      (((readBlocks ignore bs).filter (·.id ≠ [])).map fun m => (m.context, m.id)).Nodup ∧
      (((readBlocks ignore bs).filter (IsHead ·)).Pairwise fun a _ => ¬ Readable a) ∧
      ∃ m ∈ readBlocks ignore bs, m.id ≠ [] ∨ IsHead m ∧ Readable m := by
  rw [parse_run u ignore h.lines h.short, run_any u ignore h.blank h.blocks]
  have hiff := storeAll_iff u (ms := readBlocks ignore bs) (st := ⟨none, []⟩)
  have hend : ∀ st, storeAll u ⟨none, []⟩ (readBlocks ignore bs) = .ok st → ((∃ f, finish st = .ok f) ↔
      ∃ m ∈ readBlocks ignore bs, m.id ≠ [] ∨ IsHead m ∧ Readable m) := by
    intro st hst
    have hh := storeAll_header u hst
    obtain ⟨_, _, _, _, g5⟩ := storeAll_ok hst
    constructor
    · rintro ⟨f, hf⟩
      by_cases hm : st.messages = []
      · have : st.header ≠ none := by
          intro hn
          rcases finish_cases st with ⟨_, _, he⟩ | ⟨f', hf', _⟩
          · rw [he] at hf; cases hf
          · unfold finish at hf
            rw [hn, hm] at hf
            cases hf
        rcases hh.1 this with h | ⟨m, hm, hr⟩
        · exact absurd rfl h
        · have hm := List.mem_filter.1 hm
          exact ⟨m, hm.1, .inr ⟨of_decide_eq_true hm.2, hr⟩⟩
      · have : proper (readBlocks ignore bs) ≠ [] := fun e => hm (g5.2 ⟨rfl, e⟩)
        obtain ⟨m, hm⟩ := List.exists_mem_of_ne_nil _ this
        have hm := List.mem_filter.1 hm
        exact ⟨m, hm.1, .inl (of_decide_eq_true hm.2)⟩
    · rintro ⟨m, hm, hx⟩
      rcases finish_cases st with ⟨hn, hmm, _⟩ | ⟨f, hf, _⟩
      · rcases hx with hx | ⟨hx, hr⟩
        · have := (g5.1 hmm).2
          unfold proper at this
          rw [List.filter_eq_nil_iff] at this
          exact absurd (decide_eq_true hx) (this m hm)
        · exact absurd hn (hh.2 (.inr ⟨m, List.mem_filter.2 ⟨hm, decide_eq_true hx⟩, hr⟩))
      · exact ⟨f, hf⟩
  constructor
  · rintro ⟨f, hf⟩
    obtain ⟨st, hst, hf⟩ := bind_eq_ok.1 hf
    obtain ⟨_, h2, _, h4⟩ := hiff.1 ⟨st, hst⟩
    exact ⟨h2, h4, (hend st hst).1 ⟨f, hf⟩⟩
  · rintro ⟨h2, h4, h5⟩
    obtain ⟨st, hst⟩ := hiff.2 ⟨fun _ _ => rfl, h2, fun h => absurd rfl h, h4⟩
    obtain ⟨f, hf⟩ := (hend st hst).2 h5
    rw [hst]
    exact ⟨f, hf⟩

/-- Exactly these translations are served from a file of entries: the message read is not marked as fuzzy. -/
theorem C10_exact (u : Unicode) (lang : Tag) (domain : Bytes) (useCLDR : Bool) (bs : List Block) (tail : List Bytes)
    (content : Bytes) (h : EntryFile bs tail content) (c : GettextCatalog)
    (hd : poDecode u lang domain useCLDR content = .catalog c) (ctx id text : Bytes) :
    c.lookup ctx id = (text, none) ↔ text ≠ [] ∧ ∃ m ∈ readBlocks true bs, m.id ≠ [] ∧ m.context = ctx ∧ m.id = id ∧
      (∀ x ∈ m.comment, b!"fuzzy" ∉ x.flags) ∧ m.str.get? 0 = some text := by
  unfold poDecode at hd
  cases hp : parse u true content with
  | ok f =>
    simp only [hp] at hd
    obtain ⟨_, hcons, _⟩ := parse_ok hp
    cases hb : buildGettextCatalog u f lang domain useCLDR with
    | error e => rw [hb] at hd; cases hd
    | ok r =>
      rw [hb] at hd
      cases r with
      | none => cases hd
      | some c' =>
        cases hd
        have hfz : ∀ m : Message, isFuzzy m = false ↔ ∀ x ∈ m.comment, b!"fuzzy" ∉ x.flags := by
          intro m
          unfold isFuzzy
          cases m.comment with
          | none => simp
          | some x => simp [Comment.hasFlag]
        rw [C20_lookup u f lang domain useCLDR c hcons hb]
        constructor
        · rintro ⟨_, h2, m, hm, h3, h4⟩
          obtain ⟨k1, k2, k3, k4⟩ := (C09_exact u true bs tail content h f hp ctx id m).1 hm
          exact ⟨h2, m, k1, k2, k3, k4, (hfz m).1 h3, h4⟩
        · rintro ⟨h2, m, k1, k2, k3, k4, h3, h4⟩
          exact ⟨k4 ▸ k2, h2, m, (C09_exact u true bs tail content h f hp ctx id m).2 ⟨k1, k2, k3, k4⟩, (hfz m).2 h3, h4⟩
  | eof => rw [hp] at hd; cases hd
  | error e => rw [hp] at hd; cases hd
  | panic => rw [hp] at hd; cases hd
  | hang => rw [hp] at hd; cases hd

/-- In a file whose entries are separated, an entry with a translation is served exactly if none of the flag lines
that count has `fuzzy`; the first flag line counts only after a blank line or at the beginning of the file. -/
theorem C10_served_iff (u : Unicode) (lang : Tag) (domain : Bytes) (useCLDR : Bool) (A B : List Block) (b : Block)
    (tail : List Bytes) (content : Bytes) (h : EntryFile (A ++ b :: B) tail content) (ha : Apart true (A ++ b :: B))
    (hw : b.2.str.WF) (hid : b.2.id.value ≠ []) (c : GettextCatalog)
    (hd : poDecode u lang domain useCLDR content = .catalog c) (text : Bytes) (hne : text ≠ [])
    (ht : b.2.str.value.get? 0 = some text) :
    c.lookup (Key b.2).1 (Key b.2).2 = (text, none) ↔ b!"fuzzy" ∉ flagsOf (counted true A b) := by
  have hm := mem_readBlocks ha
  have hstr : (opening true (counted true A b) b.2).str.get? 0 = some text := by
    show (Verif.Spec.PluralLines.strAfter [] b.2.str).get? 0 = _
    rw [strAfter_value hw, ht]
  have hflags : (∀ x ∈ (opening true (counted true A b) b.2).comment, b!"fuzzy" ∉ x.flags) ↔
      b!"fuzzy" ∉ flagsOf (counted true A b) := by
    rw [opening_comment]; simp [commentOf]
  rw [C10_exact u lang domain useCLDR _ tail content h c hd]
  constructor
  · rintro ⟨_, m, h1, h2, h3, h4, h5, h6⟩
    have hacc : ∃ f, parse u true content = .ok f := by
      unfold poDecode at hd
      cases hp : parse u true content with
      | ok f => exact ⟨f, rfl⟩
      | eof => rw [hp] at hd; cases hd
      | error e => rw [hp] at hd; cases hd
      | panic => rw [hp] at hd; cases hd
      | hang => rw [hp] at hd; cases hd
    obtain ⟨f, hf⟩ := hacc
    have e1 := (C09_exact u true _ tail content h f hf _ _ m).2 ⟨h1, h2, h3, h4⟩
    have e2 := (C09_exact u true _ tail content h f hf (Key b.2).1 (Key b.2).2 _).2 ⟨hm, hid, rfl, rfl⟩
    rw [e1] at e2
    cases e2
    exact hflags.1 h5
  · intro hf
    exact ⟨hne, _, hm, hid, rfl, rfl, hflags.2 hf, hstr⟩

/-- The lines of a simple entry with one flag line. -/
def flagged (flag id str : List Char) : Entry := { simple id str with comments := [.flags [] (0x20 :: utf8 flag)] }

theorem simple_loose {id str : List Char} (h1 : ∀ x ∈ id, x ≠ '"' ∧ x ≠ '\\' ∧ x ≠ '\n')
    (h2 : ∀ x ∈ str, x ≠ '"' ∧ x ≠ '\\' ∧ x ≠ '\n') : Loose (simple id str) := by
  have hb : Blank [] := fun _ h => by cases h
  exact ⟨nofun, nofun, ⟨hb, ⟨hb, hb, means_plain h1⟩, nofun⟩, nofun, ⟨hb, ⟨hb, hb, means_plain h2⟩, nofun⟩⟩

theorem flagged_loose {flag id str : List Char} (h0 : OneLine (0x20 :: utf8 flag)) (h1 : ∀ x ∈ id, x ≠ '"' ∧ x ≠ '\\' ∧ x ≠ '\n')
    (h2 : ∀ x ∈ str, x ≠ '"' ∧ x ≠ '\\' ∧ x ≠ '\n') : Loose (flagged flag id str) := by
  refine ⟨?_, (simple_loose h1 h2).2⟩
  intro c hc
  rcases hc with _ | ⟨_, hc⟩
  · exact ⟨by decide, h0⟩
  · cases hc

/-- A header that cannot be read, one that can be read and an entry: accepted. -/
example (u : Unicode) : ∃ bs content f, EntryFile bs [] content ∧ parse u false content = .ok f ∧
    ((readBlocks false bs).filter (IsHead ·)).length = 2 := by
  refine ⟨[([], simple [] ['x']), ([[]], simple [] ['a', ':', 'b']), ([[]], simple ['c'] ['C'])],
    textOf (blockLines [([], simple [] ['x']), ([[]], simple [] ['a', ':', 'b']), ([[]], simple ['c'] ['C'])]), _,
    ⟨?_, nofun, ⟨by decide, .inl rfl⟩, by decide⟩, rfl, by decide⟩
  have hb : ∀ l ∈ [([] : Bytes)], BlankLine l := by decide
  intro b hb'
  rcases hb' with _ | ⟨_, _ | ⟨_, _ | ⟨_, hb'⟩⟩⟩
  · exact ⟨nofun, simple_loose (by decide) (by decide)⟩
  · exact ⟨hb, simple_loose (by decide) (by decide)⟩
  · exact ⟨hb, simple_loose (by decide) (by decide)⟩
  · cases hb'

/-- The hypotheses of `C10_served_iff`: the mark of the second entry is lost, that of the third counts. -/
example (u : Unicode) (lang : Tag) (domain : Bytes) : ∃ (x y z : Block) (content : Bytes) (c : GettextCatalog),
    EntryFile ([x] ++ y :: [z]) [] content ∧ EntryFile ([x, y] ++ z :: []) [] content ∧ Apart true ([x] ++ y :: [z]) ∧
    y.2.str.WF ∧ z.2.str.WF ∧ y.2.id.value ≠ [] ∧ z.2.id.value ≠ [] ∧ poDecode u lang domain true content = .catalog c ∧
    y.2.str.value.get? 0 = some b!"B" ∧ z.2.str.value.get? 0 = some b!"C" ∧
    b!"fuzzy" ∉ flagsOf (counted true [x] y) ∧ b!"fuzzy" ∈ flagsOf y.2.comments ∧
    b!"fuzzy" ∈ flagsOf (counted true [x, y] z) := by
  have hE : EntryFile [([], simple ['a'] ['A']), ([], flagged "fuzzy".toList ['b'] ['B']),
      ([[]], flagged "fuzzy".toList ['c'] ['C'])] []
      (textOf (blockLines [([], simple ['a'] ['A']), ([], flagged "fuzzy".toList ['b'] ['B']),
      ([[]], flagged "fuzzy".toList ['c'] ['C'])])) := by
    refine ⟨?_, nofun, ⟨by decide, .inl rfl⟩, by decide⟩
    have hb : ∀ l ∈ [([] : Bytes)], BlankLine l := by decide
    intro b hb'
    rcases hb' with _ | ⟨_, _ | ⟨_, _ | ⟨_, hb'⟩⟩⟩
    · exact ⟨nofun, simple_loose (by decide) (by decide)⟩
    · exact ⟨nofun, flagged_loose (by decide) (by decide) (by decide)⟩
    · exact ⟨hb, flagged_loose (by decide) (by decide) (by decide)⟩
    · cases hb'
  have hw : ∀ flag id str, (∀ x ∈ id, x ≠ '"' ∧ x ≠ '\\' ∧ x ≠ '\n') → (∀ x ∈ str, x ≠ '"' ∧ x ≠ '\\' ∧ x ≠ '\n') →
      (flagged flag id str).str.WF := fun _ _ _ h1 h2 => (simple_loose h1 h2).2.2.2.2
  refine ⟨_, _, _, _, _, hE, hE, ?_, hw _ ['b'] ['B'] (by decide) (by decide), hw _ ['c'] ['C'] (by decide) (by decide),
    by decide, by decide, rfl, rfl, rfl, by decide, by decide, by decide⟩
  intro b hb
  rcases hb with _ | ⟨_, _ | ⟨_, hb⟩⟩
  · exact .inr ⟨_, .head _, by decide⟩
  · exact .inl (by simp)
  · cases hb

end Verif.Props.AcceptedFiles
