import Verif.Model.Catalog.Decoder
import Verif.Proofs.Po.Blocks
/-!
# Reading PO files (C08-C13, C71)

`Entry`, `HasLines`, `Short`, `BlankLine`, `Recognised`, `Dangling` are from `Verif.Spec`: the concrete syntax
of a file, stated without the scanner and the parser.  `u` are the Unicode tables, `ignore` is the setting of
`SetIgnoreComments`.
-/
namespace Verif.Props.PoParser
open Verif.Go Verif.Model.Po Verif.Model.Catalog Verif.Spec.PoEntry Verif.Proofs.Po Verif.Proofs.Catalog
open Verif.Model.Po hiding Field
open Verif.Spec.PoString (Dangling)
open Verif.Props.Gettext

/-- The key of the message of an entry. -/
def Key (e : Entry) : Bytes × Bytes := ((e.message false).context, (e.message false).id)

/-- What a caller of `Parse` finds: nothing in a file that is rejected as empty. -/
def Holds (r : Res File) (g : Bytes → Bytes → Option Message) : Prop :=
  (∃ f, r = .ok f ∧ ∀ c i, f.getMessage c i = g c i) ∨ (r = .error .empty ∧ ∀ c i, g c i = none)

/-- A simple entry: `msgid "<id>"`, `msgstr "<str>"`. -/
def simple (id str : List Char) : Entry :=
  ⟨[], none, ⟨[], ⟨[], id, [], id⟩, []⟩, none, .single ⟨[], ⟨[], str, [], str⟩, []⟩⟩

theorem means_plain : ∀ {cs : List Char}, (∀ c ∈ cs, c ≠ '"' ∧ c ≠ '\\' ∧ c ≠ '\n') → Means cs cs
  | [], _ => .nil
  | c :: _, h => .plain (h c List.mem_cons_self).1 (h c List.mem_cons_self).2.1 (h c List.mem_cons_self).2.2
      (means_plain fun x hx => h x (List.mem_cons_of_mem _ hx))

theorem simple_wf {id str : List Char} (h1 : ∀ c ∈ id, c ≠ '"' ∧ c ≠ '\\' ∧ c ≠ '\n')
    (h2 : ∀ c ∈ str, c ≠ '"' ∧ c ≠ '\\' ∧ c ≠ '\n') : (simple id str).WF := by
  have hb : Blank [] := fun _ h => by cases h
  exact ⟨nofun, nofun, ⟨hb, ⟨hb, hb, means_plain h1⟩, nofun⟩, nofun, ⟨hb, ⟨hb, hb, means_plain h2⟩, nofun⟩⟩

theorem holds_ok {st : PState} : Holds (finish st) (PState.find st) := by
  rcases finish_cases st with ⟨_, h2, h3⟩ | ⟨f, h1, h2, _⟩
  · exact .inr ⟨h3, fun c i => by unfold PState.find; rw [h2]; rfl⟩
  · exact .inl ⟨f, h1, fun c i => getMessage_find h2 c i⟩

theorem finish_ne {st : PState} : finish st ≠ .hang ∧ finish st ≠ .panic := by
  rcases finish_cases st with ⟨_, _, h3⟩ | ⟨f, h1, _⟩
  · rw [h3]; exact ⟨by simp, by simp⟩
  · rw [h1]; exact ⟨by simp, by simp⟩

/-- A file is accepted (or empty) exactly if the loop over its messages succeeds. -/
theorem holds_run {u : Unicode} {ignore : Bool} {ls : List Bytes} {g : Bytes → Bytes → Option Message}
    (h : Holds ((run u ignore ⟨none, []⟩ ls).bind finish) g) :
    ∃ st, run u ignore ⟨none, []⟩ ls = .ok st ∧ ∀ c i, PState.find st c i = g c i := by
  cases hr : run u ignore ⟨none, []⟩ ls with
  | ok st =>
    rw [hr] at h
    refine ⟨st, rfl, ?_⟩
    have h' := holds_ok (st := st)
    change Holds (finish st) g at h
    rcases h with ⟨f, e, hf⟩ | ⟨e, hf⟩ <;> rcases h' with ⟨f', e', hf'⟩ | ⟨e', hf'⟩
    · rw [e] at e'; cases e'
      intro c i; rw [← hf, hf']
    · rw [e] at e'; cases e'
    · rw [e] at e'; cases e'
    · intro c i; rw [hf, hf']
  | eof => rw [hr] at h; rcases h with ⟨f, e, _⟩ | ⟨e, _⟩ <;> cases e
  | panic => rw [hr] at h; rcases h with ⟨f, e, _⟩ | ⟨e, _⟩ <;> cases e
  | hang => rw [hr] at h; rcases h with ⟨f, e, _⟩ | ⟨e, _⟩ <;> cases e
  | error er =>
    rw [hr] at h
    rcases h with ⟨f, e, _⟩ | ⟨e, _⟩
    · cases e
    · cases e; exact absurd hr (run_ne_empty u ignore _ ls)

/-! ## C08 -/

/-- Two texts separated by a blank line are read independently of each other: the file holds the messages
of the first and the messages of the second text, and no message of the one is in the way of a message of
the other.  The two texts are arbitrary. -/
theorem C08_split (u : Unicode) (ignore : Bool) (A B : List Bytes) (b content ca cb : Bytes)
    (hb : BlankLine b) (h : HasLines content (A ++ b :: B)) (ha : HasLines ca A) (hB : HasLines cb B)
    (hs : Short (A ++ b :: B)) (g : Bytes → Bytes → Option Message) (hg : Holds (parse u ignore content) g) :
    ∃ ga gb, Holds (parse u ignore ca) ga ∧ Holds (parse u ignore cb) gb ∧
      (∀ c i, g c i = (ga c i).or (gb c i)) ∧ ∀ c i, ga c i = none ∨ gb c i = none := by
  have hsa : Short A := fun x hx => hs x (List.mem_append_left _ hx)
  have hsb : Short B := fun x hx => hs x (List.mem_append_right _ (List.mem_cons_of_mem _ hx))
  rw [parse_run u ignore h hs] at hg
  rw [parse_run u ignore ha hsa, parse_run u ignore hB hsb]
  obtain ⟨st, hr, hf⟩ := holds_run hg
  rw [run_blank u ignore _ A B b (isBlankLine_of hb)] at hr
  obtain ⟨sa, hra, hrb⟩ := bind_eq_ok.1 hr
  obtain ⟨ms, out, hrd⟩ := run_read u ignore B
  rw [hrd] at hrb
  obtain ⟨s', h3, h4⟩ := bind_eq_ok.1 hrb
  obtain ⟨o, ho, h5⟩ := bind_eq_ok.1 h4
  cases h5
  obtain ⟨g1, g2, g3, g4, _⟩ := storeAll_ok h3
  have hsb : ∃ sb, storeAll u ⟨none, []⟩ ms = .ok sb := by
    cases hh : sa.header with
    | none =>
      obtain ⟨r, hr, _⟩ := storeAll_transfer u (st2 := ⟨none, []⟩) h3 (by rw [hh]) (fun m _ => rfl)
      exact ⟨r, hr⟩
    | some x =>
      obtain ⟨r, hr, _⟩ := storeAll_succeeds u (st := ⟨none, []⟩) (fun m _ => rfl) g3 (.inl (g4 (by rw [hh]; simp)).2)
      exact ⟨r, hr⟩
  obtain ⟨sb, hsb⟩ := hsb
  obtain ⟨k1, _⟩ := storeAll_ok hsb
  refine ⟨PState.find sa, PState.find sb, by rw [hra]; exact holds_ok, by rw [hrd, hsb]; simp only [Res.bind, ho]; exact holds_ok, ?_, ?_⟩
  · intro c i
    rw [← hf]
    cases hx : PState.find sa c i with
    | some m => exact (g1 c i m).2 (.inl hx)
    | none =>
      simp only [Option.none_or]
      apply Option.ext
      intro m
      rw [g1, k1, hx]
      simp [find_none]
  · intro c i
    cases hx : PState.find sb c i with
    | none => exact .inr rfl
    | some m =>
      left
      rcases (k1 c i m).1 hx with h | ⟨h, h'⟩
      · cases h
      · obtain ⟨rfl, rfl⟩ := Prod.mk.inj h'
        exact g2 m h

/-- Two accepted texts. -/
example (u : Unicode) : ∃ A B content ca cb g, BlankLine b!" " ∧ HasLines content (A ++ b!" " :: B) ∧
    HasLines ca A ∧ HasLines cb B ∧ Short (A ++ b!" " :: B) ∧ Holds (parse u false content) g ∧ g [] b!"b" ≠ none := by
  have h : ∃ f, parse u false (textOf ((simple ['a'] ['A']).lines ++ b!" " :: (simple ['b'] ['B']).lines)) = .ok f ∧
    f.getMessage [] b!"b" ≠ none := ⟨_, rfl, by decide⟩
  obtain ⟨f, h1, h2⟩ := h
  exact ⟨_, _, _, _, _, f.getMessage, by decide, ⟨by decide, .inl rfl⟩, ⟨by decide, .inl rfl⟩, ⟨by decide, .inl rfl⟩, by decide,
    .inl ⟨f, h1, fun _ _ => rfl⟩, h2⟩

/-- An entry between blank lines, in arbitrary surroundings: an accepted file holds its message, and without
the entry the file holds the same messages apart from it and has the same header. -/
theorem C08_local (u : Unicode) (ignore : Bool) (A B : List Bytes) (b1 b2 content content' : Bytes) (e : Entry)
    (h1 : BlankLine b1) (h2 : BlankLine b2) (he : e.WF) (hid : e.id.value ≠ [])
    (h : HasLines content (A ++ b1 :: (e.lines ++ b2 :: B))) (hs : Short (A ++ b1 :: (e.lines ++ b2 :: B)))
    (h' : HasLines content' (A ++ b1 :: B)) (f : File) (hf : parse u ignore content = .ok f) :
    f.getMessage (Key e).1 (Key e).2 = some (e.message ignore) ∧
    ((∃ f', parse u ignore content' = .ok f' ∧ f'.header = f.header ∧
        ∀ c i, f'.getMessage c i = if (c, i) = Key e then none else f.getMessage c i) ∨
      (parse u ignore content' = .error .empty ∧ ∀ c i, (c, i) ≠ Key e → f.getMessage c i = none)) := by
  have hs' : Short (A ++ b1 :: B) := by
    intro x hx
    apply hs
    simp only [List.mem_append, List.mem_cons] at hx ⊢
    rcases hx with h | h | h
    · exact .inl h
    · exact .inr (.inl h)
    · exact .inr (.inr (.inr (.inr h)))
  rw [parse_run u ignore h hs, run_between u ignore _ A B h1 h2 he] at hf
  rw [parse_run u ignore h' hs', run_blank u ignore _ A B b1 (isBlankLine_of h1)]
  obtain ⟨st, hr, hf⟩ := bind_eq_ok.1 hf
  obtain ⟨sa, hra, hr⟩ := bind_eq_ok.1 hr
  obtain ⟨s1, hr1, hrb⟩ := bind_eq_ok.1 hr
  have hidm : (e.message ignore).id ≠ [] := hid
  have hkey : Key e = ((e.message ignore).context, (e.message ignore).id) := rfl
  rcases store_message (u := u) (st := sa) hidm with ⟨_, hx⟩ | ⟨hfree, s2, hx, k1, k2, k3⟩
  · rw [hx] at hr1; cases hr1
  · rw [hx] at hr1; cases hr1
    obtain ⟨ms, out, hrd⟩ := run_read u ignore B
    rw [hrd] at hrb
    obtain ⟨s', h3, h4⟩ := bind_eq_ok.1 hrb
    obtain ⟨o, ho, h5⟩ := bind_eq_ok.1 h4
    cases h5
    obtain ⟨g1, g2, g3, g4, _⟩ := storeAll_ok h3
    have hget := getMessage_find (finish_ok hf).1
    have hmem : PState.find st (e.message ignore).context (e.message ignore).id = some (e.message ignore) :=
      (g1 _ _ _).2 (.inl (by rw [k3, if_pos ⟨rfl, rfl⟩]))
    obtain ⟨sb, hsb, hhd⟩ := storeAll_transfer u (st2 := sa) h3 k1.symm (by
      intro m hm
      have := g2 m hm
      rw [k3] at this
      split at this
      · cases this
      · exact this)
    obtain ⟨j1, j2, j3, j4, _⟩ := storeAll_ok hsb
    have hall : ∀ c i, PState.find sb c i = if (c, i) = Key e then none else PState.find st c i := by
      intro c i
      apply Option.ext
      intro m
      rw [j1]
      split
      · rename_i hk
        rw [hkey] at hk
        obtain ⟨rfl, rfl⟩ := Prod.mk.inj hk
        rw [hfree]
        constructor
        · rintro (h | ⟨h1, h2⟩)
          · cases h
          · have := g2 m h1
            obtain ⟨e1, e2⟩ := Prod.mk.inj h2
            rw [k3, if_pos ⟨e1, e2⟩] at this
            cases this
        · intro h; cases h
      · rename_i hk
        rw [g1, k3, if_neg]
        rintro ⟨e1, e2⟩
        exact hk (by rw [hkey, e1, e2])
    refine ⟨by rw [hget, hkey]; exact hmem, ?_⟩
    have hrun : run u ignore sa B = .ok sb := by rw [hrd, hsb]; simp only [Res.bind, ho]
    rw [hra]
    simp only [Res.bind, hrun]
    rcases finish_cases sb with ⟨e1, e2, e3⟩ | ⟨f', e1, e2, e3⟩
    · right
      refine ⟨e3, fun c i hk => ?_⟩
      have := hall c i
      rw [if_neg hk] at this
      rw [hget, ← this]
      unfold PState.find
      rw [e2]; rfl
    · left
      refine ⟨f', e1, by rw [e3, (finish_ok hf).2, hhd], ?_⟩
      intro c i
      rw [getMessage_find e2, hall, hget]

/-- Adding an entry with a new key between blank lines to an accepted file gives an accepted file. -/
theorem C08_insert (u : Unicode) (ignore : Bool) (A B : List Bytes) (b1 b2 content content' : Bytes) (e : Entry)
    (h1 : BlankLine b1) (h2 : BlankLine b2) (he : e.WF) (hid : e.id.value ≠ [])
    (h : HasLines content (A ++ b1 :: (e.lines ++ b2 :: B))) (hs : Short (A ++ b1 :: (e.lines ++ b2 :: B)))
    (h' : HasLines content' (A ++ b1 :: B)) (f' : File) (hf : parse u ignore content' = .ok f')
    (hnew : f'.getMessage (Key e).1 (Key e).2 = none) : ∃ f, parse u ignore content = .ok f := by
  have hs' : Short (A ++ b1 :: B) := by
    intro x hx
    apply hs
    simp only [List.mem_append, List.mem_cons] at hx ⊢
    rcases hx with h | h | h
    · exact .inl h
    · exact .inr (.inl h)
    · exact .inr (.inr (.inr (.inr h)))
  rw [parse_run u ignore h hs, run_between u ignore _ A B h1 h2 he]
  rw [parse_run u ignore h' hs', run_blank u ignore _ A B b1 (isBlankLine_of h1)] at hf
  obtain ⟨st, hr, hf⟩ := bind_eq_ok.1 hf
  obtain ⟨sa, hra, hrb⟩ := bind_eq_ok.1 hr
  have hidm : (e.message ignore).id ≠ [] := hid
  rw [getMessage_find (finish_ok hf).1] at hnew
  obtain ⟨ms, out, hrd⟩ := run_read u ignore B
  rw [hrd] at hrb
  obtain ⟨s', h3, h4⟩ := bind_eq_ok.1 hrb
  obtain ⟨o, ho, h5⟩ := bind_eq_ok.1 h4
  cases h5
  obtain ⟨g1, g2, g3, g4, _⟩ := storeAll_ok h3
  rcases store_message (u := u) (st := sa) hidm with ⟨hx, _⟩ | ⟨hfree, s2, hx, k1, k2, k3⟩
  · exfalso
    cases hy : PState.find sa (e.message ignore).context (e.message ignore).id with
    | none => exact hx hy
    | some m =>
      have : PState.find st (Key e).1 (Key e).2 = some m := (g1 _ _ _).2 (.inl hy)
      rw [this] at hnew; cases hnew
  · obtain ⟨sb, hsb, hhd⟩ := storeAll_transfer u (st2 := s2) h3 k1 (by
      intro m hm
      rw [k3, if_neg]
      · exact g2 m hm
      · rintro ⟨e1, e2⟩
        have : PState.find st (Key e).1 (Key e).2 = some m := (g1 _ _ _).2 (.inr ⟨hm, Prod.ext e1 e2⟩)
        rw [this] at hnew; cases hnew)
    have hrun : run u ignore s2 B = .ok sb := by rw [hrd, hsb]; simp only [Res.bind, ho]
    rw [hra]
    simp only [Res.bind, hx, hrun]
    obtain ⟨_, _, _, _, j5⟩ := storeAll_ok hsb
    rcases finish_cases sb with ⟨_, e2, _⟩ | ⟨f, e1, _⟩
    · exact absurd (j5.1 e2).1 k2
    · exact ⟨f, e1⟩

/-- The hypotheses of `C08_local` and `C08_insert`: an entry in the middle of a file. -/
example (u : Unicode) : ∃ A B content content' e f f', BlankLine [] ∧ Entry.WF e ∧ e.id.value ≠ [] ∧
    HasLines content (A ++ [] :: (e.lines ++ [] :: B)) ∧ Short (A ++ [] :: (e.lines ++ [] :: B)) ∧
    HasLines content' (A ++ [] :: B) ∧ parse u false content = .ok f ∧ parse u false content' = .ok f' ∧
    f'.getMessage (Key e).1 (Key e).2 = none := by
  refine ⟨[b!"msgid \"a\"", b!"msgstr \"A\""], [b!"msgid \"c\"", b!"msgstr \"C\""],
    textOf ([b!"msgid \"a\"", b!"msgstr \"A\""] ++ [] :: ((simple ['b'] ['B']).lines ++ [] :: [b!"msgid \"c\"", b!"msgstr \"C\""])),
    textOf ([b!"msgid \"a\"", b!"msgstr \"A\""] ++ [] :: [b!"msgid \"c\"", b!"msgstr \"C\""]),
    simple ['b'] ['B'], _, _, by decide, simple_wf (by decide) (by decide), by decide, ⟨by decide, .inl rfl⟩, by decide,
    ⟨by decide, .inl rfl⟩, rfl, rfl, by decide⟩

/-- A file of entries separated by blank lines with different keys and at most one header is accepted and
holds exactly the messages of the entries. -/
theorem C08_entries (u : Unicode) (ignore : Bool) (bs : List Block) (tail : List Bytes) (content : Bytes)
    (hw : ∀ b ∈ bs, b.WF) (ha : BlankApart bs) (ht : ∀ l ∈ tail, BlankLine l)
    (h : HasLines content (blockLines bs ++ tail)) (hs : Short (blockLines bs ++ tail))
    (hk : ((bs.filter fun b => b.2.id.value ≠ []).map fun b => Key b.2).Nodup)
    (hh : (bs.filter fun b => b.2.id.value = [] ∧ b.2.str.value ≠ []).length ≤ 1)
    (hne : ∃ b ∈ bs, b.2.id.value ≠ []) :
    ∃ f, parse u ignore content = .ok f ∧ ∀ c i m, f.getMessage c i = some m ↔
      ∃ b ∈ bs, b.2.id.value ≠ [] ∧ Key b.2 = (c, i) ∧ m = b.2.message ignore := by
  rw [parse_run u ignore h hs, run_blocks u ignore ht hw (fun b hb => .inl (ha b hb)), blockMessages_apart ha]
  have e1 : proper (bs.map fun b => b.2.message ignore) =
      (bs.filter fun b => b.2.id.value ≠ []).map fun b => b.2.message ignore := by
    unfold proper; rw [List.filter_map]; rfl
  have e2 : heads (bs.map fun b => b.2.message ignore) =
      (bs.filter fun b => b.2.id.value = [] ∧ b.2.str.value ≠ []).map fun b => b.2.message ignore := by
    unfold heads; rw [List.filter_map]; rfl
  obtain ⟨st, hst, _, _⟩ := storeAll_succeeds u (st := ⟨none, []⟩) (ms := bs.map fun b => b.2.message ignore)
    (fun m _ => rfl) (by rw [e1, List.map_map]; exact hk) (by
      rw [e2]
      have : (List.map (fun b : Block => b.2.message ignore)
        (bs.filter fun b => b.2.id.value = [] ∧ b.2.str.value ≠ [])).length ≤ 1 := by rw [List.length_map]; exact hh
      generalize List.map (fun b : Block => b.2.message ignore)
        (bs.filter fun b => b.2.id.value = [] ∧ b.2.str.value ≠ []) = l at this ⊢
      match l, this with
      | [], _ => exact .inl rfl
      | [x], _ => exact .inr ⟨rfl, rfl⟩)
  obtain ⟨g1, _, _, _, g5⟩ := storeAll_ok hst
  rw [hst]
  rcases finish_cases st with ⟨_, hm, _⟩ | ⟨f, hf, hm, _⟩
  · exfalso
    obtain ⟨b, hb, hn⟩ := hne
    have := (g5.1 hm).2
    rw [e1, List.map_eq_nil_iff, List.filter_eq_nil_iff] at this
    exact this b hb (by simpa using hn)
  · refine ⟨f, hf, fun c i m => ?_⟩
    rw [getMessage_find hm, g1, e1]
    constructor
    · rintro (h | ⟨h, hk⟩)
      · cases h
      · obtain ⟨b, hb, rfl⟩ := List.mem_map.1 h
        obtain ⟨hb, hn⟩ := List.mem_filter.1 hb
        exact ⟨b, hb, by simpa using hn, hk, rfl⟩
    · rintro ⟨b, hb, hn, hk, rfl⟩
      exact .inr ⟨List.mem_map.2 ⟨b, List.mem_filter.2 ⟨hb, by simpa using hn⟩, rfl⟩, hk⟩

/-- A header and two entries. -/
example : let bs : List Block := [([], simple [] ['X']), ([[], b!" "], simple ['a'] ['A']), ([b!"\t"], simple ['b'] ['B'])]
    (∀ b ∈ bs, b.WF) ∧ BlankApart bs ∧ (∀ l ∈ [([] : Bytes)], BlankLine l) ∧
    HasLines (textOf (blockLines bs ++ [[]])) (blockLines bs ++ [[]]) ∧ Short (blockLines bs ++ [[]]) ∧
    ((bs.filter fun b => b.2.id.value ≠ []).map fun b => Key b.2).Nodup ∧
    (bs.filter fun b => b.2.id.value = [] ∧ b.2.str.value ≠ []).length ≤ 1 ∧
    ∃ b ∈ bs, b.2.id.value ≠ [] := by
  refine ⟨?_, by unfold BlankApart; decide, by decide, ⟨by decide, .inl rfl⟩, by decide, by decide, by decide, _, .tail _ (.head _), by decide⟩
  intro b hb
  rcases hb with _ | ⟨_, _ | ⟨_, _ | ⟨_, hb⟩⟩⟩
  · exact ⟨by decide, simple_wf (by decide) (by decide)⟩
  · exact ⟨by decide, simple_wf (by decide) (by decide)⟩
  · exact ⟨by decide, simple_wf (by decide) (by decide)⟩
  · cases hb

/-! ## C09 -/

theorem mem_proper {ms : List Message} {m : Message} (h : m ∈ ms) (hid : m.id ≠ []) : m ∈ proper ms :=
  List.mem_filter.2 ⟨h, decide_eq_true hid⟩

/-- Every entry of a file is stored, with its own comment or with what is left of it without the separating
line. -/
theorem block_stored {u : Unicode} {ignore : Bool} {bs : List Block} {tail : List Bytes} {content : Bytes}
    (hw : ∀ b ∈ bs, b.WF) (ha : Apart ignore bs) (ht : ∀ l ∈ tail, BlankLine l)
    (h : HasLines content (blockLines bs ++ tail)) (hs : Short (blockLines bs ++ tail)) {f : File}
    (hf : parse u ignore content = .ok f) {b : Block} (hb : b ∈ bs) (hid : b.2.id.value ≠ []) :
    f.getMessage (Key b.2).1 (Key b.2).2 = some (b.2.message ignore) ∨
    f.getMessage (Key b.2).1 (Key b.2).2 = some (laterMessage ignore b) := by
  rw [parse_run u ignore h hs, run_blocks u ignore ht hw ha] at hf
  obtain ⟨st, hst, hf⟩ := bind_eq_ok.1 hf
  obtain ⟨g1, _⟩ := storeAll_ok hst
  rw [getMessage_find (finish_ok hf).1]
  rcases mem_blockMessages (ignore := ignore) hb with hm | hm
  · exact .inl ((g1 _ _ _).2 (.inr ⟨mem_proper hm hid, rfl⟩))
  · right
    obtain ⟨c, hc⟩ := laterMessage_eq ignore b
    have h1 : (laterMessage ignore b).id ≠ [] := by rw [hc]; exact hid
    exact (g1 _ _ _).2 (.inr ⟨mem_proper hm h1, by rw [hc]; rfl⟩)

/-- Two entries on consecutive lines are read as one; the first is lost. -/
theorem C09_negation (u : Unicode) : ∃ f, parse u false (textOf ((simple ['a'] ['A']).lines ++ (simple ['b'] ['B']).lines)) = .ok f ∧
    f.getMessage [] b!"a" = none := ⟨_, rfl, rfl⟩

/-- The decoder of catalogs ignores comments; then even a comment line between two entries does not separate
them. -/
theorem C09_negation_comment (u : Unicode) (lang : Tag) (domain : Bytes) : ∃ c, poDecode u lang domain true
      b!"msgid \"a\"\nmsgstr \"A\"\n# note\nmsgid \"b\"\nmsgstr \"B\"\n" = .catalog c ∧
    c.lookupMap.get? [] = some [(b!"b", [(0, b!"B")])] := ⟨_, rfl, rfl⟩

/-- With a blank line or a visible comment line between the entries none is lost.
Missing for the full property: entries without a separator (`C09_negation`). -/
theorem C09_separated_entries_partial (u : Unicode) (ignore : Bool) (bs : List Block) (tail : List Bytes) (content : Bytes)
    (hw : ∀ b ∈ bs, b.WF) (ha : Apart ignore bs) (ht : ∀ l ∈ tail, BlankLine l)
    (h : HasLines content (blockLines bs ++ tail)) (hs : Short (blockLines bs ++ tail)) (f : File)
    (hf : parse u ignore content = .ok f) (b : Block) (hb : b ∈ bs) (hid : b.2.id.value ≠ []) :
    ∃ m, f.getMessage (Key b.2).1 (Key b.2).2 = some m ∧ m.idPlural = (b.2.message ignore).idPlural ∧
      m.str = (b.2.message ignore).str := by
  rcases block_stored hw ha ht h hs hf hb hid with hm | hm
  · exact ⟨_, hm, rfl, rfl⟩
  · obtain ⟨c, hc⟩ := laterMessage_eq ignore b
    exact ⟨_, hm, by rw [hc], by rw [hc]⟩

/-- Such a file is accepted if the keys are different and there is at most one header. -/
theorem C09_accepted_partial (u : Unicode) (ignore : Bool) (bs : List Block) (tail : List Bytes) (content : Bytes)
    (hw : ∀ b ∈ bs, b.WF) (ha : Apart ignore bs) (ht : ∀ l ∈ tail, BlankLine l)
    (h : HasLines content (blockLines bs ++ tail)) (hs : Short (blockLines bs ++ tail))
    (hk : ((bs.filter fun b => b.2.id.value ≠ []).map fun b => Key b.2).Nodup)
    (hh : (bs.filter fun b => b.2.id.value = [] ∧ b.2.str.value ≠ []).length ≤ 1)
    (hne : ∃ b ∈ bs, b.2.id.value ≠ []) : ∃ f, parse u ignore content = .ok f := by
  rw [parse_run u ignore h hs, run_blocks u ignore ht hw ha]
  have key : ∀ {α : Type} (g : Message → α) (p : Message → Bool), (∀ m c, g { m with comment := c } = g m) →
      (∀ m c, p { m with comment := c } = p m) →
      ((blockMessages ignore bs).filter p).map g = (bs.filter fun b => p (b.2.message ignore)).map fun b => g (b.2.message ignore) := by
    intro α g p hg hp
    have := map_message (fun m => (g m, p m)) (by intro m c; rw [hg, hp]) ignore bs
    generalize blockMessages ignore bs = l at this ⊢
    clear hk hh hne h hs ha hw
    induction l generalizing bs with
    | nil =>
      cases bs with
      | nil => rfl
      | cons b bs => cases this
    | cons x l ih =>
      cases bs with
      | nil => cases this
      | cons b bs =>
        rw [List.map_cons, List.map_cons] at this
        obtain ⟨h1, h2⟩ := List.cons.inj this
        obtain ⟨h3, h4⟩ := Prod.mk.inj h1
        rw [List.filter_cons, List.filter_cons, h4]
        split
        · rw [List.map_cons, List.map_cons, h3, ih bs h2]
        · exact ih bs h2
  obtain ⟨st, hst, _, _⟩ := storeAll_succeeds u (st := ⟨none, []⟩) (ms := blockMessages ignore bs)
    (fun m _ => rfl) (by unfold proper; rw [key keyOf _ (fun _ _ => rfl) (fun _ _ => rfl)]; exact hk) (by
      have e := key (fun _ => ()) (fun m => decide (m.id = [] ∧ m.str ≠ [])) (fun _ _ => rfl) (fun _ _ => rfl)
      have : (heads (blockMessages ignore bs)).length ≤ 1 := by
        rw [← List.length_map (f := fun _ => ())]
        unfold heads
        rw [e, List.length_map]
        exact hh
      generalize heads (blockMessages ignore bs) = l at this ⊢
      match l, this with
      | [], _ => exact .inl rfl
      | [x], _ => exact .inr ⟨rfl, rfl⟩)
  obtain ⟨_, _, _, _, g5⟩ := storeAll_ok hst
  rw [hst]
  rcases finish_cases st with ⟨_, hm, _⟩ | ⟨f, hf, hm, _⟩
  · exfalso
    obtain ⟨b, hb, hn⟩ := hne
    have h0 := (g5.1 hm).2
    have := key (fun _ => ()) (fun m => decide (m.id ≠ [])) (fun _ _ => rfl) (fun _ _ => rfl)
    change (proper (blockMessages ignore bs)).map _ = _ at this
    rw [h0] at this
    have := (List.map_eq_nil_iff.1 this.symm)
    rw [List.filter_eq_nil_iff] at this
    exact this b hb (decide_eq_true hn)
  · exact ⟨f, hf⟩

/-- Entries that are separated by a comment line only. -/
example : let bs : List Block := [([], simple ['a'] ['A']), ([], { simple ['b'] ['B'] with comments := [.flags [] b!" c-format"] })]
    (∀ b ∈ bs, b.WF) ∧ Apart true bs ∧ HasLines (textOf (blockLines bs ++ [])) (blockLines bs ++ []) ∧
    Short (blockLines bs ++ []) ∧ ((bs.filter fun b => b.2.id.value ≠ []).map fun b => Key b.2).Nodup ∧
    (bs.filter fun b => b.2.id.value = [] ∧ b.2.str.value ≠ []).length ≤ 1 ∧
    ∃ b ∈ bs, b.2.id.value ≠ [] := by
  refine ⟨?_, ?_, ⟨by decide, .inl rfl⟩, by decide, by decide, by decide, _, .head _, by decide⟩
  · intro b hb
    rcases hb with _ | ⟨_, _ | ⟨_, hb⟩⟩
    · exact ⟨by decide, simple_wf (by decide) (by decide)⟩
    · have := simple_wf (id := ['b']) (str := ['B']) (by decide) (by decide)
      refine ⟨by decide, ⟨?_, this.2⟩⟩
      intro c hc
      rcases hc with _ | ⟨_, hc⟩
      · exact ⟨by decide, by decide⟩
      · cases hc
    · cases hb
  · intro b hb
    rcases hb with _ | ⟨_, hb⟩
    · exact .inr ⟨_, .head _, by decide⟩
    · cases hb

/-! ## C10 -/

/-- A `#, fuzzy` line directly after another entry is lost: the translation is served. -/
theorem C10_negation (u : Unicode) (lang : Tag) (domain : Bytes) : ∃ c, poDecode u lang domain true
      b!"msgid \"a\"\nmsgstr \"A\"\n#, fuzzy\nmsgid \"b\"\nmsgstr \"B\"\n" = .catalog c ∧
    c.lookup [] b!"b" = (b!"B", none) := ⟨_, rfl, rfl⟩

/-- The message of an accepted file under the key of an entry of the file that is marked as fuzzy. -/
theorem fuzzy_not_served {u : Unicode} {lang : Tag} {domain : Bytes} {useCLDR : Bool} {content : Bytes}
    {c : GettextCatalog} (hd : poDecode u lang domain useCLDR content = .catalog c) {ctx id : Bytes}
    (h : ∀ f, parse u true content = .ok f → ∃ m, f.getMessage ctx id = some m ∧ isFuzzy m = true) (text : Bytes) :
    c.lookup ctx id ≠ (text, none) := by
  unfold poDecode at hd
  cases hp : parse u true content with
  | ok f =>
    simp only [hp] at hd
    obtain ⟨m, hm, hfz⟩ := h f hp
    obtain ⟨_, hcons, _⟩ := parse_ok hp
    intro hl
    cases hb : buildGettextCatalog u f lang domain useCLDR with
    | error e => rw [hb] at hd; cases hd
    | ok r =>
      rw [hb] at hd
      cases r with
      | none => cases hd
      | some c' =>
        cases hd
        obtain ⟨_, _, m', hm', hf', _⟩ := (C20_lookup u f lang domain useCLDR c hcons hb ctx id text).1 hl
        rw [hm] at hm'; cases hm'
        rw [hfz] at hf'; cases hf'
  | eof => rw [hp] at hd; cases hd
  | error e => rw [hp] at hd; cases hd
  | panic => rw [hp] at hd; cases hd
  | hang => rw [hp] at hd; cases hd

/-- An entry between blank lines with the flag `fuzzy`, in arbitrary surroundings, is not served by the
catalog that the decoder returns.
Missing for the full property: a flag line directly after the previous entry (`C10_negation`). -/
theorem C10_fuzzy_not_served_partial (u : Unicode) (lang : Tag) (domain : Bytes) (useCLDR : Bool) (A B : List Bytes)
    (b1 b2 content : Bytes) (e : Entry) (h1 : BlankLine b1) (h2 : BlankLine b2) (he : e.WF)
    (hfz : b!"fuzzy" ∈ flagsOf e.comments)
    (h : HasLines content (A ++ b1 :: (e.lines ++ b2 :: B))) (hs : Short (A ++ b1 :: (e.lines ++ b2 :: B)))
    (c : GettextCatalog) (hd : poDecode u lang domain useCLDR content = .catalog c) (text : Bytes) :
    c.lookup (Key e).1 (Key e).2 ≠ (text, none) := by
  by_cases hid : e.id.value = []
  · intro hl
    have hk : (Key e).2 = [] := hid
    unfold poDecode at hd
    cases hp : parse u true content with
    | ok f =>
      simp only [hp] at hd
      obtain ⟨_, hcons, _⟩ := parse_ok hp
      cases hb : buildGettextCatalog u f lang domain useCLDR with
      | error e => rw [hb] at hd; cases hd
      | ok r =>
        rw [hb] at hd
        cases r with
        | none => cases hd
        | some c' =>
          cases hd
          exact ((C20_lookup u f lang domain useCLDR c hcons hb _ _ text).1 hl).1 hk
    | eof => rw [hp] at hd; cases hd
    | error e => rw [hp] at hd; cases hd
    | panic => rw [hp] at hd; cases hd
    | hang => rw [hp] at hd; cases hd
  · refine fuzzy_not_served hd ?_ text
    intro f hf
    obtain ⟨h0, _⟩ := C08_local u true A B b1 b2 content (textOf (A ++ b1 :: B)) e h1 h2 he hid h hs
      ⟨fun l hl => h.1 l (by
        simp only [List.mem_append, List.mem_cons] at hl ⊢
        rcases hl with h | h | h
        · exact .inl h
        · exact .inr (.inl h)
        · exact .inr (.inr (.inr (.inr h)))), .inl rfl⟩ f hf
    exact ⟨_, h0, by simpa [isFuzzy, Entry.message, commentOf, Comment.hasFlag] using hfz⟩

/-- Also without a blank line the mark is honoured if another flag line comes before it. -/
theorem C10_second_flag_line_partial (u : Unicode) (lang : Tag) (domain : Bytes) (useCLDR : Bool) (bs : List Block)
    (tail : List Bytes) (content : Bytes) (hw : ∀ b ∈ bs, b.WF) (ha : Apart true bs) (ht : ∀ l ∈ tail, BlankLine l)
    (h : HasLines content (blockLines bs ++ tail)) (hs : Short (blockLines bs ++ tail)) (b : Block) (hb : b ∈ bs)
    (hid : b.2.id.value ≠ []) (hfz : b!"fuzzy" ∈ flagsOf (afterFirst true b.2.comments))
    (c : GettextCatalog) (hd : poDecode u lang domain useCLDR content = .catalog c) (text : Bytes) :
    c.lookup (Key b.2).1 (Key b.2).2 ≠ (text, none) := by
  refine fuzzy_not_served hd ?_ text
  intro f hf
  have hsub : b!"fuzzy" ∈ flagsOf b.2.comments := by
    have : ∀ x ∈ flagsOf (afterFirst true b.2.comments), x ∈ flagsOf b.2.comments := by
      intro x hx
      obtain ⟨y, hy, hxy⟩ := List.mem_flatMap.1 hx
      exact List.mem_flatMap.2 ⟨y, (List.dropWhile_suffix _).subset (List.mem_of_mem_tail hy), hxy⟩
    exact this _ hfz
  rcases block_stored hw ha ht h hs hf hb hid with hm | hm
  · exact ⟨_, hm, by simpa [isFuzzy, Entry.message, commentOf, Comment.hasFlag] using hsub⟩
  · refine ⟨_, hm, ?_⟩
    unfold laterMessage
    split
    · simpa [isFuzzy, Entry.message, commentOf, Comment.hasFlag] using hfz
    · simpa [isFuzzy, Entry.message, commentOf, Comment.hasFlag] using hsub

/-- A fuzzy entry for the examples. -/
def fuzzyEntry : Entry := { simple ['b'] ['B'] with comments := [.flags [] b!" c-format", .flags [] b!" fuzzy, x"] }

theorem fuzzyEntry_wf : fuzzyEntry.WF := by
  refine ⟨?_, (simple_wf (id := ['b']) (str := ['B']) (by decide) (by decide)).2⟩
  intro c hc
  rcases hc with _ | ⟨_, _ | ⟨_, hc⟩⟩
  · exact ⟨by decide, by decide⟩
  · exact ⟨by decide, by decide⟩
  · cases hc

/-- The hypotheses of `C10_fuzzy_not_served_partial`. -/
example (u : Unicode) (lang : Tag) (domain : Bytes) : ∃ A B content c, BlankLine [] ∧ fuzzyEntry.WF ∧ b!"fuzzy" ∈ flagsOf fuzzyEntry.comments ∧
    HasLines content (A ++ [] :: (fuzzyEntry.lines ++ [] :: B)) ∧ Short (A ++ [] :: (fuzzyEntry.lines ++ [] :: B)) ∧
    poDecode u lang domain true content = .catalog c ∧ c.lookup [] b!"a" = (b!"A", none) :=
  ⟨(simple ['a'] ['A']).lines, [], textOf ((simple ['a'] ['A']).lines ++ [] :: (fuzzyEntry.lines ++ [] :: [])), _,
    by decide, fuzzyEntry_wf, by decide, ⟨by decide, .inl rfl⟩, by decide, rfl, rfl⟩

/-- The hypotheses of `C10_second_flag_line_partial`. -/
example (u : Unicode) (lang : Tag) (domain : Bytes) : let bs : List Block := [([], simple ['a'] ['A']), ([], fuzzyEntry)]
    ∃ content c, (∀ b ∈ bs, b.WF) ∧ Apart true bs ∧ HasLines content (blockLines bs ++ []) ∧ Short (blockLines bs ++ []) ∧
    b!"fuzzy" ∈ flagsOf (afterFirst true fuzzyEntry.comments) ∧
    poDecode u lang domain true content = .catalog c ∧ c.lookup [] b!"a" = (b!"A", none) := by
  refine ⟨textOf (blockLines [([], simple ['a'] ['A']), ([], fuzzyEntry)]), _, ?_, ?_, ⟨by decide, .inl rfl⟩, by decide, by decide, rfl, rfl⟩
  · intro b hb
    rcases hb with _ | ⟨_, _ | ⟨_, hb⟩⟩
    · exact ⟨by decide, simple_wf (by decide) (by decide)⟩
    · exact ⟨by decide, fuzzyEntry_wf⟩
    · cases hb
  · intro b hb
    rcases hb with _ | ⟨_, hb⟩
    · exact .inr ⟨_, .head _, by decide⟩
    · cases hb

/-! ## C11 -/

/-- If a line is too long for the line buffer, the file ends in front of it: everything from this line on is
ignored without an error, whatever it is. -/
theorem C11_long_line (u : Unicode) (ignore : Bool) (A B : List Bytes) (l content content' : Bytes)
    (h : HasLines content (A ++ l :: B)) (h' : HasLines content' A) (hl : 65536 ≤ l.length) :
    parse u ignore content = parse u ignore content' := parse_long u ignore h hl h'

/-- A file is accepted although one of its lines is garbage. -/
theorem C11_negation (u : Unicode) : ∃ content ls f, HasLines content ls ∧ parse u false content = .ok f ∧
    ∃ l ∈ ls, ¬ Recognised l := by
  have ho : OneLine (List.replicate 65536 (0x78 : UInt8)) := by
    intro h; exact absurd (List.eq_of_mem_replicate h) (by decide)
  have h1 : HasLines (textOf ((simple ['a'] ['A']).lines ++ List.replicate 65536 0x78 :: [b!"garbage"]))
      ((simple ['a'] ['A']).lines ++ List.replicate 65536 0x78 :: [b!"garbage"]) := by
    refine ⟨?_, .inl rfl⟩
    intro l hl
    rcases List.mem_append.1 hl with hl | hl
    · exact (show ∀ l ∈ (simple ['a'] ['A']).lines, OneLine l by decide) l hl
    · rcases List.mem_cons.1 hl with rfl | hl
      · exact ho
      · exact (show ∀ l ∈ [b!"garbage"], OneLine l by decide) l hl
  have h2 : ∃ f, parse u false (textOf (simple ['a'] ['A']).lines) = .ok f := ⟨_, rfl⟩
  obtain ⟨f, h2⟩ := h2
  rw [← C11_long_line u false _ _ _ _ (textOf (simple ['a'] ['A']).lines) h1 ⟨by decide, .inl rfl⟩
    (by rw [List.length_replicate]; exact Nat.le_refl _)] at h2
  exact ⟨_, _, f, h1, h2, b!"garbage", List.mem_append_right _ (.tail _ (.head _)), by decide⟩

/-- If no line is too long and the file is accepted, every line is blank, a comment or a keyword with text.
Missing for the full property: overlong lines (`C11_negation`). -/
theorem C11_all_lines_partial (u : Unicode) (ignore : Bool) (content : Bytes) (ls : List Bytes)
    (h : HasLines content ls) (hs : Short ls) (f : File) (hf : parse u ignore content = .ok f) :
    ∀ l ∈ ls, Recognised l := by
  rw [parse_run u ignore h hs] at hf
  obtain ⟨st, hr, _⟩ := bind_eq_ok.1 hf
  exact tokens_recognised (run_no_failure hr)

/-- Exactly which lines are checked, for every file: those in front of the first line that is too long. -/
theorem C11_checked_lines (u : Unicode) (ignore : Bool) (content : Bytes) (A B : List Bytes) (l : Bytes)
    (h : HasLines content (A ++ l :: B)) (hs : Short (A ++ [l])) (f : File) (hf : parse u ignore content = .ok f) :
    Recognised l := by
  by_cases hB : Short B
  · refine C11_all_lines_partial u ignore content _ h ?_ f hf l (by simp)
    intro x hx
    rcases List.mem_append.1 hx with hx | hx
    · exact hs x (List.mem_append_left _ hx)
    · rcases List.mem_cons.1 hx with rfl | hx
      · exact hs x (by simp)
      · exact hB x hx
  · obtain ⟨B1, y, B2, rfl, h1, h2⟩ : ∃ B1 y B2, B = B1 ++ y :: B2 ∧ Short B1 ∧ 65536 ≤ y.length := by
      clear h
      induction B with
      | nil => exact absurd (fun _ hx => by cases hx) hB
      | cons b B ih =>
        by_cases hb : b.length < maxScanTokenSize
        · obtain ⟨B1, y, B2, rfl, g1, g2⟩ := ih fun hB' => hB fun x hx => by
            rcases List.mem_cons.1 hx with rfl | hx
            · exact hb
            · exact hB' x hx
          refine ⟨b :: B1, y, B2, rfl, fun x hx => ?_, g2⟩
          rcases List.mem_cons.1 hx with rfl | hx
          · exact hb
          · exact g1 x hx
        · exact ⟨[], b, B, rfl, (fun _ hx => by cases hx), Nat.le_of_not_lt hb⟩
    have h' : HasLines (textOf (A ++ l :: B1)) (A ++ l :: B1) := ⟨fun x hx => h.1 x (by
      rcases List.mem_append.1 hx with hx | hx
      · exact List.mem_append_left _ hx
      · refine List.mem_append_right _ ?_
        rw [← List.cons_append]
        exact List.mem_append_left _ hx), .inl rfl⟩
    rw [C11_long_line u ignore (A ++ l :: B1) B2 y content _ (by simpa using h) h' h2] at hf
    refine C11_all_lines_partial u ignore _ _ h' ?_ f hf l (by simp)
    intro x hx
    rcases List.mem_append.1 hx with hx | hx
    · exact hs x (List.mem_append_left _ hx)
    · rcases List.mem_cons.1 hx with rfl | hx
      · exact hs x (by simp)
      · exact h1 x hx

/-- A line in front of a line that is too long. -/
example (u : Unicode) : ∃ content f, HasLines content ((simple ['a'] ['A']).lines ++ [] :: [List.replicate 65536 0x78]) ∧
    Short ((simple ['a'] ['A']).lines ++ [[]]) ∧ parse u false content = .ok f := by
  have h1 : HasLines (textOf ((simple ['a'] ['A']).lines ++ [] :: [List.replicate 65536 0x78]))
      ((simple ['a'] ['A']).lines ++ [] :: [List.replicate 65536 0x78]) := by
    refine ⟨?_, .inl rfl⟩
    intro l hl
    rcases List.mem_append.1 hl with hl | hl
    · exact (show ∀ l ∈ (simple ['a'] ['A']).lines, OneLine l by decide) l hl
    · rcases List.mem_cons.1 hl with rfl | hl
      · decide
      · rw [List.mem_singleton.1 hl]
        intro h; exact absurd (List.eq_of_mem_replicate h) (by decide)
  have h2 : ∃ f, parse u false (textOf ((simple ['a'] ['A']).lines ++ [[]])) = .ok f := ⟨_, rfl⟩
  obtain ⟨f, h2⟩ := h2
  have h3 : ((simple ['a'] ['A']).lines ++ [[]]) ++ List.replicate 65536 0x78 :: [] =
      (simple ['a'] ['A']).lines ++ [] :: [List.replicate 65536 0x78] := by rw [List.append_assoc]; rfl
  rw [← C11_long_line u false _ _ _ _ (textOf ((simple ['a'] ['A']).lines ++ [[]])) (h3 ▸ h1) ⟨by decide, .inl rfl⟩
    (by rw [List.length_replicate]; exact Nat.le_refl _)] at h2
  exact ⟨_, f, h1, by decide, h2⟩

/-- A line that is none of these in any of the texts makes the parser fail. -/
theorem C11_garbage_rejected_partial (u : Unicode) (ignore : Bool) (content : Bytes) (ls : List Bytes)
    (h : HasLines content ls) (hs : Short ls) (l : Bytes) (hl : l ∈ ls) (hg : ¬ Recognised l) (f : File) :
    parse u ignore content ≠ .ok f :=
  fun hf => hg (C11_all_lines_partial u ignore content ls h hs f hf l hl)

example (u : Unicode) : ∃ content ls f, HasLines content ls ∧ Short ls ∧ parse u false content = .ok f ∧ ls.length = 5 :=
  ⟨b!"# c\nmsgid \"a\"\n\"b\"\n\nmsgstr \"A\"", [b!"# c", b!"msgid \"a\"", b!"\"b\"", [], b!"msgstr \"A\""], _,
    ⟨by decide, .inr ⟨⟨_, rfl, by decide⟩, rfl⟩⟩, by decide, rfl, rfl⟩

/-! ## C12 -/

/-- Two entries with the same key between blank lines, with arbitrary text before, between and after them,
are rejected. -/
theorem C12_duplicate (u : Unicode) (ignore : Bool) (A B C : List Bytes) (b1 b2 b3 b4 content : Bytes) (e1 e2 : Entry)
    (h1 : BlankLine b1) (h2 : BlankLine b2) (h3 : BlankLine b3) (h4 : BlankLine b4) (w1 : e1.WF) (w2 : e2.WF)
    (hid : e1.id.value ≠ []) (hk : Key e1 = Key e2)
    (h : HasLines content (A ++ b1 :: (e1.lines ++ b2 :: (B ++ b3 :: (e2.lines ++ b4 :: C)))))
    (hs : Short (A ++ b1 :: (e1.lines ++ b2 :: (B ++ b3 :: (e2.lines ++ b4 :: C))))) (f : File) :
    parse u ignore content ≠ .ok f := by
  intro hf
  rw [parse_run u ignore h hs, run_between u ignore _ A _ h1 h2 w1] at hf
  obtain ⟨st, hr, _⟩ := bind_eq_ok.1 hf
  obtain ⟨sa, _, hr⟩ := bind_eq_ok.1 hr
  obtain ⟨s1, hs1, hr⟩ := bind_eq_ok.1 hr
  rw [run_between u ignore _ B C h3 h4 w2] at hr
  obtain ⟨s2, hr2, hr⟩ := bind_eq_ok.1 hr
  obtain ⟨s3, hs3, hr⟩ := bind_eq_ok.1 hr
  obtain ⟨k1, k2⟩ := Prod.mk.inj hk
  have hid1 : (e1.message ignore).id ≠ [] := hid
  have hid2 : (e2.message ignore).id ≠ [] := by
    intro e
    apply hid1
    have : (e1.message false).id = (e2.message false).id := k2
    exact this.trans e
  rcases store_message (u := u) (st := sa) hid1 with ⟨_, hx⟩ | ⟨_, s', hx, _, _, kf⟩
  · rw [hx] at hs1; cases hs1
  · rw [hx] at hs1; cases hs1
    have hfound := (run_keeps hr2).1 _ _ _ (show PState.find s1 (e1.message ignore).context (e1.message ignore).id = _ by
      rw [kf, if_pos ⟨rfl, rfl⟩])
    have hfound : PState.find s2 (e2.message ignore).context (e2.message ignore).id = some (e1.message ignore) := by
      rw [← hfound]
      have c1 : (e2.message ignore).context = (e1.message ignore).context := k1.symm
      have c2 : (e2.message ignore).id = (e1.message ignore).id := k2.symm
      rw [c1, c2]
    rcases store_message (u := u) (st := s2) hid2 with ⟨_, hx⟩ | ⟨hno, _⟩
    · rw [hx] at hs3; cases hs3
    · rw [hfound] at hno; cases hno

/-- The second entry differs in its translation only. -/
example : ∃ content e1 e2, Entry.WF e1 ∧ Entry.WF e2 ∧ BlankLine [] ∧ e1.id.value ≠ [] ∧ Key e1 = Key e2 ∧ e1.lines ≠ e2.lines ∧
    HasLines content ([] ++ [] :: (e1.lines ++ [] :: ([b!"# c"] ++ [] :: (e2.lines ++ [] :: [])))) ∧
    Short ([] ++ [] :: (e1.lines ++ [] :: ([b!"# c"] ++ [] :: (e2.lines ++ [] :: [])))) :=
  ⟨_, simple ['a'] ['A'], simple ['a'] ['B'], simple_wf (by decide) (by decide), simple_wf (by decide) (by decide),
    by decide, by decide, by decide, by decide, ⟨by decide, .inl rfl⟩, by decide⟩

/-- Text after a blank line never changes or removes a message or the header that was read before, whatever
the text is. -/
theorem C12_no_overwrite (u : Unicode) (ignore : Bool) (A B : List Bytes) (b content ca : Bytes)
    (hb : BlankLine b) (h : HasLines content (A ++ b :: B)) (ha : HasLines ca A) (hs : Short (A ++ b :: B))
    (f fa : File) (hf : parse u ignore content = .ok f) (hfa : parse u ignore ca = .ok fa) (c i : Bytes) (m : Message)
    (hm : fa.getMessage c i = some m) : f.getMessage c i = some m := by
  obtain ⟨ga, gb, h1, _, h3, _⟩ := C08_split u ignore A B b content ca (textOf B) hb h ha
    ⟨fun l hl => h.1 l (List.mem_append_right _ (List.mem_cons_of_mem _ hl)), .inl rfl⟩ hs f.getMessage (.inl ⟨f, hf, fun _ _ => rfl⟩)
  rw [h3]
  rcases h1 with ⟨f', e, hg⟩ | ⟨e, _⟩
  · rw [hfa] at e; cases e
    rw [← hg, hm]; rfl
  · rw [hfa] at e; cases e

/-- A second header is accepted if the first one cannot be read. -/
theorem C12_negation_header (u : Unicode) : ∃ f, parse u false
    b!"msgid \"\"\nmsgstr \"x\"\n\nmsgid \"\"\nmsgstr \"Language: de\"\n" = .ok f := ⟨_, rfl⟩

/-- An entry with an empty id and a context is taken as header, not as message. -/
theorem C12_negation_context (u : Unicode) : ∃ f, parse u false
    b!"msgctxt \"c\"\nmsgid \"\"\nmsgstr \"a:b\"\n" = .ok f ∧ f.getMessage b!"c" [] = none := ⟨_, rfl, rfl⟩

/-- A second header is rejected if the first one can be read: every line of its text has a colon or is
blank.  Missing for the full property: `C12_negation_header`. -/
theorem C12_second_header_partial (u : Unicode) (ignore : Bool) (A B C : List Bytes) (b1 b2 b3 b4 content : Bytes)
    (e1 e2 : Entry) (h1 : BlankLine b1) (h2 : BlankLine b2) (h3 : BlankLine b3) (h4 : BlankLine b4) (w1 : e1.WF) (w2 : e2.WF)
    (hid1 : e1.id.value = []) (hid2 : e2.id.value = []) (hv : e2.str.value ≠ []) (field : Spec.PoEntry.Field)
    (hf1 : e1.str = .single field) (hread : ∀ l ∈ splitByte 0x0a field.value, 0x3a ∈ l ∨ BlankLine l)
    (h : HasLines content (A ++ b1 :: (e1.lines ++ b2 :: (B ++ b3 :: (e2.lines ++ b4 :: C)))))
    (hs : Short (A ++ b1 :: (e1.lines ++ b2 :: (B ++ b3 :: (e2.lines ++ b4 :: C))))) (f : File) :
    parse u ignore content ≠ .ok f := by
  intro hf
  rw [parse_run u ignore h hs, run_between u ignore _ A _ h1 h2 w1] at hf
  obtain ⟨st, hr, _⟩ := bind_eq_ok.1 hf
  obtain ⟨sa, _, hr⟩ := bind_eq_ok.1 hr
  obtain ⟨s1, hs1, hr⟩ := bind_eq_ok.1 hr
  rw [run_between u ignore _ B C h3 h4 w2] at hr
  obtain ⟨s2, hr2, hr⟩ := bind_eq_ok.1 hr
  obtain ⟨s3, hs3, hr⟩ := bind_eq_ok.1 hr
  have i1 : (e1.message ignore).id = [] := hid1
  have i2 : (e2.message ignore).id = [] := hid2
  have v1 : (e1.message ignore).str ≠ [] := by
    show e1.str.value ≠ []
    rw [hf1]; simp [Str.value]
  have hp : (parseHeader u (e1.message ignore)).isSome = true := by
    unfold parseHeader
    rw [Option.isSome_map]
    apply headerLoop_isSome
    have : strAt (e1.message ignore).str 0 = field.value := by
      show strAt e1.str.value 0 = _
      rw [hf1]; rfl
    rw [this]; exact hread
  rcases store_header (u := u) (st := sa) i1 with ⟨_, _, hx⟩ | ⟨s', hx, _, _, _, kf⟩
  · rw [hx] at hs1; cases hs1
  · rw [hx] at hs1; cases hs1
    have hh1 : s1.header ≠ none := by
      rw [(kf v1).2]
      intro e; rw [e] at hp; cases hp
    have hh2 : s2.header ≠ none := by rw [(run_keeps hr2).2 hh1]; exact hh1
    rcases store_header (u := u) (st := s2) i2 with ⟨_, _, hx⟩ | ⟨s'', hx, _, _, _, kf⟩
    · rw [hx] at hs3; cases hs3
    · exact hh2 (kf hv).1

/-- Two readable headers. -/
example : ∃ content e1 e2 field, Entry.WF e1 ∧ Entry.WF e2 ∧ BlankLine [] ∧ e1.id.value = [] ∧ e2.id.value = [] ∧
    e2.str.value ≠ [] ∧ e1.str = .single field ∧ (∀ l ∈ splitByte 0x0a field.value, 0x3a ∈ l ∨ BlankLine l) ∧
    HasLines content ([] ++ [] :: (e1.lines ++ [] :: ([b!"# c"] ++ [] :: (e2.lines ++ [] :: [])))) ∧
    Short ([] ++ [] :: (e1.lines ++ [] :: ([b!"# c"] ++ [] :: (e2.lines ++ [] :: [])))) :=
  ⟨_, simple [] ['a', ':', 'b'], simple [] ['c'], _, simple_wf (by decide) (by decide), simple_wf (by decide) (by decide),
    by decide, by decide, by decide, by decide, rfl, by decide, ⟨by decide, .inl rfl⟩, by decide⟩

/-! ## C13 -/

/-- The continuation line of `msgstr[0]` lands in `msgstr[1]` if the indices are not in order. -/
theorem C13_negation (u : Unicode) : ∃ f m, parse u false
      b!"msgid \"a\"\nmsgid_plural \"b\"\nmsgstr[1] \"P\"\nmsgstr[0] \"S\"\n\"T\"\n" = .ok f ∧
    f.getMessage [] b!"a" = some m ∧ m.str.get? 0 = some b!"S" ∧ m.str.get? 1 = some b!"PT" := ⟨_, _, rfl, rfl, rfl, rfl⟩

/-- Without a space between the index and the quote the text is lost. -/
theorem C13_negation_no_space (u : Unicode) : ∃ f m, parse u false
      b!"msgid \"a\"\nmsgid_plural \"b\"\nmsgstr[0]\"S\"\nmsgstr[1] \"P\"\n" = .ok f ∧
    f.getMessage [] b!"a" = some m ∧ m.str.get? 0 = some [] := ⟨_, _, rfl, rfl, rfl⟩

/-- In a file of entries separated by blank or comment lines every plural text is found at its index, for
every set and order of indices, provided that the texts with continuation lines stand at the position of
their index.  Missing for the full property: `C13_negation` and `C13_negation_no_space`. -/
theorem C13_plural_index_partial (u : Unicode) (ignore : Bool) (bs : List Block) (tail : List Bytes) (content : Bytes)
    (hw : ∀ b ∈ bs, b.WF) (ha : Apart ignore bs) (ht : ∀ l ∈ tail, BlankLine l)
    (h : HasLines content (blockLines bs ++ tail)) (hs : Short (blockLines bs ++ tail)) (f : File)
    (hf : parse u ignore content = .ok f) (b : Block) (hb : b ∈ bs) (hid : b.2.id.value ≠ [])
    (fs : List (Bytes × Spec.PoEntry.Field)) (hstr : b.2.str = .plural fs) :
    ∃ m, f.getMessage (Key b.2).1 (Key b.2).2 = some m ∧
      (∀ p ∈ fs, m.str.get? (digitsValue p.1 : Int) = some p.2.value) ∧
      ∀ i t, m.str.get? i = some t → ∃ p ∈ fs, (digitsValue p.1 : Int) = i ∧ p.2.value = t := by
  obtain ⟨m, hm, _, hv⟩ := C09_separated_entries_partial u ignore bs tail content hw ha ht h hs f hf b hb hid
  have hv : m.str = fs.map fun p => ((digitsValue p.1 : Int), p.2.value) := by
    rw [hv]; show b.2.str.value = _; rw [hstr]; rfl
  have hnd : (fs.map fun p => digitsValue p.1).Nodup := by
    have := (hw b hb).2.2.2.2.2
    rw [hstr] at this
    exact this.2.1
  refine ⟨m, hm, ?_⟩
  rw [hv]
  clear hv hm hstr
  induction fs with
  | nil => exact ⟨nofun, nofun⟩
  | cons q fs ih =>
    rw [List.map_cons, List.nodup_cons] at hnd
    obtain ⟨i1, i2⟩ := ih hnd.2
    rw [List.map_cons]
    refine ⟨?_, ?_⟩
    · intro p hp
      rcases List.mem_cons.1 hp with rfl | hp
      · rw [GoMap.get?]; simp
      · rw [GoMap.get?, if_neg, i1 p hp]
        intro e
        exact hnd.1 (List.mem_map.2 ⟨p, hp, by have e' : (digitsValue q.1 : Int) = digitsValue p.1 := e; omega⟩)
    · intro i t hi
      rw [GoMap.get?] at hi
      split at hi
      · rename_i e
        exact ⟨q, List.mem_cons_self, e, by simpa using hi⟩
      · obtain ⟨p, hp, h⟩ := i2 i t hi
        exact ⟨p, List.mem_cons_of_mem _ hp, h⟩

/-- Plural texts in the order 2, 1, 0 and one with a continuation line. -/
example : ∃ e : Entry, ∃ fs, e.WF ∧ e.str = .plural fs ∧ e.id.value ≠ [] ∧ HasLines (textOf e.lines) e.lines ∧ Short e.lines ∧
    fs.map (fun p => digitsValue p.1) = [2, 1, 0] := by
  have hb : Blank [] := fun _ h => by cases h
  refine ⟨⟨[], none, ⟨[], ⟨[], ['a'], [], ['a']⟩, []⟩, none, .plural
    [(b!"2", ⟨[], ⟨[], ['x'], [], ['x']⟩, []⟩), (b!"1", ⟨[], ⟨[], ['y'], [], ['y']⟩, [⟨b!" ", ['z'], [], ['z']⟩]⟩),
     (b!"0", ⟨[], ⟨[], ['w'], [], ['w']⟩, []⟩)]⟩, _,
    ⟨nofun, nofun, ⟨hb, ⟨hb, hb, means_plain (by decide)⟩, nofun⟩, nofun, ⟨?_, by decide, by simp [InOrder]; decide⟩⟩, rfl, by decide,
    ⟨by decide, .inl rfl⟩, by decide, by decide⟩
  intro p hp
  rcases hp with _ | ⟨_, _ | ⟨_, _ | ⟨_, hp⟩⟩⟩
  · exact ⟨by decide, hb, ⟨hb, hb, means_plain (by decide)⟩, nofun⟩
  · refine ⟨by decide, hb, ⟨hb, hb, means_plain (by decide)⟩, ?_⟩
    intro q hq
    rcases hq with _ | ⟨_, hq⟩
    · exact ⟨by decide, hb, means_plain (by decide)⟩
    · cases hq
  · exact ⟨by decide, hb, ⟨hb, hb, means_plain (by decide)⟩, nofun⟩
  · cases hp

/-! ## C71 -/

/-- Every text has lines. -/
theorem hasLines_exists (content : Bytes) : ∃ ls, HasLines content ls := by
  refine ⟨rawLines content, rawLines_oneLine content, ?_⟩
  have hj := join_splitByte 0x0a content
  have key : ∀ (ls : List Bytes) (x : Bytes), join [0x0a] (ls ++ [x]) = textOf ls ++ x := by
    intro ls x
    induction ls with
    | nil => rfl
    | cons l ls ih =>
      have : ∀ a, join [0x0a] (l :: (a ++ [x])) = l ++ [0x0a] ++ join [0x0a] (a ++ [x]) := by
        intro a; cases a <;> rfl
      rw [List.cons_append, this, ih]
      simp [textOf]
  unfold rawLines
  cases hg : (splitByte 0x0a content).getLast? with
  | none => exact absurd (List.getLast?_eq_none_iff.1 hg) (Proofs.Po.splitByte_ne_nil _ _)
  | some x =>
    obtain ⟨ys, hy⟩ := List.getLast?_eq_some_iff.1 hg
    rw [hy, key] at hj
    cases x with
    | nil => left; simp only [hy, List.dropLast_concat]; rw [← hj]; simp
    | cons b x =>
      right
      simp only [hy]
      refine ⟨⟨b :: x, by simp, by simp⟩, ?_⟩
      rw [← hj]; simp [textOf]

/-- `Parse` panics on no input. -/
theorem C71_no_panic (u : Unicode) (ignore : Bool) (content : Bytes) : parse u ignore content ≠ .panic := by
  unfold parse
  rw [parseLines_run]
  intro h
  cases hr : run u ignore ⟨none, []⟩ (scanLines content) with
  | ok st => rw [hr] at h; exact finish_ne.2 h
  | panic => exact run_not_panic _ _ _ _ hr
  | eof => rw [hr] at h; cases h
  | error e => rw [hr] at h; cases h
  | hang => rw [hr] at h; cases h

/-- `Parse` does not return if a text ends with a backslash in front of the closing quote. -/
theorem C71_negation (u : Unicode) : parse u false b!"msgid \"a\\\"\nmsgstr \"A\"\n" = .hang := rfl

/-- `Parse` returns unless one of the lines ends with a backslash and a quote, the backslash being one of an
odd number of backslashes.  Missing for the full property: `C71_negation`. -/
theorem C71_returns_partial (u : Unicode) (ignore : Bool) (content : Bytes) (ls : List Bytes) (h : HasLines content ls)
    (hd : ∀ l ∈ ls, ¬ Dangling l) : parse u ignore content ≠ .hang := by
  unfold parse
  rw [parseLines_run]
  have he : run u ignore ⟨none, []⟩ (scanLines content) =
      run u ignore ⟨none, []⟩ ((rawLines content).takeWhile fun l => decide (l.length < maxScanTokenSize)) := by
    unfold scanLines run tokens
    rw [tokensFrom_dropCR]
  rw [he, rawLines_text h]
  intro hh
  have hm : ∀ l ∈ ls.takeWhile (fun l => decide (l.length < maxScanTokenSize)), l ∈ ls :=
    fun l hl => (List.takeWhile_prefix _).subset hl
  cases hr : run u ignore ⟨none, []⟩ (ls.takeWhile fun l => decide (l.length < maxScanTokenSize)) with
  | ok st => rw [hr] at hh; exact finish_ne.1 hh
  | hang =>
    obtain ⟨l, hl, hx⟩ := run_hang (fun l hl => h.1 l (hm l hl)) hr
    exact hd l (hm l hl) hx
  | eof => rw [hr] at hh; cases hh
  | error e => rw [hr] at hh; cases hh
  | panic => rw [hr] at hh; cases hh

/-- Text without backslashes. -/
example (u : Unicode) : ∃ content ls f, HasLines content ls ∧ (∀ l ∈ ls, ¬ Dangling l) ∧ parse u false content = .ok f := by
  have h : ∃ f, parse u false (textOf (simple ['a'] ['A']).lines) = .ok f := ⟨_, rfl⟩
  obtain ⟨f, hf⟩ := h
  refine ⟨_, _, f, ⟨by decide, .inl rfl⟩, ?_, hf⟩
  rintro l hl ⟨pre, body, post, rfl, _, _, ho⟩
  have hb : (0x5c : UInt8) ∉ body := by
    intro h
    have := (show ∀ l ∈ (simple ['a'] ['A']).lines, (0x5c : UInt8) ∉ l by decide) _ hl
    apply this
    simp [h]
  unfold Spec.PoString.trailingBackslashes at ho
  have : (body.reverse.takeWhile fun b => b == 0x5c) = [] := by
    cases hr : body.reverse with
    | nil => rfl
    | cons x xs =>
      rw [List.takeWhile_cons_of_neg]
      intro he
      apply hb
      rw [← List.mem_reverse, hr, eq_of_beq he]
      exact List.mem_cons_self
  rw [this] at ho
  cases ho

end Verif.Props.PoParser
