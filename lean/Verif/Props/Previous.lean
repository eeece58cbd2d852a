import Verif.Proofs.Po.Previous
import Verif.Props.PoParser
/-!
# The previous message of an entry (C116)
-/
namespace Verif.Props.Previous
open Verif.Go Verif.Model.Po Verif.Spec.PoEntry Verif.Spec.Previous Verif.Proofs.Po Verif.Props.PoParser

/-- The lines of an entry with previous texts among its comments, between blank lines. -/
def Around (A B : List Bytes) (b1 b2 : Bytes) (ps : List Part) (e : Entry) : List Bytes :=
  A ++ b1 :: ((ps.flatMap Part.lines ++ e.coreLines) ++ b2 :: B)

/-- An entry with any number of comment lines and previous texts in any order, in arbitrary surroundings: the
previous contexts are joined, and so are the previous IDs, to which the previous plurals are added. -/
theorem C116_previous (u : Unicode) (ignore : Bool) (A B : List Bytes) (b1 b2 content : Bytes) (ps : List Part) (e : Entry)
    (h1 : BlankLine b1) (h2 : BlankLine b2) (hp : ∀ p ∈ ps, p.WF) (he : e.WF) (hid : e.id.value ≠ [])
    (h : HasLines content (Around A B b1 b2 ps e)) (hs : Short (Around A B b1 b2 ps e))
    (f : File) (hf : parse u ignore content = .ok f) :
    f.getMessage (Key e).1 (Key e).2 = some { e.message ignore with comment := some (commentRead ignore ps) } := by
  rw [parse_run u ignore h hs, Around, run_blank u ignore _ A _ b1 (isBlankLine_of h1)] at hf
  obtain ⟨st, hr, hf⟩ := bind_eq_ok.1 hf
  obtain ⟨sa, hra, hr⟩ := bind_eq_ok.1 hr
  rw [run_blank u ignore sa _ B b2 (isBlankLine_of h2), run_parts u ignore hp he sa] at hr
  obtain ⟨s1, hr1, hrb⟩ := bind_eq_ok.1 hr
  have hidm : ({ e.message ignore with comment := some (commentRead ignore ps) } : Message).id ≠ [] := hid
  rcases store_message (u := u) (st := sa) hidm with ⟨_, hx⟩ | ⟨_, s2, hx, _, _, k3⟩
  · rw [hx] at hr1; cases hr1
  · rw [hx] at hr1; cases hr1
    rw [getMessage_find (finish_ok hf).1]
    exact (run_keeps hrb).1 _ _ _ (by rw [k3, if_pos ⟨rfl, rfl⟩])

def partText (ks : List Kind) : Part → Bytes
  | .comment _ => []
  | .prev p => if p.kind ∈ ks then p.value else []

theorem texts_cons (ks : List Kind) (p : Part) (ps : List Part) : textsIn ks (p :: ps) = partText ks p ++ textsIn ks ps := rfl

theorem texts_length (ps : List Part) : (textsIn [.id, .plural] ps).length =
    (textsIn [.id] ps).length + (textsIn [.plural] ps).length := by
  induction ps with
  | nil => rfl
  | cons p ps ih =>
    simp only [texts_cons, List.length_append, ih]
    cases p with
    | comment c => simp [partText]
    | prev p => cases hk : p.kind <;> simp [partText, hk] <;> omega

theorem texts_nil {k : Kind} {ps : List Part} : textsIn [k] ps = [] ↔ ∀ p, .prev p ∈ ps → p.kind = k → p.value = [] := by
  unfold textsIn
  rw [List.flatMap_eq_nil_iff]
  constructor
  · intro h p hp hk
    have := h _ hp
    simpa [hk] using this
  · intro h x hx
    cases x with
    | comment c => rfl
    | prev p =>
      by_cases hk : p.kind = k
      · simp [h p hx hk]
      · simp [hk]

theorem texts_without {ps : List Part} (h : textsIn [.plural] ps = []) : textsIn [.id, .plural] ps = textsIn [.id] ps := by
  rw [texts_nil] at h
  induction ps with
  | nil => rfl
  | cons p ps ih =>
    rw [texts_cons, texts_cons, ih fun q hq => h q (List.mem_cons_of_mem _ hq)]
    cases p with
    | comment c => rfl
    | prev p =>
      cases hk : p.kind with
      | plural => simp [partText, hk, h p List.mem_cons_self hk]
      | context => simp [partText, hk]
      | id => simp [partText, hk]

/-- The previous ID is right exactly if every previous plural is empty. -/
theorem C116_right_iff (u : Unicode) (A B : List Bytes) (b1 b2 content : Bytes) (ps : List Part) (e : Entry)
    (h1 : BlankLine b1) (h2 : BlankLine b2) (hp : ∀ p ∈ ps, p.WF) (he : e.WF) (hid : e.id.value ≠ [])
    (h : HasLines content (Around A B b1 b2 ps e)) (hs : Short (Around A B b1 b2 ps e))
    (f : File) (hf : parse u false content = .ok f) :
    (∃ m c, f.getMessage (Key e).1 (Key e).2 = some m ∧ m.comment = some c ∧ c.prevMsgContext = textsIn [.context] ps ∧
      c.prevMsgID = textsIn [.id] ps) ↔ ∀ p, .prev p ∈ ps → p.kind = .plural → p.value = [] := by
  have hm := C116_previous u false A B b1 b2 content ps e h1 h2 hp he hid h hs f hf
  rw [← texts_nil]
  constructor
  · rintro ⟨m, c, g1, g2, _, g4⟩
    rw [hm] at g1
    cases g1
    cases g2
    have := congrArg List.length g4
    have hl := texts_length ps
    have : (textsIn [.id, .plural] ps).length = (textsIn [.id] ps).length := this
    exact List.eq_nil_of_length_eq_zero (by omega)
  · intro hn
    exact ⟨_, _, hm, rfl, rfl, texts_without hn⟩

/-- Without previous plurals the previous message is kept.
Missing for the full property: previous plurals (`C116_negation`). -/
theorem C116_kept_partial (u : Unicode) (A B : List Bytes) (b1 b2 content : Bytes) (ps : List Part) (e : Entry)
    (h1 : BlankLine b1) (h2 : BlankLine b2) (hp : ∀ p ∈ ps, p.WF) (he : e.WF) (hid : e.id.value ≠ [])
    (h : HasLines content (Around A B b1 b2 ps e)) (hs : Short (Around A B b1 b2 ps e))
    (hn : ∀ p, .prev p ∈ ps → p.kind ≠ .plural) (f : File) (hf : parse u false content = .ok f) :
    ∃ m c, f.getMessage (Key e).1 (Key e).2 = some m ∧ m.comment = some c ∧ c.prevMsgContext = textsIn [.context] ps ∧
      c.prevMsgID = textsIn [.id] ps :=
  (C116_right_iff u A B b1 b2 content ps e h1 h2 hp he hid h hs f hf).2 fun p h' hk => absurd hk (hn p h')

/-- The previous plural is added to the previous ID. -/
theorem C116_negation (u : Unicode) : ∃ f m c, parse u false
      b!"#| msgid \"a file\"\n#| msgid_plural \"%d files\"\nmsgid \"one file\"\nmsgid_plural \"%d files\"\nmsgstr[0] \"\"\n" = .ok f ∧
    f.getMessage [] b!"one file" = some m ∧ m.comment = some c ∧ c.prevMsgID = b!"a file%d files" :=
  ⟨_, _, _, rfl, rfl, rfl, rfl⟩

/-- An entry with a previous context, a comment between, and a previous ID on two lines. -/
example (u : Unicode) : ∃ ps e content f, (∀ p ∈ ps, p.WF) ∧ e.WF ∧ e.id.value ≠ [] ∧ BlankLine [] ∧
    HasLines content (Around [] [] [] [] ps e) ∧ Short (Around [] [] [] [] ps e) ∧ parse u false content = .ok f ∧
    (∀ p, .prev p ∈ ps → p.kind ≠ .plural) ∧ textsIn [.context] ps = b!"c" ∧ textsIn [.id] ps = b!"xy" := by
  have hb : Blank [] := fun _ h => by cases h
  have hm : ∀ c : Char, c ≠ '"' ∧ c ≠ '\\' ∧ c ≠ '\n' → Means [c] [c] := fun c h => means_plain (by simpa using h)
  refine ⟨[.prev ⟨.context, b!" ", b!" ", ⟨[], ['c'], [], ['c']⟩, []⟩, .comment (.flags [] b!" fuzzy"),
    .prev ⟨.id, b!" ", b!" ", ⟨[], ['x'], [], ['x']⟩, [(b!" ", ⟨[], ['y'], [], ['y']⟩)]⟩], simple ['a'] ['A'], _, _,
    ?_, ?_, by decide, by decide, ⟨by decide, .inl rfl⟩, by decide, rfl, ?_, by decide, by decide⟩
  · intro p hp
    rcases hp with _ | ⟨_, _ | ⟨_, _ | ⟨_, hp⟩⟩⟩
    · exact ⟨by decide, by decide, by decide, ⟨hb, hb, hm _ (by decide)⟩, nofun⟩
    · exact ⟨hb, by decide⟩
    · refine ⟨by decide, by decide, by decide, ⟨hb, hb, hm _ (by decide)⟩, ?_⟩
      intro r hr
      rcases hr with _ | ⟨_, hr⟩
      · exact ⟨by decide, by decide, hb, hb, hm _ (by decide)⟩
      · cases hr
    · cases hp
  · exact ⟨nofun, nofun, ⟨hb, ⟨hb, hb, hm _ (by decide)⟩, nofun⟩, nofun, ⟨hb, ⟨hb, hb, hm _ (by decide)⟩, nofun⟩⟩
  · intro p hp
    rcases hp with _ | ⟨_, _ | ⟨_, _ | ⟨_, hp⟩⟩⟩
    · decide
    · decide
    · cases hp

end Verif.Props.Previous
