import Verif.Props.References
import Verif.Proofs.Po.Safe
/-!
# C103: references with arbitrary paths
-/
namespace Verif.Props.References
open Verif.Go Verif.Model.Po Verif.Spec.Reference Verif.Proofs.Po

/-- The text of a reference as characters; at its beginning is that of the path. -/
theorem chars_of {w : Written} (h : w.Numbered) : ∃ q : List Char, w.text = utf8 (w.path ++ q) ∧ (∀ c ∈ q, isSpace c = false) ∧ (q = [] ↔ w.line = none) := by
  obtain ⟨hne, hl⟩ := h
  unfold Written.text
  cases hw : w.line with
  | none => exact ⟨[], by simp, by simp, by simp⟩
  | some ds =>
    obtain ⟨cs, h1, h2⟩ := digits_chars (hl ds hw).2.1
    refine ⟨':' :: cs, ?_, ?_, by simp⟩
    · rw [utf8_colon, h1]; rfl
    · intro c hc
      rcases List.mem_cons.1 hc with rfl | hc
      · decide
      · exact h2 c hc

theorem utf8_len_pos (c : Char) (cs : List Char) : 0 < (utf8 (c :: cs)).length := by
  cases h : utf8 (c :: cs) with
  | nil => simp [utf8, encodeRune_ne_nil] at h
  | cons => simp

theorem trim_length (s : Bytes) : (trimSpace s).length ≤ s.length := by
  obtain ⟨a, b, h, _, _⟩ := trimSpace_split s
  have := congrArg List.length h
  simp only [List.length_append] at this
  omega

/-- A path that is read is the beginning of the text without white space at the ends. -/
theorem path_prefix (t : Bytes) : (parseReference t).path <+: trimSpace t := by
  unfold parseReference
  simp only []
  split
  · exact List.prefix_refl _
  · exact List.prefix_refl _
  · exact List.take_prefix _ _

/-- A path that is read does not begin with white space. -/
theorem path_head {t : Bytes} {p : List Char} (h : (parseReference t).path = utf8 p) : ∀ c ∈ p.head?, isSpace c = false := by
  intro c hc
  cases p with
  | nil => cases hc
  | cons x xs =>
    obtain rfl : x = c := by simpa using hc
    cases hs : isSpace x with
    | false => rfl
    | true =>
      exfalso
      obtain ⟨r, hr⟩ := path_prefix t
      rw [h] at hr
      have hi := trimSpace_idem t
      have e : utf8 (x :: xs) = utf8 [x] ++ utf8 xs := by rw [← Verif.Proofs.Po.utf8_append]; rfl
      rw [← hr, e, List.append_assoc, trimSpace_spaces_left (spaces_utf8 (by simpa using hs))] at hi
      have h1 := trim_length (utf8 xs ++ r)
      rw [hi] at h1
      have h2 := utf8_len_pos x []
      simp only [List.length_append] at h1
      omega

/-- A path that is the whole text does not end with white space. -/
theorem path_last {p : List Char} (h : (parseReference (utf8 p)).path = utf8 p) : trimSpace (utf8 p) = utf8 p := by
  obtain ⟨r, hr⟩ := path_prefix (utf8 p)
  rw [h] at hr
  have h1 := trim_length (utf8 p)
  rw [← hr, List.length_append] at h1
  have : r = [] := List.eq_nil_of_length_eq_zero (by omega)
  rw [← hr, this, List.append_nil]

theorem last_of_trim {p : List Char} (h : trimSpace (utf8 p) = utf8 p) : ∀ c ∈ p.getLast?, isSpace c = false := by
  intro c hc
  cases hs : isSpace c with
  | false => rfl
  | true =>
    exfalso
    rcases List.eq_nil_or_concat p with rfl | ⟨q, d, rfl⟩
    · cases hc
    · rw [List.concat_eq_append] at *
      simp only [List.getLast?_append, List.getLast?_singleton, Option.some_or, Option.mem_def, Option.some.injEq] at hc
      subst hc
      rw [Verif.Proofs.Po.utf8_append, trimSpace_spaces_right (spaces_utf8 (by simpa using hs))] at h
      have h1 := trim_length (utf8 q)
      rw [h, List.length_append] at h1
      have := utf8_len_pos d []
      omega

/-- Where the last of the joined texts begins. -/
theorem join_last : ∀ init : List (List Char), (∀ y ∈ init, y ≠ [] ∧ ∀ c ∈ y.head?, isSpace c = false) →
    ∃ pre : List Char, (∀ x, join b!" " ((init ++ [x]).map utf8) = utf8 (pre ++ x)) ∧ ∀ c ∈ pre.head?, isSpace c = false := by
  intro init
  induction init with
  | nil => intro _; exact ⟨[], fun x => by simp [join], by simp⟩
  | cons y ys ih =>
    intro h
    obtain ⟨pre, h1, h2⟩ := ih fun z hz => h z (List.mem_cons_of_mem _ hz)
    obtain ⟨hy, hy'⟩ := h y List.mem_cons_self
    refine ⟨y ++ ' ' :: pre, fun x => ?_, ?_⟩
    · have := h1 x
      cases hz : (ys ++ [x]).map utf8 with
      | nil => simp at hz
      | cons z zs =>
        rw [hz] at this
        rw [List.cons_append, List.map_cons, hz]
        simp only [join]
        rw [this]
        simp only [utf8, List.flatMap_append, List.flatMap_cons, List.append_assoc]
        simp [encodeRune]
    · cases y with
      | nil => exact absurd rfl hy
      | cons d ds => exact hy'

/-- Texts that do not begin with white space and have no blank: cutting white space off the joined text changes no reference. -/
theorem read_joined {xs : List (List Char)} (hne : xs ≠ []) (hx : ∀ x ∈ xs, x ≠ [] ∧ (∀ c ∈ x.head?, isSpace c = false) ∧ ' ' ∉ x) :
    (splitByte 0x20 (trimSpace (join b!" " (xs.map utf8)))).map parseReference = xs.map fun x => parseReference (utf8 x) := by
  rcases List.eq_nil_or_concat xs with rfl | ⟨init, x, rfl⟩
  · exact absurd rfl hne
  rw [List.concat_eq_append] at *
  obtain ⟨pre, h1, h2⟩ := join_last init fun y hy => ⟨(hx y (by simp [hy])).1, (hx y (by simp [hy])).2.1⟩
  obtain ⟨hx1, hx2, hx3⟩ := hx x (by simp)
  obtain ⟨a, m, b, e, ha, hb, ht⟩ := trimSpace_chars (pre ++ x)
  rw [h1, ht]
  have ha0 : a = [] := by
    cases a with
    | nil => rfl
    | cons c cs =>
      have hc := ha c List.mem_cons_self
      have : (pre ++ x).head? = some c := by rw [e]; rfl
      cases pre with
      | nil => rw [hx2 c this] at hc; cases hc
      | cons d ds => rw [h2 c this] at hc; cases hc
  subst ha0
  rw [List.nil_append] at e
  rcases List.append_eq_append_iff.1 e with ⟨a', h3, h4⟩ | ⟨c', h3, h4⟩
  · rw [h3, ← h1, splitByte_join 0x20]
    · rw [List.map_map, List.map_append, List.map_append, h4]
      congr 1
      simp only [List.map_cons, List.map_nil, Function.comp]
      rw [Verif.Proofs.Po.utf8_append, parseReference_eq, parseReference_eq, trimSpace_spaces_right (spaces_utf8 hb)]
    · simp
    · intro l hl
      obtain ⟨y, hy, rfl⟩ := List.mem_map.1 hl
      apply ascii_not_mem (b := ' ') (by decide)
      rcases List.mem_append.1 hy with hy | hy
      · exact (hx y (by simp [hy])).2.2
      · rw [List.mem_singleton.1 hy]
        intro hm
        exact hx3 (by rw [h4]; exact List.mem_append_left _ hm)
  · exfalso
    cases x with
    | nil => exact hx1 rfl
    | cons d ds =>
      have := hb d (by rw [h4]; simp)
      rw [hx2 d rfl] at this
      cases this

theorem trim_of {w : Written} {q : List Char} (ht : w.text = utf8 (w.path ++ q)) (hq : ∀ c ∈ q, isSpace c = false) (hne : w.path ≠ [])
    (hh : ∀ c ∈ w.path.head?, isSpace c = false) (hl : q = [] → ∀ c ∈ w.path.getLast?, isSpace c = false) : trimSpace w.text = w.text := by
  rw [ht]
  apply trimSpace_utf8
  · cases hp : w.path with
    | nil => exact absurd hp hne
    | cons d ds => rw [hp] at hh; exact hh
  · intro c hc
    rcases List.eq_nil_or_concat q with rfl | ⟨r, d, rfl⟩
    · rw [List.append_nil] at hc
      exact hl rfl c hc
    · rw [List.concat_eq_append, ← List.append_assoc, List.getLast?_append] at hc
      simp only [List.getLast?_singleton, Option.some_or, Option.mem_def, Option.some.injEq] at hc
      exact hq c (by rw [← hc]; simp)

/-- If no path has a blank or begins with white space, the references are read one by one. -/
theorem read_each {ws : List Written} (hne : ws ≠ []) (h : ∀ w ∈ ws, w.Numbered)
    (hw : ∀ w ∈ ws, ' ' ∉ w.path ∧ ∀ c ∈ w.path.head?, isSpace c = false) :
    (splitByte 0x20 (trimSpace (join b!" " (ws.map Written.text)))).map parseReference = ws.map fun w => parseReference w.text := by
  have hch : ∃ xs : List (List Char), ws.map Written.text = xs.map utf8 ∧
      ∀ x ∈ xs, x ≠ [] ∧ (∀ c ∈ x.head?, isSpace c = false) ∧ ' ' ∉ x := by
    clear hne
    induction ws with
    | nil => exact ⟨[], rfl, by simp⟩
    | cons w ws ih =>
      obtain ⟨xs, h1, h2⟩ := ih (fun x hx => h x (List.mem_cons_of_mem _ hx)) fun x hx => hw x (List.mem_cons_of_mem _ hx)
      obtain ⟨q, h3, h4, _⟩ := chars_of (h w List.mem_cons_self)
      obtain ⟨h5, h6⟩ := hw w List.mem_cons_self
      have h7 := (h w List.mem_cons_self).1
      refine ⟨(w.path ++ q) :: xs, by rw [List.map_cons, List.map_cons, h1, h3], ?_⟩
      intro x hx
      rcases List.mem_cons.1 hx with rfl | hx
      · refine ⟨by simp [h7], ?_, ?_⟩
        · cases hp : w.path with
          | nil => exact absurd hp h7
          | cons d ds => rw [hp] at h6; exact h6
        · intro hm
          rcases List.mem_append.1 hm with hm | hm
          · exact h5 hm
          · have := h4 _ hm; revert this; decide
      · exact h2 x hx
  obtain ⟨xs, h1, h2⟩ := hch
  have hxs : xs ≠ [] := by
    rintro rfl
    exact hne (by simpa using h1)
  have := read_joined hxs h2
  rw [← h1] at this
  rw [this]
  have e := congrArg (List.map parseReference) h1
  rw [List.map_map, List.map_map] at e
  exact e.symm

/-- Which references between blanks are read right. -/
theorem tokens_iff {ws : List Written} (hne : ws ≠ []) (h : ∀ w ∈ ws, w.Numbered) :
    (splitByte 0x20 (trimSpace (join b!" " (ws.map Written.text)))).map parseReference = (ws.map fun w => ⟨utf8 w.path, w.number, 0⟩) ↔
      ∀ w ∈ ws, w.Compact ∧ w.Clear := by
  constructor
  · intro e
    have hfirst : ∀ w ∈ ws, ' ' ∉ w.path ∧ ∀ c ∈ w.path.head?, isSpace c = false := by
      intro w hw
      have hm : (⟨utf8 w.path, w.number, 0⟩ : Reference) ∈ ws.map fun w => (⟨utf8 w.path, w.number, 0⟩ : Reference) := List.mem_map.2 ⟨w, hw, rfl⟩
      rw [← e] at hm
      obtain ⟨t, ht, hp⟩ := List.mem_map.1 hm
      have hp : (parseReference t).path = utf8 w.path := congrArg Reference.path hp
      refine ⟨fun hsp => ?_, path_head hp⟩
      have h1 := not_mem_of_mem_splitByte _ _ t ht
      apply h1
      obtain ⟨r, hr⟩ := path_prefix t
      obtain ⟨a', b', h2, _, _⟩ := trimSpace_split t
      rw [h2, ← hr, hp]
      have : (0x20 : UInt8) ∈ utf8 w.path := List.mem_flatMap.2 ⟨' ', hsp, by simp [encodeRune]⟩
      exact List.mem_append_left _ (List.mem_append_right _ (List.mem_append_left _ this))
    rw [read_each hne h hfirst] at e
    intro w hw
    have hr := List.map_inj_left.1 e w hw
    obtain ⟨h1, h2⟩ := hfirst w hw
    obtain ⟨q, h3, h4, h5⟩ := chars_of (h w hw)
    have hne' := (h w hw).1
    have hlast : w.line = none → ∀ c ∈ w.path.getLast?, isSpace c = false := by
      intro hl
      rw [h5.2 hl, List.append_nil] at h3
      apply last_of_trim
      apply path_last
      rw [← h3, hr, h3]
    refine ⟨⟨h1, h2, hlast⟩, (read_trim hne' (h w hw).2 ?_).1 hr⟩
    exact trim_of h3 h4 hne' h2 (fun hq => hlast (h5.1 hq))
  · intro hw
    rw [read_each hne h fun w hm => ⟨(hw w hm).1.1, (hw w hm).1.2.1⟩]
    apply List.map_congr_left
    intro w hm
    obtain ⟨⟨h1, h2, h3⟩, h4⟩ := hw w hm
    obtain ⟨q, h5, h6, h7⟩ := chars_of (h w hm)
    exact (read_trim (h w hm).1 (h w hm).2 (trim_of h5 h6 (h w hm).1 h2 fun hq => h3 (h7.1 hq))).2 h4

/-- A line of references with arbitrary paths, separated by one blank, is read right exactly if no path has a blank, no reference begins or
ends with white space, and no path has a colon, except for one at its beginning if there is no line. -/
theorem C103_read_all_iff (c : Comment) (ws : List Written) (hne : ws ≠ []) (h : ∀ w ∈ ws, w.Numbered) (a b : Bytes) (ha : Spaces a) (hb : Spaces b) :
    commentStep c .commentReference (b!"#:" ++ (a ++ join b!" " (ws.map Written.text) ++ b)) =
      .ok { c with references := c.references ++ ws.map fun w => ⟨utf8 w.path, w.number, 0⟩ } ↔ ∀ w ∈ ws, w.Compact ∧ w.Clear := by
  have hstep : commentStep c .commentReference (b!"#:" ++ (a ++ join b!" " (ws.map Written.text) ++ b)) =
      .ok { c with references := c.references ++ (splitByte 0x20 (trimSpace (join b!" " (ws.map Written.text)))).map parseReference } := by
    unfold commentStep from?
    simp only [List.length_append, List.length_cons, List.length_nil]
    rw [if_pos (by omega)]
    simp only [Res.bind, List.cons_append, List.nil_append, List.drop_succ_cons, List.drop_zero]
    rw [trimSpace_spaces_right hb, trimSpace_spaces_left ha]
  rw [hstep, ← tokens_iff hne h]
  constructor
  · intro e
    injection e with e
    exact List.append_cancel_left (congrArg Comment.references e)
  · intro e
    rw [e]

/-- A tab inside a path is no obstacle, a blank is one, and so is a tab at the end, unless a line follows. -/
example : (⟨"a\tb".toList, none⟩ : Written).Compact ∧ (⟨"a\t".toList, some b!"3"⟩ : Written).Compact ∧ ¬ (⟨"a\t".toList, none⟩ : Written).Compact ∧
    ¬ (⟨"a b".toList, some b!"3"⟩ : Written).Compact := by
  refine ⟨⟨by decide, by decide, fun _ => by decide⟩, ⟨by decide, by decide, by rintro ⟨⟩⟩, ?_, ?_⟩
  · rintro ⟨_, _, h⟩
    exact absurd (h rfl '\t' (by decide)) (by decide)
  · rintro ⟨h, _⟩
    exact h (by decide)

/-- Such references are numbered. -/
example : (⟨"a\tb".toList, none⟩ : Written).Numbered ∧ (⟨"a b".toList, some b!"3"⟩ : Written).Numbered := by
  refine ⟨⟨by decide, by rintro ds ⟨⟩⟩, ⟨by decide, by rintro ds ⟨⟩; decide⟩⟩

/-- The references of `C103_file_partial` are among these. -/
theorem plain_all {w : Written} (h : w.Plain) : w.Numbered ∧ w.Compact ∧ w.Clear := by
  refine ⟨⟨h.1, h.2.2⟩, ⟨fun hm => ?_, fun c hc => (h.2.1 c (List.mem_of_mem_head? hc)).1, fun _ c hc => (h.2.1 c (List.mem_of_mem_getLast? hc)).1⟩,
    .inl fun hm => (h.2.1 _ hm).2 rfl⟩
  have := (h.2.1 _ hm).1
  revert this; decide

/-- So its example is one for `C103_file`; here are two references that it does not cover. -/
example : (⟨":a".toList, none⟩ : Written).Numbered ∧ (⟨":a".toList, none⟩ : Written).Compact ∧ (⟨":a".toList, none⟩ : Written).Clear ∧
    (⟨"a\tb".toList, some b!"3"⟩ : Written).Numbered ∧ (⟨"a\tb".toList, some b!"3"⟩ : Written).Compact ∧ (⟨"a\tb".toList, some b!"3"⟩ : Written).Clear :=
  ⟨⟨by decide, by rintro ds ⟨⟩⟩, ⟨by decide, by decide, fun _ => by decide⟩, .inr ⟨by decide, rfl⟩,
    ⟨by decide, by rintro ds ⟨⟩; decide⟩, ⟨by decide, by decide, by rintro ⟨⟩⟩, .inl (by decide)⟩

open Verif.Spec.PoEntry in
/-- The same for the message of an entry between blank lines, in arbitrary surroundings: paths may have colons at their beginning and
white space inside, but no blanks. -/
theorem C103_file (u : Unicode) (A B : List Bytes) (b1 b2 content : Bytes) (e : Entry)
    (h1 : BlankLine b1) (h2 : BlankLine b2) (he : e.WF) (hid : e.id.value ≠ [])
    (h : HasLines content (A ++ b1 :: (e.lines ++ b2 :: B))) (hs : Short (A ++ b1 :: (e.lines ++ b2 :: B))) (f : File)
    (hf : parse u false content = .ok f) (W : Bytes → List Written)
    (hW : ∀ i t, CommentLine.reference i t ∈ e.comments → W t ≠ [] ∧ (∀ w ∈ W t, w.Numbered ∧ w.Compact ∧ w.Clear) ∧
      ∃ a b, Spaces a ∧ Spaces b ∧ t = a ++ join b!" " ((W t).map Written.text) ++ b) :
    ∃ m c, f.getMessage ((e.context.map Field.value).getD []) e.id.value = some m ∧ m.comment = some c ∧
      c.references = e.comments.flatMap fun
        | .reference _ t => (W t).map fun w => ⟨utf8 w.path, w.number, 0⟩
        | _ => [] := by
  have hg : ∃ content', HasLines content' (A ++ b1 :: B) := by
    refine ⟨textOf (A ++ b1 :: B), ?_, .inl rfl⟩
    intro l hl
    apply h.1
    simp only [List.mem_append, List.mem_cons] at hl ⊢
    rcases hl with h | h | h
    · exact .inl h
    · exact .inr (.inl h)
    · exact .inr (.inr (.inr (.inr h)))
  obtain ⟨content', h'⟩ := hg
  have := (PoParser.C08_local u false A B b1 b2 content content' e h1 h2 he hid h hs h' f hf).1
  refine ⟨_, _, this, rfl, ?_⟩
  simp only [commentOf, Bool.false_eq_true, if_false]
  clear this h' content' hf hs h he
  generalize e.comments = cs at hW
  induction cs with
  | nil => rfl
  | cons c cs ih =>
    have ih := ih fun i t hm => hW i t (List.mem_cons_of_mem _ hm)
    unfold referenceTexts at ih ⊢
    cases c with
    | reference i t =>
      obtain ⟨k1, k2, a, b, ka, kb, kt⟩ := hW i t List.mem_cons_self
      have htok := (tokens_iff k1 fun w hw => (k2 w hw).1).2 fun w hw => (k2 w hw).2
      have ht : trimSpace t = trimSpace (join b!" " ((W t).map Written.text)) := by
        conv => lhs; rw [kt]
        rw [trimSpace_spaces_right kb, trimSpace_spaces_left ka]
      rw [← ht] at htok
      have hne : trimSpace t ≠ [] := by
        intro h0
        rw [h0] at htok
        cases hw : W t with
        | nil => exact k1 hw
        | cons w ws =>
          rw [hw] at htok
          have e1 : (parseReference []).path = utf8 w.path := congrArg Reference.path (List.cons.inj htok).1
          have hp := (k2 w (by rw [hw]; exact List.mem_cons_self)).1.1
          cases hq : w.path with
          | nil => exact hp hq
          | cons x xs =>
            have := utf8_len_pos x xs
            rw [← hq, ← e1] at this
            exact absurd this (by decide)
      simp only [List.filterMap_cons, List.flatMap_cons, List.filter_cons]
      rw [if_pos (by simpa using hne), List.flatMap_cons, ih, ← htok]
      congr 1
      apply List.map_congr_left
      intro x _
      rw [parseReference_eq]
    | translator i t => simpa [List.filterMap_cons] using ih
    | extracted i t => simpa [List.filterMap_cons] using ih
    | flags i t => simpa [List.filterMap_cons] using ih

end Verif.Props.References
