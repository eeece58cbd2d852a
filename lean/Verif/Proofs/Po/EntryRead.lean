import Verif.Spec.Adjacent
import Verif.Proofs.Po.Entry
/-!
# The parser on well-formed entries: comments, and entries as a whole
-/
namespace Verif.Proofs.Po
open Verif.Go Verif.Model.PoString Verif.Spec.PoString Verif.Spec.PoEntry
open Verif.Spec.PluralLines Verif.Spec.Adjacent
open Verif.Model.Po hiding Field

/-! ## References -/

theorem indexByte_none {c : UInt8} {s : Bytes} (h : indexByte? c s = none) : splitByte c s = [s] := by
  induction s with
  | nil => rfl
  | cons x s ih =>
    rw [indexByte?] at h
    split at h
    · simp at h
    · rename_i hx
      have h' : indexByte? c s = none := by simpa using h
      rw [splitByte, if_neg hx, ih h']

theorem indexByte_some {c : UInt8} {s : Bytes} : ∀ {i : Nat}, indexByte? c s = some i →
    splitByte c s = s.take i :: splitByte c (s.drop (i + 1)) := by
  induction s with
  | nil => intro i h; simp [indexByte?] at h
  | cons x s ih =>
    intro i h
    rw [indexByte?] at h
    split at h
    · rename_i hx
      simp at h; subst h
      rw [splitByte, if_pos hx]; rfl
    · rename_i hx
      simp only [Option.map_eq_some_iff] at h
      obtain ⟨j, hj, rfl⟩ := h
      rw [splitByte, if_neg hx, ih hj]
      rfl

theorem splitByte_ne_nil (c : UInt8) (s : Bytes) : splitByte c s ≠ [] := by
  cases h : indexByte? c s with
  | none => rw [indexByte_none h]; simp
  | some i => rw [indexByte_some h]; simp

theorem join_cons (sep a b : Bytes) (l : List Bytes) : join sep (a :: b :: l) = a ++ sep ++ join sep (b :: l) := rfl

theorem join_splitByte (c : UInt8) (s : Bytes) : join [c] (splitByte c s) = s := by
  induction s with
  | nil => rfl
  | cons x s ih =>
    rw [splitByte]
    split
    · rename_i hx
      cases h : splitByte c s with
      | nil => exact absurd h (splitByte_ne_nil c s)
      | cons a l => rw [join_cons, ← h, ih, hx]; rfl
    · cases h : splitByte c s with
      | nil => exact absurd h (splitByte_ne_nil c s)
      | cons a l =>
        rw [h] at ih
        cases l with
        | nil => simp only [join] at ih ⊢; rw [ih]
        | cons b l => rw [join_cons] at ih ⊢; rw [← ih]; rfl

theorem parseReference_eq (raw : Bytes) : parseReference raw = referenceOf (trimSpace raw) := by
  unfold parseReference referenceOf
  simp only
  generalize trimSpace raw = s
  cases h : indexByte? 0x3a s with
  | none => rw [indexByte_none h]
  | some i =>
    cases hs : splitByte 0x3a (s.drop (i + 1)) with
    | nil => exact absurd hs (splitByte_ne_nil _ _)
    | cons l ls =>
      rw [indexByte_some h, hs]
      simp only
      cases i with
      | zero => simp
      | succ i =>
        rw [← hs, join_splitByte]
        symm
        apply if_neg
        cases s with
        | nil => simp [indexByte?] at h
        | cons x s => exact List.cons_ne_nil _ _

/-! ## Comment lines -/

/-- The effect of a comment line. -/
def plus (ignore : Bool) (d : Comment) : CommentLine → Comment
  | .translator _ t => if ignore then d else { d with translator := addLine d.translator (trimSpace t) }
  | .extracted _ t =>
    if ignore then d else if trimSpace t = [] then d else { d with extracted := addLine d.extracted (trimSpace t) }
  | .reference _ t =>
    if ignore then d else if trimSpace t = [] then d
    else { d with references := d.references ++ (splitByte 0x20 (trimSpace t)).map parseReference }
  | .flags _ t => { d with flags := d.flags ++ fieldsFunc isFlagSep (trimSpace t) }

theorem flags_nil {d : Comment} (c : CommentLine) (ignore : Bool) (h : ¬ c.Visible ignore) : plus ignore d c = d := by
  cases c with
  | translator i t => simp [CommentLine.Visible] at h; simp [plus, h]
  | extracted i t => simp [CommentLine.Visible] at h; cases ignore <;> simp [plus] <;> simp_all
  | reference i t => simp [CommentLine.Visible] at h; cases ignore <;> simp [plus] <;> simp_all
  | flags i t =>
    simp [CommentLine.Visible] at h
    have : fieldsFunc isFlagSep [] = [] := rfl
    simp [plus, h, this]

theorem solid_hash : Solid 0x23 := by decide

theorem spaces_trimSpace (t : Bytes) : trimRight t = [] ↔ trimSpace t = [] := by
  rw [trimRight_nil_iff, trimSpace_nil_iff]

theorem trim_two {i : Bytes} (hi : Blank i) {c : UInt8} (hc : Solid c) (t : Bytes) :
    trimSpace (i ++ [0x23, c] ++ t) = 0x23 :: c :: trimRight t := by
  have : i ++ [0x23, c] ++ t = i ++ (0x23 :: (c :: t)) := by simp
  rw [this, trimSpace_comment (blank_spaces hi) solid_hash]
  have := trimRight_solid hc [] t
  rw [List.nil_append, List.nil_append] at this
  rw [this]

theorem trimRight_head {t : Bytes} {b : UInt8} {r : Bytes} (h : trimRight t = b :: r) : t.head? = some b := by
  obtain ⟨s, _, e, _⟩ := trimRight_spec t
  rw [h] at e
  rw [e]; rfl

theorem lineToken_hash (ignore : Bool) (last : Token) (c : UInt8) (r : Bytes) :
    lineToken ignore last (0x23 :: c :: r) = scanComment ignore last (0x23 :: c :: r) := by
  rfl

/-- A visible comment line is one token with the effect `plus`. -/
theorem comment_visible {ignore : Bool} {c : CommentLine} (hw : c.WF) (hv : c.Visible ignore) :
    ∃ t x, t.isComment = true ∧
      (∀ w last ls, tokensFrom ignore w last (c.line :: ls) = (t, x) :: tokensFrom ignore false t ls) ∧
      ∀ d, commentStep d t x = .ok (plus ignore d c) := by
  cases c with
  | translator i t =>
    obtain ⟨h1, h2, h3⟩ := hw
    simp only [CommentLine.Visible] at hv
    subst hv
    have hx : trimSpace (CommentLine.line (.translator i t)) = 0x23 :: trimRight t := by
      have : CommentLine.line (.translator i t) = i ++ (0x23 :: t) := by simp [CommentLine.line]
      rw [this, trimSpace_comment (blank_spaces h1) solid_hash]
    refine ⟨.commentTranslator, 0x23 :: trimRight t, rfl, ?_, ?_⟩
    · intro w last ls
      refine tokensFrom_line hx (by simp) ?_ ls
      show scanComment _ _ _ = _
      cases hr : trimRight t with
      | nil => rfl
      | cons b r =>
        have hb := h3 b (by rw [trimRight_head hr]; rfl)
        simp only [List.mem_cons, not_or] at hb
        unfold scanComment commentToken
        simp only
        rw [if_neg (by simp [hb]), if_neg (by simp), if_neg hb.1, if_neg hb.2.1, if_neg hb.2.2.1, if_neg hb.2.2.2.1]
    · intro d
      simp [commentStep, from?, Res.bind, plus, trimSpace_trimRight]
  | extracted i t =>
    obtain ⟨h1, h2⟩ := hw
    obtain ⟨rfl, hv⟩ := hv
    have hx := trim_two h1 (c := 0x2e) (by decide) t
    refine ⟨.commentExtracted, 0x23 :: 0x2e :: trimRight t, rfl, ?_, ?_⟩
    · intro w last ls
      refine tokensFrom_line hx (by simp) ?_ ls
      rw [lineToken_hash]
      unfold scanComment
      simp only
      rw [if_neg (fun h => hv ((spaces_trimSpace t).1 h.1)), if_neg (by simp)]
      rfl
    · intro d
      simp [commentStep, from?, Res.bind, plus, trimSpace_trimRight, hv]
  | reference i t =>
    obtain ⟨h1, h2⟩ := hw
    obtain ⟨rfl, hv⟩ := hv
    have hx := trim_two h1 (c := 0x3a) (by decide) t
    refine ⟨.commentReference, 0x23 :: 0x3a :: trimRight t, rfl, ?_, ?_⟩
    · intro w last ls
      refine tokensFrom_line hx (by simp) ?_ ls
      rw [lineToken_hash]
      unfold scanComment
      simp only
      rw [if_neg (fun h => hv ((spaces_trimSpace t).1 h.1)), if_neg (by simp)]
      rfl
    · intro d
      simp [commentStep, from?, Res.bind, plus, trimSpace_trimRight, hv]
  | flags i t =>
    obtain ⟨h1, h2⟩ := hw
    simp only [CommentLine.Visible] at hv
    have hx := trim_two h1 (c := 0x2c) (by decide) t
    refine ⟨.commentFlags, 0x23 :: 0x2c :: trimRight t, rfl, ?_, ?_⟩
    · intro w last ls
      refine tokensFrom_line hx (by simp) ?_ ls
      rw [lineToken_hash]
      unfold scanComment
      simp only
      rw [if_neg (fun h => hv ((spaces_trimSpace t).1 h.1)), if_neg (by simp)]
      rfl
    · intro d
      simp [commentStep, from?, Res.bind, plus, trimSpace_trimRight]

/-- Any other comment line is skipped. -/
theorem comment_hidden {ignore : Bool} {c : CommentLine} (hw : c.WF) (hv : ¬ c.Visible ignore) (w : Bool) (last : Token)
    (ls : List Bytes) : tokensFrom ignore w last (c.line :: ls) = tokensFrom ignore false last ls := by
  cases c with
  | translator i t =>
    obtain ⟨h1, h2, h3⟩ := hw
    simp only [CommentLine.Visible, Bool.not_eq_false] at hv
    subst hv
    have hx : trimSpace (CommentLine.line (.translator i t)) = 0x23 :: trimRight t := by
      have : CommentLine.line (.translator i t) = i ++ (0x23 :: t) := by simp [CommentLine.line]
      rw [this, trimSpace_comment (blank_spaces h1) solid_hash]
    refine tokensFrom_skip hx (by simp) ?_ ls
    show scanComment _ _ _ = _
    cases hr : trimRight t with
    | nil => rfl
    | cons b r =>
      have hb := h3 b (by rw [trimRight_head hr]; rfl)
      simp only [List.mem_cons, not_or] at hb
      unfold scanComment
      simp only
      rw [if_neg (by simp [hb]), if_pos ⟨trivial, hb.2.2.1⟩]
  | extracted i t =>
    obtain ⟨h1, h2⟩ := hw
    have hx := trim_two h1 (c := 0x2e) (by decide) t
    refine tokensFrom_skip hx (by simp) ?_ ls
    rw [lineToken_hash]
    unfold scanComment
    simp only
    split
    · rfl
    · rename_i hn
      rw [if_pos]
      refine ⟨?_, by decide⟩
      cases ignore
      · exact absurd ⟨rfl, fun h => hn ⟨(spaces_trimSpace t).2 h, .inl trivial⟩⟩ hv
      · rfl
  | reference i t =>
    obtain ⟨h1, h2⟩ := hw
    have hx := trim_two h1 (c := 0x3a) (by decide) t
    refine tokensFrom_skip hx (by simp) ?_ ls
    rw [lineToken_hash]
    unfold scanComment
    simp only
    split
    · rfl
    · rename_i hn
      rw [if_pos]
      refine ⟨?_, by decide⟩
      cases ignore
      · exact absurd ⟨rfl, fun h => hn ⟨(spaces_trimSpace t).2 h, .inr (.inl trivial)⟩⟩ hv
      · rfl
  | flags i t =>
    obtain ⟨h1, h2⟩ := hw
    have hx := trim_two h1 (c := 0x2c) (by decide) t
    refine tokensFrom_skip hx (by simp) ?_ ls
    rw [lineToken_hash]
    unfold scanComment
    simp only
    rw [if_pos]
    simp only [CommentLine.Visible, ne_eq, Decidable.not_not] at hv
    exact ⟨(spaces_trimSpace t).2 hv, .inr (.inr (.inl trivial))⟩

/-- A comment token the parser accepts whatever came before. -/
def CTok (t : Tok) : Prop := t.1.isComment = true ∧ ∀ d, ∃ d', commentStep d t.1 t.2 = .ok d'

theorem parseComment_tok {t : Token} {x : Bytes} {d d' : Comment} (h : t.isComment = true)
    (hs : commentStep d t x = .ok d') (R : List Tok) : parseComment d ((t, x) :: R) = parseComment d' R := by
  rw [parseComment, if_neg (by rintro rfl; simp [Token.isComment] at h), if_pos h, hs]
  rfl

theorem comment_lines (ignore : Bool) (cs : List CommentLine) (hw : ∀ c ∈ cs, c.WF) : ∃ T : List Tok,
    (∀ t ∈ T, CTok t) ∧ (T = [] ↔ ∀ c ∈ cs, ¬ c.Visible ignore) ∧
    (∀ d R, parseComment d (T ++ R) = parseComment (cs.foldl (plus ignore) d) R) ∧
    (∀ t T', T = t :: T' → ∀ d R, parseComment d (T' ++ R) =
      parseComment ((afterFirst ignore cs).foldl (plus ignore) d) R) ∧
    ∀ w last ls, ∃ w' last', tokensFrom ignore w last (cs.map CommentLine.line ++ ls) =
      T ++ tokensFrom ignore w' last' ls := by
  induction cs with
  | nil => exact ⟨[], by simp, by simp, fun _ _ => rfl, by simp, fun w last ls => ⟨w, last, rfl⟩⟩
  | cons c cs ih =>
    obtain ⟨T, h1, h2, h3, h5, h4⟩ := ih fun x hx => hw x (List.mem_cons_of_mem _ hx)
    by_cases hv : c.Visible ignore
    · obtain ⟨t, x, g1, g2, g3⟩ := comment_visible (hw c List.mem_cons_self) hv
      refine ⟨(t, x) :: T, ?_, ?_, ?_, ?_, ?_⟩
      · intro y hy
        rcases List.mem_cons.1 hy with rfl | hy
        · exact ⟨g1, fun d => ⟨_, g3 d⟩⟩
        · exact h1 y hy
      · simp [hv]
      · intro d R
        rw [List.cons_append, parseComment_tok g1 (g3 d), h3]
        rfl
      · intro t' T' e d R
        obtain ⟨_, rfl⟩ := List.cons.inj e
        rw [h3]
        have : afterFirst ignore (c :: cs) = cs := by
          unfold afterFirst; rw [List.dropWhile_cons_of_neg (by simpa using hv)]; rfl
        rw [this]
      · intro w last ls
        obtain ⟨w', last', h'⟩ := h4 false t ls
        exact ⟨w', last', by rw [List.map_cons, List.cons_append, g2, h']; rfl⟩
    · refine ⟨T, h1, ?_, ?_, ?_, ?_⟩
      · rw [h2]; simp [hv]
      · intro d R
        rw [h3, List.foldl_cons, flags_nil c ignore hv]
      · intro t T' e d R
        rw [h5 t T' e]
        have : afterFirst ignore (c :: cs) = afterFirst ignore cs := by
          unfold afterFirst; rw [List.dropWhile_cons_of_pos (by simpa using hv)]
        rw [this]
      · intro w last ls
        obtain ⟨w', last', h'⟩ := h4 false last ls
        exact ⟨w', last', by rw [List.map_cons, List.cons_append, comment_hidden (hw c List.mem_cons_self) hv, h']⟩

theorem foldl_addLine (ts : List Bytes) : ∀ a, a ≠ [] → ts.foldl addLine a = join [0x0a] (a :: ts) := by
  induction ts with
  | nil => intro a _; rfl
  | cons t ts ih =>
    intro a ha
    rw [List.foldl_cons, ih _ (by simp [addLine, ha]), join_cons]
    cases ts with
    | nil => simp [join, addLine, ha]
    | cons b ts => rw [join_cons, join_cons]; simp [addLine, ha]

theorem foldl_addLine_nil (ts : List Bytes) : ts.foldl addLine [] = join [0x0a] (ts.dropWhile (· = [])) := by
  induction ts with
  | nil => rfl
  | cons t ts ih =>
    rw [List.foldl_cons]
    by_cases h : t = []
    · subst h
      rw [List.dropWhile_cons_of_pos (by simp)]
      exact ih
    · rw [List.dropWhile_cons_of_neg (by simpa using h)]
      have : addLine [] t = t := by simp [addLine]
      rw [this, foldl_addLine _ _ h]

theorem dropWhile_filter (ts : List Bytes) : (ts.filter (· ≠ [])).dropWhile (· = []) = ts.filter (· ≠ []) := by
  induction ts with
  | nil => rfl
  | cons t ts ih =>
    by_cases h : t = []
    · rw [List.filter_cons_of_neg (by simpa using h), ih]
    · rw [List.filter_cons_of_pos (by simpa using h), List.dropWhile_cons_of_neg (by simpa using h)]

theorem foldl_plus_ignore (cs : List CommentLine) : ∀ d, cs.foldl (plus true) d = { d with flags := d.flags ++ flagsOf cs } := by
  induction cs with
  | nil => intro d; simp [flagsOf]
  | cons c cs ih =>
    intro d
    rw [List.foldl_cons, ih]
    cases c <;> simp [plus, flagsOf]
    rfl

theorem foldl_plus (cs : List CommentLine) : ∀ d, cs.foldl (plus false) d =
    { translator := (translatorTexts cs).foldl addLine d.translator
      extracted := (extractedTexts cs).foldl addLine d.extracted
      references := d.references ++ (referenceTexts cs).flatMap fun t => (splitByte 0x20 t).map parseReference
      flags := d.flags ++ flagsOf cs
      prevMsgContext := d.prevMsgContext
      prevMsgID := d.prevMsgID } := by
  induction cs with
  | nil => intro d; simp [flagsOf, translatorTexts, extractedTexts, referenceTexts]
  | cons c cs ih =>
    intro d
    rw [List.foldl_cons, ih]
    cases c with
    | translator i t => simp [plus, flagsOf, translatorTexts, extractedTexts, referenceTexts]
    | extracted i t =>
      by_cases h : trimSpace t = [] <;> simp [plus, flagsOf, translatorTexts, extractedTexts, referenceTexts, h]
    | reference i t =>
      by_cases h : trimSpace t = [] <;> simp [plus, flagsOf, translatorTexts, extractedTexts, referenceTexts, h]
    | flags i t =>
      simp [plus, flagsOf, translatorTexts, extractedTexts, referenceTexts]
      rfl

theorem comments_new (ignore : Bool) (cs : List CommentLine) : cs.foldl (plus ignore) .new = commentOf ignore cs := by
  cases ignore with
  | true =>
    rw [foldl_plus_ignore]
    simp [commentOf, Comment.new]
  | false =>
    rw [foldl_plus]
    have h : parseReference = fun r => referenceOf (trimSpace r) := funext parseReference_eq
    simp only [commentOf, Comment.new, foldl_addLine_nil, h, List.nil_append, extractedTexts, dropWhile_filter]
    rfl

/-! ## Entries -/

theorem fieldToks_not_comment {kw : Bytes} {t : Token} {f : Spec.PoEntry.Field} (h1 : t.isComment = false)
    (h2 : (continuation t).isComment = false) : ∀ x ∈ fieldToks kw t f, x.1.isComment = false := by
  intro x hx
  unfold fieldToks at hx
  rcases List.mem_cons.1 hx with rfl | hx
  · exact h1
  · obtain ⟨q, _, rfl⟩ := List.mem_map.1 hx; exact h2

theorem set_ne_nil {κ α : Type} [DecidableEq κ] (m : GoMap κ α) (k : κ) (v : α) : m.set k v ≠ [] := by
  cases m with
  | nil => simp [GoMap.set]
  | cons p m => obtain ⟨a, b⟩ := p; simp only [GoMap.set]; split <;> simp

theorem rest_place (R : List Tok) (rest : List Quoted) (h : ∀ q ∈ rest, q.WF) : ∀ (m : Message), m.str ≠ [] →
    messageLoop m (rest.map (fun q => (Token.msgStrPluralLine, q.text)) ++ R) =
      messageLoop { m with str := (rest.map fun q => Line.more (utf8 q.value)).foldl place m.str } R := by
  induction rest with
  | nil => intro m _; rfl
  | cons q rest ih =>
    intro m hm
    rw [List.map_cons, List.cons_append, messageLoop_step (m' := { m with str := place m.str (.more (utf8 q.value)) }) rfl,
      ih (fun y hy => h y (List.mem_cons_of_mem _ hy)) _ (set_ne_nil _ _ _)]
    · rfl
    · simp only [messageStep, decode_text (h q List.mem_cons_self).2.2, Res.bind]
      rw [if_neg (by simpa using hm)]
      rfl

theorem field_place {f : Spec.PoEntry.Field} (hf : f.WF) {ds : Bytes} (hi : IndexOk ds) (m : Message) (R : List Tok) :
    messageLoop m (fieldToks (b!"msgstr[" ++ ds ++ b!"]") .msgStrPlural f ++ R) =
      messageLoop { m with str := (linesOf (ds, f)).foldl place m.str } R := by
  unfold fieldToks
  rw [List.cons_append, messageLoop_step (m' := { m with str := m.str.set (digitsValue ds : Int) (utf8 f.first.value) }) rfl]
  · show messageLoop _ (f.rest.map (fun q => (Token.msgStrPluralLine, q.text)) ++ R) = _
    rw [rest_place R f.rest hf.2.2 _ (set_ne_nil _ _ _)]
    rfl
  · exact step_strPlural hf hi m

theorem plural_place (ignore : Bool) (fs : List (Bytes × Spec.PoEntry.Field)) : (∀ p ∈ fs, IndexOk p.1 ∧ p.2.WF) →
    ∃ T : List Tok, (∀ t ∈ T, t.1.isComment = false) ∧
    (∀ (m : Message) (R : List Tok),
      messageLoop m (T ++ R) = messageLoop { m with str := (fs.flatMap linesOf).foldl place m.str } R) ∧
    ∀ last ls, ∃ last', tokensFrom ignore false last ((Str.plural fs).lines ++ ls) =
      T ++ tokensFrom ignore false last' ls := by
  induction fs with
  | nil => intro _; exact ⟨[], by simp, fun _ _ => rfl, fun last ls => ⟨last, rfl⟩⟩
  | cons p fs ih =>
    intro hw
    obtain ⟨ds, f⟩ := p
    obtain ⟨T, h1, h2, h3⟩ := ih fun x hx => hw x (List.mem_cons_of_mem _ hx)
    obtain ⟨hi, hf⟩ := hw _ List.mem_cons_self
    refine ⟨fieldToks (b!"msgstr[" ++ ds ++ b!"]") .msgStrPlural f ++ T, ?_, ?_, ?_⟩
    · intro t ht
      rcases List.mem_append.1 ht with ht | ht
      · exact fieldToks_not_comment rfl rfl t ht
      · exact h1 t ht
    · intro m R
      rw [List.append_assoc, field_place hf hi, h2, List.flatMap_cons, List.foldl_append]
    · intro last ls
      have hl : (Str.plural ((ds, f) :: fs)).lines = f.lines (b!"msgstr[" ++ ds ++ b!"]") ++ (Str.plural fs).lines := by
        simp [Str.lines]
      obtain ⟨l1, g1⟩ := tokens_field (ignore := ignore) (w := false) (last := last) (t := .msgStrPlural)
        (kw := b!"msgstr[" ++ ds ++ b!"]") hf rfl (by simp [continuation]) rfl (lineToken_strPlural hi hf.1 _)
        ((Str.plural fs).lines ++ ls)
      obtain ⟨l2, g2⟩ := h3 l1 ls
      exact ⟨l2, by
        rw [hl, List.append_assoc (_ : List Bytes)]; exact g1.trans (by rw [g2]; exact (List.append_assoc _ _ _).symm)⟩

/-- A text whose continuation lines stand at the right place. -/
theorem place_field {m : GoMap Int Bytes} {p : Bytes × Spec.PoEntry.Field} (hk : (digitsValue p.1 : Int) ∉ m.keys)
    (hn : p.2.rest ≠ [] → digitsValue p.1 = m.length) :
    (linesOf p).foldl place m = m ++ [((digitsValue p.1 : Int), p.2.value)] := by
  obtain ⟨ds, f⟩ := p
  unfold linesOf Spec.PoEntry.Field.value
  simp only [List.foldl_cons, place] at hk hn ⊢
  rw [set_fresh hk]
  by_cases hr : f.rest = []
  · rw [hr]; simp
  · have hn := hn hr
    rw [utf8_append]
    clear hr
    generalize utf8 f.first.value = v
    induction f.rest generalizing v with
    | nil => simp [utf8]
    | cons q rest ih =>
      rw [List.map_cons, List.foldl_cons]
      have e : ((m ++ [((digitsValue ds : Int), v)]).length - 1 : Int) = digitsValue ds := by simp [hn]
      have h2 : (GoMap.get? (m ++ [((digitsValue ds : Int), v)]) (digitsValue ds : Int)).getD [] = v := strAt_last hk v
      rw [place, e, h2, set_last hk, ih, List.flatMap_cons, utf8_append, List.append_assoc]

theorem str_tokens (ignore : Bool) (s : Str) (hw : StrLoose s) : ∃ T : List Tok, (∀ t ∈ T, t.1.isComment = false) ∧
    (∀ (m : Message) (R : List Tok), messageLoop m (T ++ R) = messageLoop { m with str := strAfter m.str s } R) ∧
    ∀ last ls, ∃ last', tokensFrom ignore false last (s.lines ++ ls) = T ++ tokensFrom ignore false last' ls := by
  cases s with
  | single f =>
    refine ⟨fieldToks b!"msgstr" .msgStr f, fieldToks_not_comment rfl rfl, ?_, ?_⟩
    · intro m R
      rw [field_str hw m]; rfl
    · intro last ls
      exact tokens_field (ignore := ignore) (w := false) (last := last) (t := .msgStr) (kw := b!"msgstr") hw rfl
        (by simp [continuation]) rfl (lineToken_str hw.1 _) ls
  | plural fs => exact plural_place ignore fs hw

theorem strLoose_of_wf {s : Str} (h : s.WF) : StrLoose s := by
  cases s with
  | single f => exact h
  | plural fs => exact h.1

theorem strAfter_plural (fs : List (Bytes × Spec.PoEntry.Field)) : ∀ m : GoMap Int Bytes,
    (m.keys ++ fs.map fun p => (digitsValue p.1 : Int)).Nodup → InOrder m.length fs →
    (fs.flatMap linesOf).foldl place m = m ++ (Str.plural fs).value := by
  induction fs with
  | nil => intro m _ _; simp [Str.value]
  | cons p fs ih =>
    intro m hn ho
    have hk : (digitsValue p.1 : Int) ∉ m.keys := fun h => (List.nodup_append.1 hn).2.2 _ h _ List.mem_cons_self rfl
    rw [List.flatMap_cons, List.foldl_append, place_field hk ho.1, ih]
    · simp [Str.value]
    · simpa [GoMap.keys] using hn
    · rw [List.length_append]; exact ho.2

theorem strAfter_value {s : Str} (h : s.WF) : strAfter [] s = s.value := by
  cases s with
  | single f => rfl
  | plural fs =>
    obtain ⟨_, h2, h3⟩ := h
    show (fs.flatMap linesOf).foldl place [] = _
    rw [strAfter_plural fs [] ?_ h3, List.nil_append]
    have : (fs.map fun p => (digitsValue p.1 : Int)) = (fs.map fun p => digitsValue p.1).map Int.ofNat := by
      rw [List.map_map]; rfl
    show ([] ++ fs.map fun p : Bytes × Spec.PoEntry.Field => (digitsValue p.1 : Int)).Nodup
    rw [List.nil_append, this]
    exact h2.map _ (fun a b h e => h (Int.ofNat.inj e))

/-- The tokens of an entry with well-formed lines: `C` those of the comment lines, `M` those of the message. -/
structure LooseTokens (ignore : Bool) (e : Entry) (C M : List Tok) : Prop where
  comment : ∀ t ∈ C, CTok t
  hidden : C = [] ↔ ∀ c ∈ e.comments, ¬ c.Visible ignore
  tokens : ∀ w last ls, ∃ last', tokensFrom ignore w last (e.lines ++ ls) = C ++ (M ++ tokensFrom ignore false last' ls)
  message : ∀ m R, messageLoop m (M ++ R) = messageLoop (absorb m e) R
  parse : ∀ R, parseMessage (C ++ (M ++ R)) =
    messageLoop (opening ignore e.comments e) R
  parseRest : ∀ t C', C = t :: C' → ∀ R, parseMessage (C' ++ (M ++ R)) =
    messageLoop (opening ignore (afterFirst ignore e.comments) e) R

/-- The tokens of an entry: `C` those of the comment lines, `M` those of the message. -/
structure EntryTokens (ignore : Bool) (e : Entry) (C M : List Tok) : Prop where
  comment : ∀ t ∈ C, CTok t
  hidden : C = [] ↔ ∀ c ∈ e.comments, ¬ c.Visible ignore
  tokens : ∀ w last ls, ∃ last', tokensFrom ignore w last (e.lines ++ ls) = C ++ (M ++ tokensFrom ignore false last' ls)
  parse : ∀ R, parseMessage (C ++ (M ++ R)) = messageLoop (e.message ignore) R
  parseRest : ∀ t C', C = t :: C' → ∀ R, parseMessage (C' ++ (M ++ R)) =
    messageLoop { e.message ignore with comment := some (commentOf ignore (afterFirst ignore e.comments)) } R

theorem parseMessage_cons_comment {t : Tok} {ts : List Tok} (h : t.1.isComment = true) : parseMessage (t :: ts) =
    (parseComment .new (t :: ts)).bind fun (c, ts) => messageLoop { Message.new with comment := some c } ts := by
  obtain ⟨t, x⟩ := t
  simp only at h
  rw [parseMessage, if_pos h]

theorem parseMessage_cons_other {t : Tok} {ts : List Tok} (h : t.1.isComment = false) : parseMessage (t :: ts) =
    messageLoop .new (t :: ts) := by
  obtain ⟨t, x⟩ := t
  simp only at h
  rw [parseMessage, if_neg (by simp [h])]

theorem parseComment_stop {t : Tok} {ts : List Tok} (h : t.1.isComment = false) (hf : t.1 ≠ .failure) (d : Comment) :
    parseComment d (t :: ts) = .ok (d, t :: ts) := by
  obtain ⟨t, x⟩ := t
  simp only at h hf
  rw [parseComment, if_neg hf, if_neg (by simp [h])]

/-- The tokens of an entry without its comments. -/
structure CoreTokens (ignore : Bool) (e : Entry) (M : List Tok) : Prop where
  head : ∃ t M', M = t :: M' ∧ t.1.isComment = false ∧ t.1 ≠ .failure
  tokens : ∀ w last ls, ∃ last', tokensFrom ignore w last (e.coreLines ++ ls) = M ++ tokensFrom ignore false last' ls
  message : ∀ m R, messageLoop m (M ++ R) = messageLoop (absorb m e) R

theorem core_tokens (ignore : Bool) (e : Entry) (hw : Loose e) : ∃ M, CoreTokens ignore e M := by
  obtain ⟨_, h2, h3, h4, h5⟩ := hw
  obtain ⟨S, s1, s2, s3⟩ := str_tokens ignore e.str h5
  -- msgctxt
  obtain ⟨X, x1, x2, x3⟩ : ∃ X : List Tok, (∀ t ∈ X.head?, t.1 = .msgContext) ∧
      (∀ (m : Message) (R : List Tok),
        messageLoop m (X ++ R) = messageLoop { m with context := (e.context.map Spec.PoEntry.Field.value).getD m.context } R) ∧
      ∀ w last ls, ∃ w' last', tokensFrom ignore w last
        (optLines b!"msgctxt" e.context ++ ls) = X ++ tokensFrom ignore w' last' ls := by
    cases hc : e.context with
    | none =>
      exact ⟨[], by simp, fun _ _ => rfl, fun w last ls => ⟨w, last, rfl⟩⟩
    | some f =>
      have hf := h2 f (by rw [hc]; rfl)
      refine ⟨fieldToks b!"msgctxt" .msgContext f, by simp [fieldToks], ?_, ?_⟩
      · intro m R; rw [field_context hf]; rfl
      · intro w last ls
        obtain ⟨l1, g1⟩ := tokens_field (ignore := ignore) (w := w) (last := last) (t := .msgContext) (kw := b!"msgctxt")
          hf rfl (by simp [continuation]) rfl (lineToken_context hf.1 _) ls
        exact ⟨false, l1, g1⟩
  -- msgid_plural
  obtain ⟨P, p2, p3⟩ : ∃ P : List Tok,
      (∀ (m : Message) (R : List Tok),
        messageLoop m (P ++ R) = messageLoop { m with idPlural := (e.idPlural.map Spec.PoEntry.Field.value).getD m.idPlural } R) ∧
      ∀ last ls, ∃ last', tokensFrom ignore false last
        (optLines b!"msgid_plural" e.idPlural ++ ls) =
          P ++ tokensFrom ignore false last' ls := by
    cases hc : e.idPlural with
    | none =>
      exact ⟨[], fun _ _ => rfl, fun last ls => ⟨last, rfl⟩⟩
    | some f =>
      have hf := h4 f (by rw [hc]; rfl)
      refine ⟨fieldToks b!"msgid_plural" .msgIDPlural f, ?_, ?_⟩
      · intro m R; rw [field_idPlural hf]; rfl
      · intro last ls
        exact tokens_field (ignore := ignore) (w := false) (last := last) (t := .msgIDPlural)
          (kw := b!"msgid_plural") hf rfl (by simp [continuation]) rfl (lineToken_idPlural hf.1 _) ls
  have hid := fun w last ls => tokens_field (ignore := ignore) (w := w) (last := last) (t := .msgID) (kw := b!"msgid")
          h3 rfl (by simp [continuation]) rfl (lineToken_id h3.1 _) ls
  -- the message
  have hM : ∀ (m : Message) (R : List Tok),
      messageLoop m ((X ++ (fieldToks b!"msgid" .msgID e.id ++ (P ++ S))) ++ R) = messageLoop (absorb m e) R := by
    intro m R
    rw [List.append_assoc, x2, List.append_assoc, field_id h3, List.append_assoc, p2, s2]
    rfl
  have hne : ∃ t M', X ++ (fieldToks b!"msgid" .msgID e.id ++ (P ++ S)) = t :: M' ∧ t.1.isComment = false ∧
      t.1 ≠ .failure := by
    cases X with
    | nil => exact ⟨_, _, rfl, rfl, by simp⟩
    | cons t X =>
      have := x1 t rfl
      exact ⟨t, _, rfl, by rw [this]; rfl, by rw [this]; simp⟩
  refine ⟨X ++ (fieldToks b!"msgid" .msgID e.id ++ (P ++ S)), hne, ?_, hM⟩
  intro w last ls
  obtain ⟨w2, l2, g2⟩ := x3 w last (e.id.lines b!"msgid" ++
    (optLines b!"msgid_plural" e.idPlural ++ (e.str.lines ++ ls)))
  obtain ⟨l3, g3⟩ := hid w2 l2 (optLines b!"msgid_plural" e.idPlural ++
    (e.str.lines ++ ls))
  obtain ⟨l4, g4⟩ := p3 l3 (e.str.lines ++ ls)
  obtain ⟨l5, g5⟩ := s3 l4 ls
  refine ⟨l5, ?_⟩
  unfold Entry.coreLines
  simp only [List.append_assoc]
  rw [g2, g3, g4, g5]

/-- Comment tokens in front of those of an entry. -/
theorem parse_core {ignore : Bool} {e : Entry} {M : List Tok} (h : CoreTokens ignore e M) {C : List Tok} {d : Comment}
    (hC : ∀ t ∈ C, CTok t) (hd : ∀ R, parseComment .new (C ++ R) = parseComment d R) (R : List Tok) :
    parseMessage (C ++ (M ++ R)) = messageLoop (absorb { Message.new with comment := some d } e) R := by
  obtain ⟨t, M', hM1, hM2, hM3⟩ := h.head
  have hM := h.message { Message.new with comment := some d } R
  cases C with
  | nil =>
    have hdn : d = .new := by
      have := hd [t]
      rw [List.nil_append, parseComment_stop hM2 hM3, parseComment_stop hM2 hM3] at this
      simpa using this.symm
    rw [List.nil_append, ← hM, hM1, List.cons_append, parseMessage_cons_other hM2, hdn]
    rfl
  | cons y C =>
    rw [List.cons_append, parseMessage_cons_comment (hC y List.mem_cons_self).1, ← List.cons_append, hd, ← hM,
      hM1, List.cons_append, parseComment_stop hM2 hM3]
    rfl

theorem entry_tokens_loose (ignore : Bool) (e : Entry) (hw : Loose e) : ∃ C M, LooseTokens ignore e C M := by
  obtain ⟨C, c1, c2, c3, c5, c4⟩ := comment_lines ignore e.comments hw.1
  obtain ⟨M, hM⟩ := core_tokens ignore e hw
  refine ⟨C, M, c1, c2, ?_, hM.message, ?_, ?_⟩
  · intro w last ls
    obtain ⟨w1, l1, g1⟩ := c4 w last (e.coreLines ++ ls)
    obtain ⟨l2, g2⟩ := hM.tokens w1 l1 ls
    refine ⟨l2, ?_⟩
    unfold Entry.lines
    rw [List.append_assoc, g1, g2]
  · intro R
    rw [parse_core hM c1 (fun R => c3 .new R) R, comments_new]
    rfl
  · intro t C' e R
    rw [parse_core hM (fun x hx => c1 x (by rw [e]; exact List.mem_cons_of_mem _ hx)) (fun R => c5 t C' e .new R) R,
      comments_new]
    rfl

theorem entry_tokens (ignore : Bool) (e : Entry) (hw : e.WF) : ∃ C M, EntryTokens ignore e C M := by
  obtain ⟨h1, h2, h3, h4, h5⟩ := hw
  obtain ⟨C, M, h⟩ := entry_tokens_loose ignore e ⟨h1, h2, h3, h4, strLoose_of_wf h5⟩
  have hm : ∀ cs, opening ignore cs e = { e.message ignore with comment := some (commentOf ignore cs) } := by
    intro c
    show ({ comment := some (commentOf ignore c), context := _, id := _, idPlural := _, str := strAfter [] e.str } : Message) = _
    rw [strAfter_value h5]
    rfl
  exact ⟨C, M, h.comment, h.hidden, h.tokens, fun R => by rw [h.parse, hm]; rfl,
    fun t C' e R => by rw [h.parseRest t C' e, hm]⟩

/-- The parser reads an entry with well-formed lines. -/
theorem run_entry_loose (u : Unicode) (ignore : Bool) {e : Entry} {C M : List Tok} (h : LooseTokens ignore e C M) (st : PState) :
    run u ignore st e.lines = store u st { e.message ignore with str := strAfter [] e.str } := by
  obtain ⟨last', ht⟩ := h.tokens false .eof []
  rw [List.append_nil] at ht
  unfold run Verif.Model.Po.tokens
  have : tokensFrom ignore false last' [] = [] := rfl
  rw [ht, this, loop_eq, h.parse []]
  simp only [messageLoop, loop_nil]
  exact bind_ok _

/-- The parser reads a well-formed entry as its message. -/
theorem run_entry (u : Unicode) (ignore : Bool) (e : Entry) (hw : e.WF) (st : PState) :
    run u ignore st e.lines = store u st (e.message ignore) := by
  obtain ⟨C, M, h⟩ := entry_tokens ignore e hw
  obtain ⟨last', ht⟩ := h.tokens false .eof []
  rw [List.append_nil] at ht
  unfold run Verif.Model.Po.tokens
  have : tokensFrom ignore false last' [] = [] := rfl
  rw [ht, this, loop_eq, h.parse []]
  simp only [messageLoop, loop_nil]
  exact bind_ok _

end Verif.Proofs.Po
