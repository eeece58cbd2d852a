import Verif.Proofs.Po.Adjacent
import Verif.Spec.Previous
/-!
# Comments with the previous message
-/
namespace Verif.Proofs.Po
open Verif.Go Verif.Model.PoString Verif.Spec.PoString Verif.Spec.PoEntry Verif.Spec.Previous
open Verif.Spec.Adjacent Verif.Spec.PluralLines
open Verif.Model.Po hiding Field

/-- A byte of a keyword or a blank. -/
def Thin (b : UInt8) : Prop := b = 0x20 ∨ b = 0x09 ∨ b = 0x0d ∨ (Solid b ∧ b ≠ 0x22 ∧ b ≠ 0x0a)

theorem thin_split {p : Bytes} (h : ∀ b ∈ p, Thin b) : ∃ a p', p = a ++ p' ∧ Blank a ∧ ∀ b ∈ p'.head?, Solid b := by
  induction p with
  | nil => exact ⟨[], [], rfl, nofun, nofun⟩
  | cons b p ih =>
    by_cases hb : Solid b
    · exact ⟨[], b :: p, rfl, nofun, by rintro x ⟨⟩; exact hb⟩
    · obtain ⟨a, p', rfl, h1, h2⟩ := ih fun x hx => h x (List.mem_cons_of_mem _ hx)
      refine ⟨b :: a, p', rfl, ?_, h2⟩
      intro x hx
      rcases List.mem_cons.1 hx with rfl | hx
      · rcases h x List.mem_cons_self with e | e | e | ⟨e, _⟩
        · exact .inl e
        · exact .inr (.inl e)
        · exact .inr (.inr e)
        · exact absurd e hb
      · exact h1 x hx

theorem trimSpace_thin {p : Bytes} (h : ∀ b ∈ p, Thin b) (q : Quoted) :
    ∃ p', (∀ b ∈ p', b ∈ p) ∧ trimSpace (p ++ q.text) = p' ++ q.text := by
  obtain ⟨a, p', rfl, h1, h2⟩ := thin_split h
  refine ⟨p', fun b hb => List.mem_append_right _ hb, ?_⟩
  have key : ∀ c s, Solid c → p' ++ q.text = c :: (s ++ [0x22]) → trimSpace ((a ++ p') ++ q.text) = p' ++ q.text := by
    intro c s hc e
    have := trimSpace_around (blank_spaces h1) (blank_spaces (s := []) nofun) hc (y := 0x22) (by decide) s
    rw [List.append_nil] at this
    rw [List.append_assoc, e, this]
  cases p' with
  | nil => exact key 0x22 (utf8 q.body) (by decide) rfl
  | cons c p' =>
    exact key c (p' ++ (0x22 :: utf8 q.body)) (h2 c rfl) (by simp [Quoted.text])

theorem decode_thin {p : Bytes} (h : ∀ b ∈ p, Thin b) {q : Quoted} (hq : q.WF) :
    trimSpace (p ++ q.text) ≠ [] ∧ decode (trimSpace (p ++ q.text)) = .ok (utf8 q.value) := by
  obtain ⟨p', h1, h2⟩ := trimSpace_thin h q
  rw [h2]
  refine ⟨by simp [Quoted.text], ?_⟩
  refine decode_quoted hq.2.2 (fun hm => ?_) (fun hm => ?_)
  · rcases h _ (h1 _ hm) with e | e | e | ⟨_, e, _⟩
    · exact absurd e (by decide)
    · exact absurd e (by decide)
    · exact absurd e (by decide)
    · exact e rfl
  · rcases h _ (h1 _ hm) with e | e | e | ⟨_, _, e⟩
    · exact absurd e (by decide)
    · exact absurd e (by decide)
    · exact absurd e (by decide)
    · exact e rfl

theorem thin_blank {s : Bytes} (h : Blank s) : ∀ b ∈ s, Thin b := by
  intro b hb
  rcases h b hb with e | e | e
  · exact .inl e
  · exact .inr (.inl e)
  · exact .inr (.inr (.inl e))

theorem thin_keyword (k : Kind) : ∀ b ∈ k.keyword, Thin b := by
  intro b hb
  refine .inr (.inr (.inr ?_))
  revert b
  cases k <;> decide

/-- The tokens of a previous text. -/
def _root_.Verif.Spec.Previous.Kind.tok : Kind → Token
  | .context => .commentPrevContext
  | .id | .plural => .commentPrevMsgID

/-- The trimmed first line and the trimmed continuation lines. -/
def prevFirst (p : Prev) : Bytes := b!"#|" ++ (p.gap ++ (p.kind.keyword ++ (p.sep ++ p.first.text)))

def prevRest (r : Bytes × Quoted) : Bytes := b!"#|" ++ (r.1 ++ r.2.text)

theorem trim_prevFirst {p : Prev} (h : p.WF) : trimSpace (p.first.indent ++ prevFirst p ++ p.first.trail) = prevFirst p := by
  have e : prevFirst p = 0x23 :: ((0x7c :: (p.gap ++ (p.kind.keyword ++ (p.sep ++ (0x22 :: utf8 p.first.body))))) ++ [0x22]) := by
    simp [prevFirst, Quoted.text]
  rw [e]
  exact trimSpace_around (blank_spaces h.2.2.2.1.1) (blank_spaces h.2.2.2.1.2.1) (by decide) (by decide) _

theorem trim_prevRest {r : Bytes × Quoted} (h : r.2.WF) : trimSpace (r.2.indent ++ prevRest r ++ r.2.trail) = prevRest r := by
  have e : prevRest r = 0x23 :: ((0x7c :: (r.1 ++ (0x22 :: utf8 r.2.body))) ++ [0x22]) := by
    simp [prevRest, Quoted.text]
  rw [e]
  exact trimSpace_around (blank_spaces h.1) (blank_spaces h.2.1) (by decide) (by decide) _

theorem matchPrev {gap : Bytes} (hne : gap ≠ []) (hg : Blank gap) {x : UInt8} (hx : isBlankByte x = false) (s : Bytes)
    (k : Bytes → Bool) : matchPrefix b!"#|" (matchBlanks1 k) (b!"#|" ++ (gap ++ x :: s)) = k (x :: s) := by
  cases gap with
  | nil => exact absurd rfl hne
  | cons b gap =>
    have hb := blank_isBlankByte hg b List.mem_cons_self
    have hd := dropWhile_blank (gap := gap) (fun y hy => hg y (List.mem_cons_of_mem _ hy)) hx s
    unfold matchPrefix
    show (true && matchBlanks1 k (b :: (gap ++ x :: s))) = _
    rw [matchBlanks1, hb, hd]
    rfl

theorem scan_prev {ignore : Bool} {last : Token} {g : Bytes} (hne : g ≠ []) (rest : Bytes) :
    lineToken ignore last (b!"#|" ++ (g ++ rest)) =
      if ignore then none else some (commentToken last 0x7c (b!"#|" ++ (g ++ rest))) := by
  show scanComment ignore last (0x23 :: 0x7c :: (g ++ rest)) = _
  unfold scanComment
  simp only
  rw [if_neg (by simp [hne])]
  cases ignore
  · rfl
  · rfl

theorem token_prevFirst {p : Prev} (h : p.WF) (last : Token) : commentToken last 0x7c (prevFirst p) = p.kind.tok := by
  obtain ⟨h1, h2, _⟩ := h
  have hx : isBlankByte 0x6d = false := by decide
  unfold commentToken prevFirst
  rw [if_neg (by decide), if_neg (by decide), if_neg (by decide), if_pos rfl]
  unfold rePrevMsgContextComments rePrevMsgIDComments
  cases p.kind with
  | context =>
    rw [if_pos]
    · rfl
    · exact matchPrev h1 h2 hx (b!"sgctxt" ++ (p.sep ++ p.first.text)) _
  | id =>
    rw [if_neg, if_pos]
    · rfl
    · exact matchPrev h1 h2 hx (b!"sgid" ++ (p.sep ++ p.first.text)) _
    · have := matchPrev h1 h2 hx (b!"sgid" ++ (p.sep ++ p.first.text)) (matchPrefix b!"msgctxt" fun _ => true)
      exact fun h => absurd (this.symm.trans h) Bool.false_ne_true
  | plural =>
    rw [if_neg, if_pos]
    · rfl
    · exact matchPrev h1 h2 hx (b!"sgid_plural" ++ (p.sep ++ p.first.text)) _
    · have := matchPrev h1 h2 hx (b!"sgid_plural" ++ (p.sep ++ p.first.text)) (matchPrefix b!"msgctxt" fun _ => true)
      exact fun h => absurd (this.symm.trans h) Bool.false_ne_true

theorem token_prevRest {r : Bytes × Quoted} (h1 : r.1 ≠ []) (h2 : Blank r.1) (last : Token) :
    commentToken last 0x7c (prevRest r) = prevContinuation last := by
  have hx : isBlankByte 0x22 = false := by decide
  unfold commentToken prevRest
  rw [if_neg (by decide), if_neg (by decide), if_neg (by decide), if_pos rfl]
  have key := fun k => matchPrev h1 h2 hx (utf8 r.2.body ++ [0x22]) k
  unfold rePrevMsgContextComments rePrevMsgIDComments rePrevStringLineComments
  rw [if_neg, if_neg, if_pos]
  · exact (key _).trans (matchQuoted_text r.2)
  · exact fun h => absurd ((key _).symm.trans h) Bool.false_ne_true
  · exact fun h => absurd ((key _).symm.trans h) Bool.false_ne_true

/-- The effect of a previous text. -/
def addPrev (k : Kind) (v : Bytes) (d : Comment) : Comment :=
  match k with
  | .context => { d with prevMsgContext := d.prevMsgContext ++ v }
  | .id | .plural => { d with prevMsgID := d.prevMsgID ++ v }

theorem addPrev_append (k : Kind) (v w : Bytes) (d : Comment) : addPrev k w (addPrev k v d) = addPrev k (v ++ w) d := by
  cases k <;> simp [addPrev]

theorem decodePrev_thin {p : Bytes} (h : ∀ b ∈ p, Thin b) {q : Quoted} (hq : q.WF) (old : Bytes) :
    decodePrev old (p ++ q.text) = .ok (old ++ utf8 q.value) := by
  obtain ⟨h1, h2⟩ := decode_thin h hq
  unfold decodePrev
  rw [if_neg h1, h2]
  rfl

theorem step_prevFirst {p : Prev} (h : p.WF) (d : Comment) :
    commentStep d p.kind.tok (prevFirst p) = .ok (addPrev p.kind (utf8 p.first.value) d) := by
  obtain ⟨h1, h2, h3, h4, _⟩ := h
  have hlen : 1 ≤ p.gap.length := List.length_pos_iff.2 h1
  have ht : ∀ b ∈ b!"#|" ++ (p.gap ++ (p.kind.keyword ++ p.sep)), Thin b := by
    intro b hb
    rcases List.mem_append.1 hb with hb | hb
    · have key : ∀ b ∈ b!"#|", Solid b ∧ b ≠ 0x22 ∧ b ≠ 0x0a := by decide
      exact .inr (.inr (.inr (key b hb)))
    · rcases List.mem_append.1 hb with hb | hb
      · exact thin_blank h2 b hb
      · rcases List.mem_append.1 hb with hb | hb
        · exact thin_keyword _ b hb
        · exact thin_blank h3 b hb
  have hs : prevFirst p = (b!"#|" ++ (p.gap ++ (p.kind.keyword ++ p.sep))) ++ p.first.text := by simp [prevFirst]
  have hf : ∀ n, n ≤ 3 + p.kind.keyword.length → from? n (prevFirst p) =
      .ok ((b!"#|" ++ (p.gap ++ (p.kind.keyword ++ p.sep))).drop n ++ p.first.text) := by
    intro n hn
    have hl : n ≤ (b!"#|" ++ (p.gap ++ (p.kind.keyword ++ p.sep))).length := by
      simp only [List.length_append, List.length_cons, List.length_nil]; omega
    rw [hs]
    unfold from?
    rw [if_pos (by rw [List.length_append]; omega), List.drop_append_of_le_length hl]
  have hd := fun n old => decodePrev_thin (fun b hb => ht b (List.mem_of_mem_drop hb)) h4 old (p := (b!"#|" ++ (p.gap ++ (p.kind.keyword ++ p.sep))).drop n)
  cases hk : p.kind with
  | context =>
    have := hf 10 (by rw [hk]; decide)
    show (from? 10 (prevFirst p)).bind _ = _
    rw [this]
    simp only [Res.bind, hd]
    rfl
  | id =>
    have := hf 8 (by rw [hk]; decide)
    show (from? 8 (prevFirst p)).bind _ = _
    rw [this]
    simp only [Res.bind, hd]
    rfl
  | plural =>
    have := hf 8 (by rw [hk]; decide)
    show (from? 8 (prevFirst p)).bind _ = _
    rw [this]
    simp only [Res.bind, hd]
    rfl

theorem step_prevRest {r : Bytes × Quoted} (h2 : Blank r.1) (hq : r.2.WF) (k : Kind) (d : Comment) :
    commentStep d (prevContinuation k.tok) (prevRest r) = .ok (addPrev k (utf8 r.2.value) d) := by
  have hf : from? 2 (prevRest r) = .ok (r.1 ++ r.2.text) := by
    unfold from? prevRest; rw [if_pos (by simp)]; rfl
  obtain ⟨_, hd⟩ := decode_thin (thin_blank h2) hq
  cases k <;>
  · simp only [Kind.tok, prevContinuation, commentStep, hf, Res.bind, hd]
    rfl

theorem prev_cont (k : Kind) : prevContinuation (prevContinuation k.tok) = prevContinuation k.tok := by cases k <;> rfl

theorem prev_rest (k : Kind) (rs : List (Bytes × Quoted)) (h : ∀ r ∈ rs, r.1 ≠ [] ∧ Blank r.1 ∧ r.2.WF) : ∃ T : List Tok,
    (∀ t ∈ T, CTok t) ∧
    (∀ d R, parseComment d (T ++ R) = parseComment (addPrev k (utf8 (rs.flatMap fun r => r.2.value)) d) R) ∧
    ∀ last, (last = k.tok ∨ last = prevContinuation k.tok) → ∀ ls, ∃ last', tokensFrom false false last
      (rs.map (fun r => r.2.indent ++ prevRest r ++ r.2.trail) ++ ls) = T ++ tokensFrom false false last' ls := by
  induction rs with
  | nil =>
    refine ⟨[], nofun, ?_, fun last _ ls => ⟨last, rfl⟩⟩
    intro d R
    have : addPrev k (utf8 (List.flatMap (fun r : Bytes × Quoted => r.2.value) [])) d = d := by
      cases k <;> simp [addPrev, utf8]
    rw [this]; rfl
  | cons r rs ih =>
    obtain ⟨T, i1, i2, i3⟩ := ih fun x hx => h x (List.mem_cons_of_mem _ hx)
    obtain ⟨g1, g2, g3⟩ := h r List.mem_cons_self
    have hc : (prevContinuation k.tok).isComment = true := by cases k <;> rfl
    refine ⟨(prevContinuation k.tok, prevRest r) :: T, ?_, ?_, ?_⟩
    · intro t ht
      rcases List.mem_cons.1 ht with rfl | ht
      · exact ⟨hc, fun d => ⟨_, step_prevRest g2 g3 k d⟩⟩
      · exact i1 t ht
    · intro d R
      rw [List.cons_append, parseComment_tok hc (step_prevRest g2 g3 k d), i2, addPrev_append, List.flatMap_cons, utf8_append]
    · intro last hl ls
      have hcl : prevContinuation last = prevContinuation k.tok := by
        rcases hl with rfl | rfl
        · rfl
        · exact prev_cont k
      obtain ⟨last', h'⟩ := i3 _ (.inr rfl) ls
      refine ⟨last', ?_⟩
      have hl : lineToken false last (prevRest r) = some (prevContinuation k.tok) := by
        unfold prevRest
        rw [scan_prev g1, if_neg (by simp)]
        show some (commentToken last 0x7c (prevRest r)) = _
        rw [token_prevRest g1 g2, hcl]
      rw [List.map_cons, List.cons_append, tokensFrom_line (trim_prevRest g3) (by simp [prevRest]) hl, h']
      rfl

theorem skip_lines {w : Bool} {last : Token} (ls xs : List Bytes)
    (h : ∀ x ∈ xs, ∃ y, trimSpace x = y ∧ y ≠ [] ∧ ∀ last, lineToken true last y = none) :
    ∃ w', tokensFrom true w last (xs ++ ls) = tokensFrom true w' last ls := by
  induction xs generalizing w with
  | nil => exact ⟨w, rfl⟩
  | cons x xs ih =>
    obtain ⟨y, h1, h2, h3⟩ := h x List.mem_cons_self
    rw [List.cons_append, tokensFrom_skip h1 h2 (h3 last)]
    exact ih fun z hz => h z (List.mem_cons_of_mem _ hz)

/-- The effect of a part of a comment. -/
def plusPart (ignore : Bool) (d : Comment) : Part → Comment
  | .comment c => plus ignore d c
  | .prev p => if ignore then d else addPrev p.kind p.value d

theorem part_tokens (ignore : Bool) {p : Part} (h : p.WF) : ∃ T : List Tok, (∀ t ∈ T, CTok t) ∧
    (∀ d R, parseComment d (T ++ R) = parseComment (plusPart ignore d p) R) ∧
    ∀ w last ls, ∃ w' last', tokensFrom ignore w last (p.lines ++ ls) = T ++ tokensFrom ignore w' last' ls := by
  cases p with
  | comment c =>
    obtain ⟨T, h1, _, h3, _, h4⟩ := comment_lines ignore [c] (fun x hx => by rw [List.mem_singleton.1 hx]; exact h)
    exact ⟨T, h1, h3, h4⟩
  | prev p =>
    have h : p.WF := h
    cases ignore with
    | true =>
      refine ⟨[], nofun, fun _ _ => rfl, ?_⟩
      intro w last ls
      obtain ⟨w', h'⟩ := skip_lines (w := w) (last := last) ls p.lines (by
        intro x hx
        rcases List.mem_cons.1 hx with rfl | hx
        · exact ⟨_, trim_prevFirst h, by simp [prevFirst], fun last => scan_prev h.1 _⟩
        · obtain ⟨r, hr, rfl⟩ := List.mem_map.1 hx
          obtain ⟨g1, g2, g3⟩ := h.2.2.2.2 r hr
          exact ⟨_, trim_prevRest g3, by simp [prevRest], fun last => scan_prev g1 _⟩)
      exact ⟨w', last, h'⟩
    | false =>
      obtain ⟨T, i1, i2, i3⟩ := prev_rest p.kind p.rest h.2.2.2.2
      have hc : p.kind.tok.isComment = true := by cases p.kind <;> rfl
      refine ⟨(p.kind.tok, prevFirst p) :: T, ?_, ?_, ?_⟩
      · intro t ht
        rcases List.mem_cons.1 ht with rfl | ht
        · exact ⟨hc, fun d => ⟨_, step_prevFirst h d⟩⟩
        · exact i1 t ht
      · intro d R
        rw [List.cons_append, parseComment_tok hc (step_prevFirst h d), i2, addPrev_append, ← utf8_append]
        rfl
      · intro w last ls
        obtain ⟨last', h'⟩ := i3 p.kind.tok (.inl rfl) ls
        refine ⟨false, last', ?_⟩
        have hl : lineToken false last (prevFirst p) = some p.kind.tok := by
          unfold prevFirst
          rw [scan_prev h.1, if_neg (by simp)]
          show some (commentToken last 0x7c (prevFirst p)) = _
          rw [token_prevFirst h]
        show tokensFrom false w last ((p.first.indent ++ prevFirst p ++ p.first.trail) ::
          (p.rest.map (fun r => r.2.indent ++ prevRest r ++ r.2.trail) ++ ls)) = _
        rw [tokensFrom_line (trim_prevFirst h) (by simp [prevFirst]) hl, h']
        rfl

theorem parts_tokens (ignore : Bool) (ps : List Part) (h : ∀ p ∈ ps, p.WF) : ∃ T : List Tok, (∀ t ∈ T, CTok t) ∧
    (∀ d R, parseComment d (T ++ R) = parseComment (ps.foldl (plusPart ignore) d) R) ∧
    ∀ w last ls, ∃ w' last', tokensFrom ignore w last (ps.flatMap Part.lines ++ ls) = T ++ tokensFrom ignore w' last' ls := by
  induction ps with
  | nil => exact ⟨[], nofun, fun _ _ => rfl, fun w last ls => ⟨w, last, rfl⟩⟩
  | cons p ps ih =>
    obtain ⟨T, i1, i2, i3⟩ := ih fun x hx => h x (List.mem_cons_of_mem _ hx)
    obtain ⟨S, j1, j2, j3⟩ := part_tokens ignore (h p List.mem_cons_self)
    refine ⟨S ++ T, ?_, ?_, ?_⟩
    · intro t ht
      rcases List.mem_append.1 ht with ht | ht
      · exact j1 t ht
      · exact i1 t ht
    · intro d R
      rw [List.append_assoc, j2, i2]
      rfl
    · intro w last ls
      obtain ⟨w1, l1, e1⟩ := j3 w last (ps.flatMap Part.lines ++ ls)
      obtain ⟨w2, l2, e2⟩ := i3 w1 l1 ls
      exact ⟨w2, l2, by rw [List.flatMap_cons, List.append_assoc, e1, e2, List.append_assoc]⟩

theorem plus_prev (ignore : Bool) (d : Comment) (a b : Bytes) (c : CommentLine) :
    plus ignore { d with prevMsgContext := a, prevMsgID := b } c =
      { plus ignore d c with prevMsgContext := a, prevMsgID := b } := by
  cases c <;> simp only [plus] <;> (repeat' split) <;> rfl

theorem foldl_parts (ps : List Part) : ∀ (d : Comment) (a b : Bytes),
    ps.foldl (plusPart false) { d with prevMsgContext := a, prevMsgID := b } =
      { (commentsIn ps).foldl (plus false) d with
        prevMsgContext := a ++ textsIn [.context] ps, prevMsgID := b ++ textsIn [.id, .plural] ps } := by
  induction ps with
  | nil => intro d a b; simp [commentsIn, textsIn]
  | cons p ps ih =>
    intro d a b
    cases p with
    | comment c =>
      rw [List.foldl_cons]
      show List.foldl (plusPart false) (plus false _ c) ps = _
      rw [plus_prev, ih]
      rfl
    | prev p =>
      rw [List.foldl_cons]
      have hx : ∀ ks, textsIn ks (.prev p :: ps) = (if p.kind ∈ ks then p.value else []) ++ textsIn ks ps := fun ks => rfl
      rw [hx, hx]
      show List.foldl (plusPart false) (addPrev p.kind p.value _) ps = _
      cases hk : p.kind with
      | context =>
        show List.foldl (plusPart false) { d with prevMsgContext := a ++ p.value, prevMsgID := b } ps = _
        rw [ih]; simp [commentsIn]
      | id =>
        show List.foldl (plusPart false) { d with prevMsgContext := a, prevMsgID := b ++ p.value } ps = _
        rw [ih]; simp [commentsIn]
      | plural =>
        show List.foldl (plusPart false) { d with prevMsgContext := a, prevMsgID := b ++ p.value } ps = _
        rw [ih]; simp [commentsIn]

theorem foldl_parts_ignore (ps : List Part) : ∀ d, ps.foldl (plusPart true) d = (commentsIn ps).foldl (plus true) d := by
  induction ps with
  | nil => intro d; rfl
  | cons p ps ih =>
    intro d
    cases p with
    | comment c => exact ih _
    | prev p => exact ih _

theorem parts_new (ignore : Bool) (ps : List Part) : ps.foldl (plusPart ignore) .new = commentRead ignore ps := by
  cases ignore with
  | true => rw [foldl_parts_ignore, comments_new]; rfl
  | false =>
    have := foldl_parts ps .new [] []
    rw [comments_new] at this
    exact this

/-- The parser reads an entry with previous texts among its comments. -/
theorem run_parts (u : Unicode) (ignore : Bool) {ps : List Part} (h : ∀ p ∈ ps, p.WF) {e : Entry} (he : e.WF) (st : PState) :
    run u ignore st (ps.flatMap Part.lines ++ e.coreLines) =
      store u st { e.message ignore with comment := some (commentRead ignore ps) } := by
  obtain ⟨w1, w2, w3, w4, w5⟩ := he
  obtain ⟨T, t1, t2, t3⟩ := parts_tokens ignore ps h
  obtain ⟨M, hM⟩ := core_tokens ignore e ⟨w1, w2, w3, w4, strLoose_of_wf w5⟩
  obtain ⟨wa, la, ea⟩ := t3 false .eof e.coreLines
  obtain ⟨lb, eb⟩ := hM.tokens wa la []
  rw [List.append_nil] at eb
  have hnil : tokensFrom ignore false lb [] = [] := rfl
  unfold run Verif.Model.Po.tokens
  rw [ea, eb, hnil, loop_eq, parse_core hM t1 (fun R => t2 .new R) [], parts_new]
  have hm : absorb { Message.new with comment := some (commentRead ignore ps) } e =
      { e.message ignore with comment := some (commentRead ignore ps) } := by
    show ({ comment := _, context := _, id := _, idPlural := _, str := strAfter [] e.str } : Message) = _
    rw [strAfter_value w5]
    rfl
  rw [hm]
  simp only [messageLoop, loop_nil]
  exact bind_ok _

end Verif.Proofs.Po
