import Verif.Proofs.Po.HangRun
/-!
# When the PO parser does not return: the whole file
-/
namespace Verif.Proofs.Po
open Verif.Go Verif.Model.PoString Verif.Spec.PoString Verif.Spec.PoEntry Verif.Spec.PoHang
open Verif.Model.Po hiding Field

/-! ## The lines of a message -/

theorem blankLine_iff {l : Bytes} : isBlankLine l = true ↔ BlankLine l := by simp [isBlankLine, BlankLine]

theorem not_blankLine {l : Bytes} (h : ¬ BlankLine l) : isBlankLine l = false := by
  cases hb : isBlankLine l with
  | true => exact absurd (blankLine_iff.1 hb) h
  | false => rfl

theorem noBreak_tokens {ignore : Bool} : ∀ {P : List Bytes} {w : Bool} {last : Token}, NoBreak ignore P →
    ∀ x ∈ tokensFrom ignore w last P, Token.inMessage x.1 = true ∨ x.1 = .failure := by
  intro P
  induction P with
  | nil => intro w last _ x hx; cases hx
  | cons l P ih =>
    intro w last hn x hx
    obtain ⟨hb, hc⟩ := hn l List.mem_cons_self
    have hb := not_blankLine hb
    have hn' : NoBreak ignore P := fun y hy => hn y (List.mem_cons_of_mem _ hy)
    rw [tokensFrom, if_neg (by simp [hb])] at hx
    cases hl : lineToken ignore last (trimSpace l) with
    | none => rw [hl] at hx; exact ih hn' x hx
    | some t =>
      rw [hl] at hx
      have hnc : ¬ CommentLike l := fun h => by
        rw [(skipped_line (last := last) hb).2 (hc h)] at hl; cases hl
      rcases List.mem_cons.1 hx with rfl | hx
      · exact (message_token hl hnc).imp And.left id
      · exact ih hn' x hx

theorem tokens_noBreak {ignore : Bool} : ∀ {P : List Bytes} {last : Token},
    (∀ x ∈ tokensFrom ignore false last P, Token.inMessage x.1 = true) → NoBreak ignore P := by
  intro P
  induction P with
  | nil => intro last _ l hl; cases hl
  | cons l P ih =>
    intro last h
    rw [tokensFrom] at h
    split at h
    · have := h _ List.mem_cons_self
      cases this
    · rename_i hb
      have hb' : ¬ BlankLine l := fun e => hb (blankLine_iff.2 e)
      cases hl : lineToken ignore last (trimSpace l) with
      | none =>
        rw [hl] at h
        intro y hy
        rcases List.mem_cons.1 hy with rfl | hy
        · exact ⟨hb', fun _ => (skipped_line (by simpa using hb)).1 hl⟩
        · exact ih h y hy
      | some t =>
        rw [hl] at h
        intro y hy
        rcases List.mem_cons.1 hy with rfl | hy
        · refine ⟨hb', fun hc => ?_⟩
          have ht : Token.inMessage t = true := h (t, _) List.mem_cons_self
          rcases comment_token hl hc with e | rfl | rfl
          · have := inMessage_not_ends ht
            simp [Token.endsMessage, e] at this
          · cases ht
          · cases ht
        · exact ih (fun x hx => h x (List.mem_cons_of_mem _ hx)) y hy

/-- The tokens of the lines of a message that starts with a keyword do not depend on what is read before. -/
theorem tokens_fresh {ignore : Bool} : ∀ {P : List Bytes} {w : Bool} {last : Token}, NoBreak ignore P →
    (∀ x ∈ tokensFrom ignore w last P, Token.inMessage x.1 = true) → Token.inMessage last = false →
    ∀ w' last', tokensFrom ignore w' last' P = tokensFrom ignore w last P := by
  intro P
  induction P with
  | nil => intros; rfl
  | cons l P ih =>
    intro w last hn h hlast w' last'
    obtain ⟨hb, hc⟩ := hn l List.mem_cons_self
    have hb := not_blankLine hb
    have hn' : NoBreak ignore P := fun y hy => hn y (List.mem_cons_of_mem _ hy)
    have hb' : ¬ isBlankLine l = true := by simp [hb]
    rw [tokensFrom, if_neg hb'] at h
    rw [tokensFrom, if_neg hb', tokensFrom, if_neg hb']
    cases hl : lineToken ignore last (trimSpace l) with
    | none =>
      rw [hl] at h
      rw [(skipped_line (last := last') hb).2 ((skipped_line hb).1 hl)]
      exact ih hn' h hlast _ _
    | some t =>
      rw [hl] at h
      have hnc : ¬ CommentLike l := fun hcc => by
        rw [(skipped_line (last := last) hb).2 (hc hcc)] at hl; cases hl
      have ht : Token.inMessage t = true := h (t, _) List.mem_cons_self
      rw [token_fresh (last' := last') hl hnc hlast (by rintro rfl; cases ht)]

/-! ## The state of the parser -/

theorem inMessage_not_comment {t : Token} (h : Token.inMessage t = true) : t.isComment = false := by
  have := inMessage_not_ends h
  unfold Token.endsMessage at this
  cases hc : t.isComment with
  | true => simp [hc] at this
  | false => rfl

theorem inComment_message (u : Unicode) (st : PState) (c : Comment) {t : Token} (lit : Bytes) (ts : List Tok)
    (h : Token.inMessage t = true) :
    inComment u st c ((t, lit) :: ts) = cont u st { Message.new with comment := some c } ((t, lit) :: ts) := by
  unfold inComment
  rw [parseComment, if_neg (by rintro rfl; cases h), if_neg (by simp [inMessage_not_comment h])]

theorem cont_hang (u : Unicode) (st : PState) {m : Message} {t : Token} {x : Bytes} (R : List Tok)
    (ht : t.endsMessage = false) (h : messageStep m t x = .hang) : cont u st m ((t, x) :: R) = .hang := by
  unfold cont
  rw [messageLoop, if_neg (by simp [ht]), h]; rfl

theorem inComment_hang (u : Unicode) (st : PState) {c : Comment} {t : Token} {x : Bytes} (R : List Tok)
    (ht : t.isComment = true) (h : commentStep c t x = .hang) : inComment u st c ((t, x) :: R) = .hang := by
  unfold inComment
  rw [parseComment, if_neg (by rintro rfl; cases ht), if_pos ht, h]; rfl

/-- The state after the tokens `T`: within a message, or between messages and in comments. -/
def After (u : Unicode) (T : List Tok) : Prop :=
  (∃ m st', Token.inMessage (lastTok .eof T) = true ∧
    (lastTok .eof T = .msgStrPlural ∨ lastTok .eof T = .msgStrPluralLine → m.str ≠ []) ∧
    ∀ TB, loop u ⟨none, []⟩ (T ++ TB) = cont u st' m TB) ∨
  ((T = [] ∨ (lastTok .eof T).endsMessage = true) ∧ ∃ st',
    ((∀ TB, loop u ⟨none, []⟩ (T ++ TB) = loop u st' TB) ∨ ∃ c, ∀ TB, loop u ⟨none, []⟩ (T ++ TB) = inComment u st' c TB))

/-- The tokens of a message that is accepted on its own. -/
theorem run_message {u : Unicode} {ignore : Bool} {P : List Bytes} {st st' : PState} (h : run u ignore st P = .ok st')
    (hn : NoBreak ignore P) : (∀ x ∈ tokens ignore P, Token.inMessage x.1 = true) ∧
      ∃ m, messageLoop .new (tokens ignore P) = .ok (m, []) ∧
        (lastTok .eof (tokens ignore P) = .msgStrPlural ∨ lastTok .eof (tokens ignore P) = .msgStrPluralLine → m.str ≠ []) := by
  have hx := noBreak_tokens (w := false) (last := .eof) hn
  unfold run at h
  change ∀ x ∈ tokens ignore P, _ at hx
  revert h hx
  generalize tokens ignore P = T
  intro h hx
  match T, h, hx with
  | [], _, _ => exact ⟨by simp, .new, rfl, by simp [lastTok]⟩
  | (t, lit) :: T, h, hx =>
    have ht : t.isComment = false := by
      rcases hx _ List.mem_cons_self with h | h
      · exact inMessage_not_comment h
      · have h : t = .failure := h
        rw [h]; rfl
    rw [loop_start u st lit T ht] at h
    unfold cont at h
    obtain ⟨⟨m, r⟩, h1, _⟩ := bind_eq_ok.1 h
    rcases messageLoop_open _ h1 with ⟨pre, e, he, hee, _⟩ | ⟨rfl, hin, _, _, hl⟩
    · exfalso
      rcases hx e (by rw [he]; simp) with h | h
      · rw [inMessage_not_ends h] at hee; cases hee
      · rw [h] at hee; cases hee
    · exact ⟨hin, m, h1, hl⟩

/-- The state after the lines of complete messages and lines of a message. -/
theorem after_lines {u : Unicode} {ignore : Bool} {A P : List Bytes} {stA stP : PState}
    (hA : run u ignore ⟨none, []⟩ A = .ok stA) (hP : run u ignore ⟨none, []⟩ P = .ok stP) (hn : NoBreak ignore P) :
    After u (tokens ignore (A ++ P)) := by
  obtain ⟨hin, m1, hm1, hs1⟩ := run_message hP hn
  obtain ⟨w', hw⟩ := tokensFrom_concat ignore P A false .eof
  have hP' : tokensFrom ignore w' (lastTok .eof (tokensFrom ignore false .eof A)) P = tokens ignore P :=
    tokens_fresh hn hin rfl _ _
  have hT : tokens ignore (A ++ P) = tokens ignore A ++ tokens ignore P := by
    rw [← hP']; exact hw
  have ho := loop_open u _ (tokens ignore A) (Nat.le_refl _) hA
  rw [hT]
  generalize tokens ignore A = TA at ho ⊢
  generalize tokens ignore P = TP at hin hm1 hs1 ⊢
  match TP, hin, hm1, hs1 with
  | [], _, _, _ => rw [List.append_nil]; exact ho
  | (t, lit) :: TP, hin, hm1, hs1 =>
    have hlast : lastTok .eof (TA ++ (t, lit) :: TP) = lastTok .eof ((t, lit) :: TP) := by
      rw [lastTok_append, lastTok_indep (by simp)]
    have hend : ∀ x ∈ (t, lit) :: TP, x.1.endsMessage = false := fun x hx => inMessage_not_ends (hin x hx)
    have hti : Token.inMessage t = true := hin (t, lit) List.mem_cons_self
    have hlin : Token.inMessage (lastTok .eof ((t, lit) :: TP)) = true := by
      unfold lastTok
      cases hg : ((t, lit) :: TP).getLast? with
      | none => simp at hg
      | some x => exact hin x (List.mem_of_getLast? hg)
    have key : ∀ m st', (∀ TB, loop u ⟨none, []⟩ (TA ++ ((t, lit) :: TP ++ TB)) = cont u st' m ((t, lit) :: TP ++ TB)) →
        After u (TA ++ (t, lit) :: TP) := by
      intro m st' h
      obtain ⟨m3, h3, h4⟩ := messageLoop_mono _ (m2 := m) hend hm1 (fun h => absurd rfl h)
      refine .inl ⟨m3, st', by rw [hlast]; exact hlin, by rw [hlast]; exact fun e => h4 (hs1 e), fun TB => ?_⟩
      rw [List.append_assoc, h TB]
      unfold cont
      rw [h3]
    rcases ho with ⟨m, st', _, _, h⟩ | ⟨_, st', h | ⟨c, h⟩⟩
    · exact key m st' fun TB => h _
    · exact key .new st' fun TB => by
        rw [h, List.cons_append]; exact loop_start u st' lit _ (inMessage_not_comment hti)
    · exact key { Message.new with comment := some c } st' fun TB => by
        rw [h, List.cons_append]; exact inComment_message u st' c lit _ hti

/-! ## Lines that are stuck -/

theorem lineToken_message {ignore : Bool} {last : Token} {x : Bytes} (h : x.head? ≠ some 0x23) {t : Token}
    (hs : scanMessage last x = t) (ht : t ≠ .none) : lineToken ignore last x = some t := by
  unfold lineToken
  rw [if_neg h, hs]
  cases t <;> first | rfl | exact absurd rfl ht

theorem lineToken_comment {ignore : Bool} {last : Token} {x : Bytes} (h : x.head? = some 0x23) :
    lineToken ignore last x = scanComment ignore last x := by
  unfold lineToken
  rw [if_pos h]

/-- A line with the token of a previous text. -/
theorem prev_line {ignore : Bool} {last t : Token} {x : Bytes} (h : lineToken ignore last x = some t)
    (ht : Token.isPrev t = true) : b!"#|" <+: x := by
  have hc : b!"#" <+: x := by
    apply Classical.byContradiction
    intro hnc
    rcases message_token h hnc with ⟨hi, _⟩ | rfl
    · revert hi ht; cases t <;> decide
    · cases ht
  obtain ⟨r, rfl⟩ := hc
  rw [lineToken_comment (by rfl)] at h
  match r, h with
  | [], h =>
    simp only [scanComment, List.append_nil] at h
    split at h
    · cases h
    · cases h; cases ht
  | d :: rest, h =>
    simp only [scanComment, List.cons_append, List.nil_append] at h
    split at h
    · cases h
    · split at h
      · cases h
      · cases h
        by_cases hd : d = 0x7c
        · subst hd; exact ⟨rest, rfl⟩
        · exfalso
          unfold commentToken at ht
          rw [if_neg hd] at ht
          repeat' split at ht
          all_goals cases ht

theorem hang_of_stuck {u : Unicode} {ignore : Bool} {B : List Bytes} {l : Bytes} (ha : After u (tokens ignore B))
    (ho : OneLine (trimSpace l)) (hs : Stuck ignore B l) (rest : List Bytes) :
    run u ignore ⟨none, []⟩ (B ++ l :: rest) = .hang := by
  obtain ⟨w', hw⟩ := tokensFrom_concat ignore (l :: rest) B false .eof
  have hseen := lastSeen_token ignore B false .eof (by simp)
  -- the token of the line
  have go : ∀ {t : Token}, trimSpace l ≠ [] →
      lineToken ignore (lastTok .eof (tokens ignore B)) (trimSpace l) = some t →
      run u ignore ⟨none, []⟩ (B ++ l :: rest) =
        loop u ⟨none, []⟩ (tokens ignore B ++ (t, trimSpace l) :: tokensFrom ignore false t rest) := by
    intro t hne ht
    unfold run
    have hb : isBlankLine l = false := not_blankLine hne
    have : tokens ignore (B ++ l :: rest) = _ := hw
    rw [this, tokensFrom, if_neg (by simp [hb])]
    unfold tokens at ht
    rw [ht]; rfl
  have hseen : match lastSeen ignore B with
    | none => tokens ignore B = []
    | some p => (BlankLine p ∧ lastTok .eof (tokens ignore B) = .whitespace) ∨
      (¬ BlankLine p ∧ ∃ last', lineToken ignore last' (trimSpace p) = some (lastTok .eof (tokens ignore B))) := hseen
  generalize tokens ignore B = T at ha hseen go
  rcases hs with hk | ⟨⟨body, hop⟩, p, hp, hnb, hnc⟩ | ⟨rfl, hpre, hp⟩ | ⟨rfl, ⟨gap, text, body, hne, hg, ht, e⟩, p, hp, hpp⟩
  · obtain ⟨hh, t, ht, _, hscan, hhang⟩ := openKeyword_scan ho hk
    have hne : trimSpace l ≠ [] := by
      intro e
      have := hscan .eof
      rw [e] at this
      rw [← this] at ht
      revert ht; decide
    rw [go hne (lineToken_message hh (hscan _) (by rintro rfl; cases ht))]
    rcases ha with ⟨m, st', _, _, h⟩ | ⟨_, st', h | ⟨c, h⟩⟩
    · rw [h]; exact cont_hang u st' _ (inMessage_not_ends ht) (hhang _)
    · rw [h, loop_start u st' _ _ (inMessage_not_comment ht)]
      exact cont_hang u st' _ (inMessage_not_ends ht) (hhang _)
    · rw [h, inComment_message u st' c _ _ ht]
      exact cont_hang u st' _ (inMessage_not_ends ht) (hhang _)
  · rw [hp] at hseen
    simp only [] at hseen
    rcases hseen with ⟨hb, _⟩ | ⟨_, last', hl⟩
    · exact absurd hb hnb
    · have hla : Token.inMessage (lastTok .eof T) = true := by
        rcases ha with ⟨_, _, h, _⟩ | ⟨h, _⟩
        · exact h
        · rcases message_token hl hnc with ⟨h', _⟩ | h'
          · exact h'
          · rcases h with rfl | h
            · cases h'
            · rw [h'] at h; cases h
      rcases ha with ⟨m, st', _, hm, h⟩ | ⟨h, _⟩
      · obtain ⟨hh, hscan⟩ := open_scan hop.1 (lastTok .eof T)
        have hc : continuation (lastTok .eof T) ≠ .none := by simpa [Token.inMessage] using hla
        have hin : Token.inMessage (continuation (lastTok .eof T)) = true := by
          revert hla
          cases lastTok .eof T <;> decide
        rw [go (by rw [hop.1]; simp) (lineToken_message hh hscan hc), h]
        exact cont_hang u st' _ (inMessage_not_ends hin) (step_continuation ho hla hm 
          (by simpa using (open_dangling (pre := []) (k := 0) (by simp) hop.1 (Nat.le_refl _)).2 hop.2))
      · rcases h with rfl | h
        · cases hla
        · rw [inMessage_not_ends hla] at h; cases h
  · obtain ⟨hh, t, ht, hscan, hhang⟩ := openPrevious_scan ho hpre
    have hnm : Token.inMessage (lastTok .eof T) = false := by
      cases hs : lastSeen false B with
      | none => rw [hs] at hseen; simp only [] at hseen; rw [hseen]; rfl
      | some p =>
        rw [hs] at hseen
        simp only [] at hseen
        rcases hseen with ⟨_, e⟩ | ⟨hnb, last', hl⟩
        · rw [e]; rfl
        · rcases hp p hs with hb | hc
          · exact absurd hb hnb
          · rcases comment_token hl hc with e | e | e
            · cases hi : Token.inMessage (lastTok .eof T) with
              | false => rfl
              | true => rw [inMessage_not_comment hi] at e; cases e
            · rw [e]; rfl
            · rw [e]; rfl
    have hne : trimSpace l ≠ [] := by intro e; rw [e] at hh; cases hh
    rw [go hne (by rw [lineToken_comment hh]; exact hscan _)]
    rcases ha with ⟨_, _, h, _⟩ | ⟨_, st', h | ⟨c, h⟩⟩
    · rw [hnm] at h; cases h
    · rw [h, loop_comment u st' _ _ ht]; exact inComment_hang u st' _ ht (hhang _)
    · rw [h]; exact inComment_hang u st' _ ht (hhang _)
  · rw [hp] at hseen
    simp only [] at hseen
    rcases hseen with ⟨hb, _⟩ | ⟨_, last', hl⟩
    · unfold BlankLine at hb; rw [hb] at hpp; exact absurd hpp (by decide)
    · have hcl : b!"#" <+: trimSpace p := by
        obtain ⟨r, hr⟩ := hpp
        exact ⟨b!"|" ++ r, by rw [← hr]; rfl⟩
      have hnm : Token.inMessage (lastTok .eof T) = false := by
        rcases comment_token hl hcl with e | e | e
        · cases hi : Token.inMessage (lastTok .eof T) with
          | false => rfl
          | true => rw [inMessage_not_comment hi] at e; cases e
        · rw [e]; rfl
        · rw [e]; rfl
      rcases ha with ⟨_, _, h, _⟩ | ⟨hT, st', h⟩
      · rw [hnm] at h; cases h
      · have hprev : Token.isPrev (lastTok .eof T) = true := by
          obtain ⟨r, hr⟩ := hpp
          have hend : (lastTok .eof T).endsMessage = true := by
            rcases hT with rfl | h
            · rfl
            · exact h
          rw [← hr] at hl
          rw [lineToken_comment (by rfl)] at hl
          revert hl hend
          generalize lastTok .eof T = t
          intro hl hend
          simp only [List.cons_append, List.nil_append, scanComment] at hl
          split at hl
          · cases hl
          · rw [if_neg (by simp)] at hl
            cases hl
            simp only [commentToken] at hend ⊢
            rw [if_neg (by decide), if_neg (by decide), if_neg (by decide), if_pos (by decide)] at hend ⊢
            split
            · rfl
            · split
              · rfl
              · split
                · rename_i h1 h2 h3
                  rw [if_neg h1, if_neg h2, if_pos h3] at hend
                  revert hend
                  cases last' <;> decide
                · rename_i h1 h2 h3
                  rw [if_neg h1, if_neg h2, if_neg h3] at hend
                  cases hend
        obtain ⟨hh, t, ht', hscan, hhang⟩ := prevLine_scan ho hne hg ht e hprev
        have hne : trimSpace l ≠ [] := by intro e; rw [e] at hh; cases hh
        rw [go hne (by rw [lineToken_comment hh]; exact hscan)]
        rcases h with h | ⟨c, h⟩
        · rw [h, loop_comment u st' _ _ ht']; exact inComment_hang u st' _ ht' (hhang _)
        · rw [h]; exact inComment_hang u st' _ ht' (hhang _)

/-! ## Files that hang -/

theorem store_first (u : Unicode) (m : Message) : ∃ st, store u ⟨none, []⟩ m = .ok st := by
  by_cases hid : m.id = []
  · rcases store_header (u := u) (st := ⟨none, []⟩) hid with ⟨_, h, _⟩ | ⟨st, h, _⟩
    · exact absurd rfl h
    · exact ⟨st, h⟩
  · rcases store_message (u := u) (st := ⟨none, []⟩) hid with ⟨h, _⟩ | ⟨_, st, h, _⟩
    · exact absurd rfl h
    · exact ⟨st, h⟩

theorem stuck_of_hang {u : Unicode} {ignore : Bool} {ls : List Bytes} (h1 : ∀ l ∈ ls, OneLine l)
    (h : run u ignore ⟨none, []⟩ ls = .hang) :
    ∃ A P l rest, ls = A ++ P ++ l :: rest ∧ (∃ st, run u ignore ⟨none, []⟩ A = .ok st) ∧
      (∃ st, run u ignore ⟨none, []⟩ P = .ok st) ∧ NoBreak ignore P ∧ Stuck ignore (A ++ P) l := by
  unfold run at h
  obtain ⟨TA, TP, t, R, stA, hT, hA, hend, hcase⟩ := loop_hang u _ _ (Nat.le_refl _) h
  have hws : t.1 ≠ .whitespace := by
    intro e
    rcases hcase with ⟨_, h, _⟩ | ⟨_, h, _⟩
    · rw [e] at h; cases h
    · rw [e] at h; cases h
  obtain ⟨B, l, rest, rfl, hB, hb, hx, hl, _⟩ := tokensFrom_split ignore _ _ _ _ _ _ hws hT
  have hB : tokens ignore B = TA ++ TP := hB
  have ho : OneLine (trimSpace l) := oneLine_trim (h1 l (by simp))
  have hxx : trimSpace (trimSpace l) = trimSpace l := trimSpace_idem l
  rw [← hx] at hl
  have hseen : match lastSeen ignore B with
    | none => tokens ignore B = []
    | some p => (BlankLine p ∧ lastTok .eof (tokens ignore B) = .whitespace) ∨
      (¬ BlankLine p ∧ ∃ last', lineToken ignore last' (trimSpace p) = some (lastTok .eof (tokens ignore B))) :=
    lastSeen_token ignore B false .eof (by simp)
  rw [hB] at hseen
  rcases hcase with ⟨rfl, htc, c, hs⟩ | ⟨hin, hte, m, m', hm, hloop, hs⟩
  · rw [List.append_nil] at hB hseen hl
    refine ⟨B, [], l, rest, by simp, ⟨stA, by unfold run; rw [hB]; exact hA⟩, ⟨⟨none, []⟩, rfl⟩, (by intro x hx; cases hx), ?_⟩
    rw [List.append_nil]
    have hh : (trimSpace l).head? = some 0x23 := by
      apply Classical.byContradiction
      intro hh
      have hnc : ¬ b!"#" <+: trimSpace l := by rintro ⟨r, hr⟩; rw [← hr] at hh; exact hh rfl
      rcases message_token hl hnc with ⟨h, _⟩ | h
      · rw [inMessage_not_comment h] at htc; cases htc
      · rw [h] at htc; cases htc
    rw [lineToken_comment hh] at hl
    rw [← hx] at hs
    obtain ⟨rfl, hcase⟩ := scanComment_hang hxx ho hl htc hs
    rcases hcase with hp | ⟨hq, hprev⟩
    · refine .inr (.inr (.inl ⟨rfl, hp, fun p hp => ?_⟩))
      rw [hp] at hseen
      simp only [] at hseen
      rcases hseen with ⟨hb, _⟩ | ⟨_, last', hl'⟩
      · exact .inl hb
      · right
        apply Classical.byContradiction
        intro hnc
        rcases message_token hl' hnc with ⟨h, _⟩ | h
        · rcases hend with rfl | he
          · cases h
          · rw [inMessage_not_ends h] at he; cases he
        · rcases hend with rfl | he
          · cases h
          · rw [h] at he; cases he
    · refine .inr (.inr (.inr ⟨rfl, hq, ?_⟩))
      cases hse : lastSeen false B with
      | none =>
        rw [hse] at hseen
        simp only [] at hseen
        rw [hseen] at hprev
        cases hprev
      | some p =>
        rw [hse] at hseen
        simp only [] at hseen
        refine ⟨p, rfl, ?_⟩
        rcases hseen with ⟨_, e⟩ | ⟨_, last', hl'⟩
        · rw [e] at hprev; cases hprev
        · exact prev_line hl' hprev
  · have hns : Stuck ignore B l := by
      have hnc : ¬ b!"#" <+: trimSpace l := by
        intro hc
        rcases comment_token hl hc with e | e | e
        · simp [Token.endsMessage, e] at hte
        · rw [e] at hs; cases hs
        · rw [e] at hs; cases hs
      rcases message_token hl hnc with ⟨_, e⟩ | e
      · rw [e, ← hx] at hs
        rcases scan_hang hxx ho hs with hk | ⟨hop, hla⟩
        · exact .inl hk
        · refine .inr (.inl ⟨hop, ?_⟩)
          cases hse : lastSeen ignore B with
          | none =>
            rw [hse] at hseen
            simp only [] at hseen
            rw [hseen] at hla
            cases hla
          | some p =>
            rw [hse] at hseen
            simp only [] at hseen
            rcases hseen with ⟨_, e⟩ | ⟨hnb, last', hl'⟩
            · rw [e] at hla; cases hla
            · refine ⟨p, rfl, hnb, fun hc => ?_⟩
              rcases comment_token hl' hc with e | e | e
              · rw [inMessage_not_comment hla] at e; cases e
              · rw [e] at hla; cases hla
              · rw [e] at hla; cases hla
      · rw [e] at hs; cases hs
    cases TP with
    | nil =>
      rw [List.append_nil] at hB
      exact ⟨B, [], l, rest, by simp, ⟨stA, by unfold run; rw [hB]; exact hA⟩, ⟨⟨none, []⟩, rfl⟩, (by intro x hx; cases hx),
        by rw [List.append_nil]; exact hns⟩
    | cons x TP =>
      have hxi : Token.inMessage x.1 = true := hin x List.mem_cons_self
      obtain ⟨A, l0, rest0, rfl, hA0, hb0, hx0, hl0, hr0⟩ := tokensFrom_split ignore B false .eof TA x TP
        (by intro e; rw [e] at hxi; cases hxi) hB
      have hlast : Token.inMessage (lastTok .eof TA) = false := by
        rcases hend with rfl | he
        · rfl
        · cases hi : Token.inMessage (lastTok .eof TA) with
          | false => rfl
          | true => rw [inMessage_not_ends hi] at he; cases he
      have hP : tokensFrom ignore false (lastTok .eof TA) (l0 :: rest0) = x :: TP := by
        rw [tokensFrom, if_neg (by simp [hb0]), hx0, hl0]; simp only []; rw [hr0]
      have hn : NoBreak ignore (l0 :: rest0) := tokens_noBreak (last := lastTok .eof TA) (by rw [hP]; exact hin)
      have hP' : tokens ignore (l0 :: rest0) = x :: TP := by
        have := tokens_fresh hn (w := false) (last := lastTok .eof TA) (by rw [hP]; exact hin) hlast false .eof
        rw [hP] at this; exact this
      refine ⟨A, l0 :: rest0, l, rest, by simp, ⟨stA, by unfold run tokens; rw [hA0]; exact hA⟩, ?_, hn, hns⟩
      unfold run
      rw [hP']
      obtain ⟨tx, lx⟩ := x
      rw [loop_start u _ lx TP (inMessage_not_comment hxi)]
      obtain ⟨m3, h3, _⟩ := messageLoop_mono _ (m2 := .new) (fun y hy => inMessage_not_ends (hin y hy)) hloop
        (fun h => absurd hm h)
      have h3 := h3 []
      rw [List.append_nil] at h3
      unfold cont
      rw [h3]
      obtain ⟨st, hst⟩ := store_first u m3
      refine ⟨st, ?_⟩
      simp only [messageLoop, Res.bind]
      rw [hst]; rfl

/-- The files on which the parser does not return. -/
theorem run_hang_iff {u : Unicode} {ignore : Bool} {ls : List Bytes} (h1 : ∀ l ∈ ls, OneLine l) :
    run u ignore ⟨none, []⟩ ls = .hang ↔
    ∃ A P l rest, ls = A ++ P ++ l :: rest ∧ (∃ st, run u ignore ⟨none, []⟩ A = .ok st) ∧
      (∃ st, run u ignore ⟨none, []⟩ P = .ok st) ∧ NoBreak ignore P ∧ Stuck ignore (A ++ P) l := by
  constructor
  · exact stuck_of_hang h1
  · rintro ⟨A, P, l, rest, rfl, ⟨_, hA⟩, ⟨_, hP⟩, hn, hs⟩
    exact hang_of_stuck (after_lines hA hP hn) (oneLine_trim (h1 l (by simp))) hs rest

end Verif.Proofs.Po
