import Verif.Proofs.Po.HangLine
/-!
# When the PO parser does not return: files
-/
namespace Verif.Proofs.Po
open Verif.Go Verif.Model.PoString Verif.Spec.PoString Verif.Spec.PoEntry Verif.Spec.PoHang
open Verif.Model.Po hiding Field

/-! ## Lines and tokens -/

/-- The line of a token. -/
theorem tokensFrom_split (ignore : Bool) : ∀ (ls : List Bytes) (w : Bool) (last : Token) (TA : List Tok) (t : Tok) (R : List Tok),
    t.1 ≠ .whitespace → tokensFrom ignore w last ls = TA ++ t :: R →
    ∃ A l rest, ls = A ++ l :: rest ∧ tokensFrom ignore w last A = TA ∧ isBlankLine l = false ∧ trimSpace l = t.2 ∧
      lineToken ignore (lastTok last TA) t.2 = some t.1 ∧ tokensFrom ignore false t.1 rest = R := by
  intro ls
  induction ls with
  | nil => intro w last TA t R _ h; simp [tokensFrom] at h
  | cons l ls ih =>
    intro w last TA t R ht h
    rw [tokensFrom] at h
    split at h
    · rename_i hb
      split at h
      · rename_i hw
        obtain ⟨A, l', rest, rfl, h1, h2⟩ := ih _ _ _ _ _ ht h
        exact ⟨l :: A, l', rest, rfl, by rw [tokensFrom, if_pos hb, if_pos hw]; exact h1, h2⟩
      · rename_i hw
        cases TA with
        | nil =>
          rw [List.nil_append] at h
          exact absurd (by rw [← (List.cons.inj h).1]) ht
        | cons x TA =>
          rw [List.cons_append] at h
          obtain ⟨rfl, h'⟩ := List.cons.inj h
          obtain ⟨A, l', rest, rfl, h1, h2⟩ := ih _ _ _ _ _ ht h'
          refine ⟨l :: A, l', rest, rfl, by rw [tokensFrom, if_pos hb, if_neg hw, h1], ?_⟩
          rw [lastTok_cons]; exact h2
    · rename_i hb
      cases hl : lineToken ignore last (trimSpace l) with
      | none =>
        rw [hl] at h
        obtain ⟨A, l', rest, rfl, h1, h2⟩ := ih _ _ _ _ _ ht h
        exact ⟨l :: A, l', rest, rfl, by rw [tokensFrom, if_neg hb, hl]; exact h1, h2⟩
      | some t' =>
        rw [hl] at h
        cases TA with
        | nil =>
          rw [List.nil_append] at h
          obtain ⟨rfl, h'⟩ := List.cons.inj h
          exact ⟨[], l, ls, rfl, rfl, by simpa using hb, rfl, hl, h'⟩
        | cons x TA =>
          rw [List.cons_append] at h
          obtain ⟨rfl, h'⟩ := List.cons.inj h
          obtain ⟨A, l', rest, rfl, h1, h2⟩ := ih _ _ _ _ _ ht h'
          refine ⟨l :: A, l', rest, rfl, by rw [tokensFrom, if_neg hb, hl]; simp only [h1], ?_⟩
          rw [lastTok_cons]; exact h2

/-- The tokens of lines after other lines. -/
theorem tokensFrom_concat (ignore : Bool) (B : List Bytes) : ∀ (A : List Bytes) (w : Bool) (last : Token),
    ∃ w', tokensFrom ignore w last (A ++ B) =
      tokensFrom ignore w last A ++ tokensFrom ignore w' (lastTok last (tokensFrom ignore w last A)) B := by
  intro A
  induction A with
  | nil => intro w last; exact ⟨w, rfl⟩
  | cons l A ih =>
    intro w last
    rw [List.cons_append, tokensFrom, tokensFrom]
    split
    · split
      · exact ih _ _
      · obtain ⟨w', h⟩ := ih true .whitespace
        exact ⟨w', by rw [h, lastTok_cons]; rfl⟩
    · cases hl : lineToken ignore last (trimSpace l) with
      | none => exact ih _ _
      | some t =>
        obtain ⟨w', h⟩ := ih false t
        refine ⟨w', ?_⟩
        simp only
        rw [h, lastTok_cons]; rfl

theorem tokensFrom_visible (ignore w w' : Bool) (last : Token) {l : Bytes} (h : isBlankLine l = false) (ls : List Bytes) :
    tokensFrom ignore w last (l :: ls) = tokensFrom ignore w' last (l :: ls) := by
  rw [tokensFrom, tokensFrom, if_neg (by simp [h]), if_neg (by simp [h])]

/-- Which lines are skipped. -/
theorem skipped_line {ignore : Bool} {last : Token} {l : Bytes} (hb : isBlankLine l = false) :
    lineToken ignore last (trimSpace l) = none ↔ Skipped ignore l := by
  unfold Skipped CommentLike lineToken
  generalize hx : trimSpace l = x
  have hne : x ≠ [] := by
    intro e; rw [e] at hx
    simp [isBlankLine, hx] at hb
  split
  · rename_i hh
    match x, hh with
    | [c], hh =>
      simp only [List.head?_cons, Option.some.injEq] at hh
      subst hh
      cases ignore <;> simp [scanComment]
    | c :: d :: rest, hh =>
      simp only [List.head?_cons, Option.some.injEq] at hh
      subst hh
      simp only [scanComment]
      by_cases h1 : rest = [] ∧ (d = 0x2e ∨ d = 0x3a ∨ d = 0x2c ∨ d = 0x7c)
      · rw [if_pos h1]
        obtain ⟨rfl, h1⟩ := h1
        simp only [true_iff]
        left
        rcases h1 with rfl | rfl | rfl | rfl <;> decide
      · rw [if_neg h1]
        have hn : ¬ (0x23 :: d :: rest) ∈ [b!"#.", b!"#:", b!"#,", b!"#|"] := by
          intro hm
          simp only [List.mem_cons, List.cons.injEq, true_and, List.not_mem_nil, or_false] at hm
          apply h1
          rcases hm with ⟨a, b⟩ | ⟨a, b⟩ | ⟨a, b⟩ | ⟨a, b⟩ <;> exact ⟨b, by simp [a]⟩
        by_cases h2 : ignore = true ∧ d ≠ 0x2c
        · rw [if_pos h2]
          simp only [true_iff]
          right
          refine ⟨h2.1, ⟨d :: rest, rfl⟩, ?_⟩
          rintro ⟨r, hr⟩
          simp only [List.cons_append, List.nil_append, List.cons.injEq, true_and] at hr
          exact h2.2 hr.1.symm
        · rw [if_neg h2]
          simp only [reduceCtorEq, false_iff, not_or]
          refine ⟨hn, fun ⟨a, _, b⟩ => h2 ⟨a, ?_⟩⟩
          rintro rfl
          exact b ⟨rest, rfl⟩
  · rename_i hh
    have : ¬ b!"#" <+: x := by
      rintro ⟨r, rfl⟩
      exact hh rfl
    constructor
    · intro h; split at h <;> cases h
    · rintro (h | ⟨_, h, _⟩)
      · exfalso
        simp only [List.mem_cons, List.not_mem_nil, or_false] at h
        rcases h with rfl | rfl | rfl | rfl <;> exact hh rfl
      · exact absurd h this

theorem blank_not_skipped {ignore : Bool} {l : Bytes} (hb : isBlankLine l = true) : ¬ Skipped ignore l := by
  have hb : trimSpace l = [] := by simpa [isBlankLine] using hb
  unfold Skipped CommentLike
  rw [hb]
  rintro (h | ⟨_, h, _⟩)
  · revert h; decide
  · revert h; decide

/-- The last token comes from the last line that is looked at. -/
theorem lastSeen_token (ignore : Bool) : ∀ (A : List Bytes) (w : Bool) (last : Token), (w = true → last = .whitespace) →
    match lastSeen ignore A with
    | none => tokensFrom ignore w last A = []
    | some p => (BlankLine p ∧ lastTok last (tokensFrom ignore w last A) = .whitespace) ∨
      (¬ BlankLine p ∧ ∃ last', lineToken ignore last' (trimSpace p) = some (lastTok last (tokensFrom ignore w last A))) := by
  intro A
  induction A with
  | nil => intro w last _; rfl
  | cons l A ih =>
    intro w last hw
    have hcons : lastSeen ignore (l :: A) = if Skipped ignore l then lastSeen ignore A else
        some ((lastSeen ignore A).getD l) := by
      unfold lastSeen
      by_cases h : Skipped ignore l
      · rw [List.filter_cons_of_neg (by simpa using h), if_pos h]
      · rw [List.filter_cons_of_pos (by simpa using h), if_neg h, List.getLast?_cons]
    by_cases hb : isBlankLine l = true
    · rw [hcons, if_neg (blank_not_skipped hb)]
      have hbl : BlankLine l := by unfold BlankLine; simpa [isBlankLine] using hb
      have hlt : lastTok last (tokensFrom ignore w last (l :: A)) =
          lastTok .whitespace (tokensFrom ignore true .whitespace A) := by
        rw [tokensFrom, if_pos hb]
        by_cases hw1 : w = true
        · rw [if_pos hw1, hw hw1]
        · rw [if_neg hw1, lastTok_cons]
      have := ih true .whitespace (fun _ => rfl)
      simp only []
      rw [hlt]
      cases hs : lastSeen ignore A with
      | none =>
        rw [hs] at this
        simp only [] at this
        rw [this]
        exact .inl ⟨hbl, rfl⟩
      | some p => rw [hs] at this; exact this
    · have hb : isBlankLine l = false := by simpa using hb
      cases hl : lineToken ignore last (trimSpace l) with
      | none =>
        rw [hcons, if_pos ((skipped_line hb).1 hl)]
        have ht : tokensFrom ignore w last (l :: A) = tokensFrom ignore false last A := by
          rw [tokensFrom, if_neg (by simp [hb]), hl]
        rw [ht]
        exact ih false last (by simp)
      | some t =>
        have hk : ¬ Skipped ignore l := fun h => by
          rw [(skipped_line hb).2 h] at hl; cases hl
        rw [hcons, if_neg hk]
        have ht : tokensFrom ignore w last (l :: A) = (t, trimSpace l) :: tokensFrom ignore false t A := by
          rw [tokensFrom, if_neg (by simp [hb]), hl]
        have := ih false t (by simp)
        simp only []
        rw [ht, lastTok_cons]
        cases hs : lastSeen ignore A with
        | none =>
          rw [hs] at this
          simp only [] at this
          rw [this]
          refine .inr ⟨fun h => ?_, last, hl⟩
          unfold BlankLine at h
          simp only [isBlankLine, decide_eq_false_iff_not] at hb
          exact hb h
        | some p => rw [hs] at this; exact this

/-- The tokens of comment lines. -/
theorem comment_token {ignore : Bool} {last t : Token} {x : Bytes} (h : lineToken ignore last x = some t)
    (hc : b!"#" <+: x) : t.isComment = true ∨ t = .failure ∨ t = .commentPrevUnknown := by
  obtain ⟨r, rfl⟩ := hc
  unfold lineToken at h
  rw [if_pos (by rfl)] at h
  match r, h with
  | [], h =>
    simp only [scanComment, List.append_nil] at h
    split at h
    · cases h
    · cases h; exact .inl rfl
  | d :: rest, h =>
    simp only [scanComment, List.cons_append, List.nil_append] at h
    split at h
    · cases h
    · split at h
      · cases h
      · cases h
        unfold commentToken prevContinuation
        repeat' split
        all_goals simp [Token.isComment]

/-- The tokens of lines of messages. -/
theorem message_token {ignore : Bool} {last t : Token} {x : Bytes} (h : lineToken ignore last x = some t)
    (hc : ¬ b!"#" <+: x) : (Token.inMessage t = true ∧ t = scanMessage last x) ∨ t = .failure := by
  have hh : x.head? ≠ some 0x23 := by
    intro e
    cases x with
    | nil => cases e
    | cons a x => simp only [List.head?_cons, Option.some.injEq] at e; subst e; exact hc ⟨x, rfl⟩
  unfold lineToken at h
  rw [if_neg hh] at h
  have hs : Token.inMessage (scanMessage last x) = true ∨ scanMessage last x = .failure ∨ scanMessage last x = .none := by
    unfold scanMessage continuation
    repeat' split
    all_goals first | exact .inl rfl | exact .inr (.inl rfl) | exact .inr (.inr rfl)
  split at h
  · cases h; exact .inr rfl
  · cases h
    rcases hs with hs | hs | hs
    · exact .inl ⟨hs, rfl⟩
    · exact .inr hs
    · rename_i hn; exact absurd hs hn

/-- The token of a line that is no comment depends on the last token only if there is no keyword. -/
theorem token_fresh {ignore : Bool} {last last' t : Token} {x : Bytes} (h : lineToken ignore last x = some t)
    (hc : ¬ b!"#" <+: x) (hl : Token.inMessage last = false) (ht : t ≠ .failure) : lineToken ignore last' x = some t := by
  have hh : x.head? ≠ some 0x23 := by
    intro e
    cases x with
    | nil => cases e
    | cons a x => simp only [List.head?_cons, Option.some.injEq] at e; subst e; exact hc ⟨x, rfl⟩
  unfold lineToken at h ⊢
  rw [if_neg hh] at h ⊢
  have hcl : continuation last = .none := by unfold Token.inMessage at hl; simpa using hl
  have e : scanMessage last x = .none ∨ scanMessage last' x = scanMessage last x := by
    unfold scanMessage
    rw [hcl]
    split
    · exact .inr rfl
    · split
      · exact .inr rfl
      · split
        · exact .inr rfl
        · split
          · exact .inr rfl
          · split
            · exact .inl rfl
            · exact .inr rfl
  rcases e with e | e
  · rw [e] at h; cases h; exact absurd rfl ht
  · rw [e]; exact h

end Verif.Proofs.Po
