import Verif.Proofs.Po.Blocks
/-!
# The parser on any sequence of entries
-/
namespace Verif.Proofs.Po
open Verif.Go Verif.Model.PoString Verif.Spec.PoString Verif.Spec.PoEntry
open Verif.Spec.Adjacent
open Verif.Model.Po hiding Field

theorem cont_message (u : Unicode) (st : PState) {m m' : Message} {ts ts' : List Tok} (h : messageLoop m ts = messageLoop m' ts') :
    cont u st m ts = cont u st m' ts' := by
  unfold cont; rw [h]

theorem cont_end (u : Unicode) (ignore : Bool) {tail : List Bytes} (ht : ∀ l ∈ tail, BlankLine l) (st : PState) (m : Message)
    (last : Token) : cont u st m (tokensFrom ignore false last tail) = (store u st m).bind .ok :=
  cont_blocks u ignore tail ht [] nofun nofun st m last

theorem cont_any (u : Unicode) (ignore : Bool) (tail : List Bytes) (ht : ∀ l ∈ tail, BlankLine l) (bs : List Block) :
    (∀ b ∈ bs, (∀ l ∈ b.1, BlankLine l) ∧ Loose b.2) → ∀ (st : PState) (m : Message) (last : Token),
    cont u st m (tokensFrom ignore false last (blockLines bs ++ tail)) = storeAll u st (readOn ignore m bs) := by
  induction bs with
  | nil =>
    intro _ st m last
    exact cont_end u ignore ht st m last
  | cons b bs ih =>
    intro hw st m last
    obtain ⟨g, e⟩ := b
    obtain ⟨hg, he⟩ := hw _ List.mem_cons_self
    have ih := ih (fun x hx => hw x (List.mem_cons_of_mem _ hx))
    obtain ⟨C, M, hE⟩ := entry_tokens_loose ignore e he
    have hl : blockLines ((g, e) :: bs) ++ tail = g ++ (e.lines ++ (blockLines bs ++ tail)) := by
      simp [blockLines]
    rw [hl, readOn]
    by_cases hgn : g = []
    · subst hgn
      obtain ⟨last', htok⟩ := hE.tokens false last (blockLines bs ++ tail)
      rw [List.nil_append, htok]
      cases C with
      | nil =>
        rw [if_pos ⟨rfl, hE.hidden.1 rfl⟩, List.nil_append, cont_message u st (hE.message m _), ih]
      | cons t C' =>
        rw [if_neg (fun h => by have := hE.hidden.2 h.2; cases this), if_pos rfl]
        have hp := hE.parseRest t C' rfl (tokensFrom ignore false last' (blockLines bs ++ tail))
        have hend : t.1.endsMessage = true := by
          have := (hE.comment t List.mem_cons_self).1
          unfold Token.endsMessage; rw [this]; simp
        have : messageLoop m ((t :: C') ++ (M ++ tokensFrom ignore false last' (blockLines bs ++ tail))) =
            .ok (m, C' ++ (M ++ tokensFrom ignore false last' (blockLines bs ++ tail))) := by
          obtain ⟨tok, lit⟩ := t
          rw [List.cons_append, messageLoop, if_pos hend]
        unfold cont
        rw [this]
        show (store u st m).bind _ = _
        rw [storeAll]
        congr 1
        funext st'
        rw [loop_message hp (parse_ne_eof hp), ih st' _ last']
    · rw [tokensFrom_gap hg hgn, if_neg (fun h => hgn h.1), if_neg hgn]
      obtain ⟨last', htok⟩ := hE.tokens true .whitespace (blockLines bs ++ tail)
      have hp := hE.parse (tokensFrom ignore false last' (blockLines bs ++ tail))
      rw [htok]
      show (store u st m).bind _ = _
      rw [storeAll]
      congr 1
      funext st'
      rw [loop_message hp (parse_ne_eof hp), ih st' _ last']

/-- The parser reads any sequence of blocks with well-formed lines. -/
theorem run_any (u : Unicode) (ignore : Bool) {tail : List Bytes} (ht : ∀ l ∈ tail, BlankLine l) {bs : List Block}
    (hw : ∀ b ∈ bs, (∀ l ∈ b.1, BlankLine l) ∧ Loose b.2) (st : PState) :
    run u ignore st (blockLines bs ++ tail) = storeAll u st (readBlocks ignore bs) := by
  cases bs with
  | nil => exact run_blocks u ignore ht (bs := []) (by simp) (by simp [Apart]) st
  | cons b bs =>
    obtain ⟨g, e⟩ := b
    obtain ⟨hg, he⟩ := hw _ List.mem_cons_self
    obtain ⟨C, M, hE⟩ := entry_tokens_loose ignore e he
    have hl : blockLines ((g, e) :: bs) ++ tail = g ++ (e.lines ++ (blockLines bs ++ tail)) := by
      simp [blockLines]
    rw [hl]
    have hrun : run u ignore st (g ++ (e.lines ++ (blockLines bs ++ tail))) =
        run u ignore st (e.lines ++ (blockLines bs ++ tail)) := by
      clear hl hw
      induction g with
      | nil => rfl
      | cons l g ih =>
        rw [List.cons_append, run_blank_cons u ignore st _ l (isBlankLine_of (hg l List.mem_cons_self))]
        exact ih (fun x hx => hg x (List.mem_cons_of_mem _ hx)) he
    rw [hrun]
    unfold run tokens
    obtain ⟨last', htok⟩ := hE.tokens false .eof (blockLines bs ++ tail)
    have hp := hE.parse (tokensFrom ignore false last' (blockLines bs ++ tail))
    rw [htok, loop_message hp (parse_ne_eof hp),
      cont_any u ignore tail ht bs (fun x hx => hw x (List.mem_cons_of_mem _ hx)) st _ last']
    rfl

/-! ## How many messages are read -/

theorem readOn_length (ignore : Bool) (bs : List Block) : ∀ m, (readOn ignore m bs).length ≤ bs.length + 1 ∧
    ((readOn ignore m bs).length = bs.length + 1 ↔ ∀ b ∈ bs, ¬ Glued ignore b) := by
  induction bs with
  | nil => intro m; exact ⟨Nat.le_refl _, by simp [readOn]⟩
  | cons b bs ih =>
    intro m
    rw [readOn]
    split
    · rename_i h
      have := (ih (absorb m b.2)).1
      refine ⟨by rw [List.length_cons]; omega, ?_⟩
      constructor
      · intro e; rw [List.length_cons] at e; omega
      · intro hn; exact absurd h (hn b List.mem_cons_self)
    · rename_i h
      obtain ⟨i1, i2⟩ := ih (opening ignore (if b.1 = [] then afterFirst ignore b.2.comments else b.2.comments) b.2)
      rw [List.length_cons, List.length_cons]
      refine ⟨by omega, ?_⟩
      rw [Nat.add_right_cancel_iff, i2]
      simp [h]

theorem not_glued {ignore : Bool} {b : Block} : ¬ Glued ignore b ↔ b.1 ≠ [] ∨ ∃ c ∈ b.2.comments, c.Visible ignore := by
  unfold Glued
  by_cases h : b.1 = []
  · simp [h]
  · simp [h]

theorem readBlocks_length (ignore : Bool) (bs : List Block) : (readBlocks ignore bs).length ≤ bs.length ∧
    ((readBlocks ignore bs).length = bs.length ↔ Apart ignore bs) := by
  cases bs with
  | nil => exact ⟨Nat.le_refl _, by simp [readBlocks, Apart]⟩
  | cons b bs =>
    obtain ⟨h1, h2⟩ := readOn_length ignore bs (opening ignore b.2.comments b.2)
    rw [readBlocks, List.length_cons]
    refine ⟨h1, h2.trans ?_⟩
    unfold Apart
    simp only [List.tail_cons, not_glued]

/-- The last block of every message gives its ID. -/
theorem readOn_id (ignore : Bool) (bs : List Block) : ∀ m, ∀ x ∈ readOn ignore m bs, x.id = m.id ∨ ∃ b ∈ bs, x.id = b.2.id.value := by
  induction bs with
  | nil => intro m x hx; rw [readOn, List.mem_singleton] at hx; exact .inl (by rw [hx])
  | cons b bs ih =>
    intro m x hx
    rw [readOn] at hx
    split at hx
    · rcases ih _ x hx with h | ⟨y, hy, h⟩
      · exact .inr ⟨b, List.mem_cons_self, h⟩
      · exact .inr ⟨y, List.mem_cons_of_mem _ hy, h⟩
    · rcases List.mem_cons.1 hx with rfl | hx
      · exact .inl rfl
      · rcases ih _ x hx with h | ⟨y, hy, h⟩
        · exact .inr ⟨b, List.mem_cons_self, h⟩
        · exact .inr ⟨y, List.mem_cons_of_mem _ hy, h⟩

theorem readBlocks_id {ignore : Bool} {bs : List Block} {x : Message} (hx : x ∈ readBlocks ignore bs) :
    ∃ b ∈ bs, x.id = b.2.id.value := by
  cases bs with
  | nil => cases hx
  | cons b bs =>
    rcases readOn_id ignore bs _ x hx with h | ⟨y, hy, h⟩
    · exact ⟨b, List.mem_cons_self, h⟩
    · exact ⟨y, List.mem_cons_of_mem _ hy, h⟩

theorem readBlocks_ne_nil {ignore : Bool} {bs : List Block} (h : bs ≠ []) : readBlocks ignore bs ≠ [] := by
  have key : ∀ (bs : List Block) m, readOn ignore m bs ≠ [] := by
    intro bs
    induction bs with
    | nil => intro m; simp [readOn]
    | cons b bs ih => intro m; rw [readOn]; split; exact ih _; simp
  cases bs with
  | nil => exact absurd rfl h
  | cons b bs => exact key _ _

theorem proper_eq {ms : List Message} (h : ∀ m ∈ ms, m.id ≠ []) : proper ms = ms :=
  List.filter_eq_self.2 fun m hm => decide_eq_true (h m hm)

theorem heads_eq {ms : List Message} (h : ∀ m ∈ ms, m.id ≠ []) : heads ms = [] :=
  List.filter_eq_nil_iff.2 fun m hm => by simp [h m hm]

end Verif.Proofs.Po
