import Verif.Proofs.Utf8
import Verif.Model.PoString
import Verif.Spec.PoString
import Verif.Proofs.Bytes
/-! Helper lemmas for the PO string properties. -/
namespace Verif.Model.PoString
open Verif.Go Verif.Spec.PoString

/-! ### Escaping rune by rune -/

/-- The escape of a rune (proof helper). -/
def escChar (c : Char) : Bytes :=
  let n := c.toNat
  if n = 0x5c ∨ n = 0x22 then [0x5c, UInt8.ofNat n]
  else if n = 0x0a then [0x5c, 0x6e]
  else if n = 0x0d then [0x5c, 0x72]
  else if n = 0x09 then [0x5c, 0x74]
  else if n = 0x07 then [0x5c, 0x61]
  else if n = 0x08 then [0x5c, 0x62]
  else if n = 0x0c then [0x5c, 0x66]
  else if n = 0x0b then [0x5c, 0x76]
  else encodeRune c

theorem ofNat_eq_iff {n k : Nat} (hn : n < 256) (hk : k < 256) :
    (UInt8.ofNat n = UInt8.ofNat k) ↔ n = k := by
  constructor
  · intro h
    have := congrArg UInt8.toNat h
    simp at this; omega
  · intro h; rw [h]

theorem byte_eq_iff (b : UInt8) (k : Nat) (hk : k < 256) : b = UInt8.ofNat k ↔ b.toNat = k := by
  constructor
  · intro h; rw [h]; simp; omega
  · intro h; apply byte_ext; simp; omega

theorem forall_byte {P : UInt8 → Prop} (h : ∀ n : Fin 256, P (UInt8.ofNat n.val)) (b : UInt8) : P b := by
  have := h ⟨b.toNat, b.toNat_lt⟩
  simpa using this

theorem escapeByte_bad (b : UInt8) : BadByte b → escapeByte b = .error .indexOutOfRange := by
  revert b
  apply forall_byte
  decide +kernel

theorem encodeRune_ascii (c : Char) (h : c.toNat < 0x80) : encodeRune c = [UInt8.ofNat c.toNat] := by
  simp [encodeRune, h]

theorem toNat_ofNat_small {n : Nat} (h : n < 256) : (UInt8.ofNat n).toNat = n := by
  simp; omega

/-- All bytes of a non-ASCII rune are at least 0x80. -/
theorem encodeRune_multi (c : Char) (h : 0x80 ≤ c.toNat) : ∀ b ∈ encodeRune c, 0x80 ≤ b.toNat := by
  have hv := char_valid c
  unfold encodeRune
  dsimp only
  generalize c.toNat = n at *
  rw [if_neg (by omega)]
  intro b hb
  split at hb
  · simp at hb; rcases hb with h | h <;> subst h <;> simp <;> omega
  split at hb
  · simp at hb; rcases hb with h | h | h <;> subst h <;> simp <;> omega
  · simp at hb; rcases hb with h | h | h | h <;> subst h <;> simp <;> omega

theorem encodeRune_multi_ne_err (c : Char) (h : 0x80 ≤ c.toNat) : 2 ≤ (encodeRune c).length := by
  unfold encodeRune
  dsimp only
  rw [if_neg (by omega)]
  repeat' split
  all_goals simp

/-- One step of the escape loop on an encoded rune. -/
theorem escLoop_step (f : Nat) (c : Char) (rest pend out : Bytes) :
    escLoop (f + 1) (encodeRune c ++ rest) pend out =
      if c.toNat < 0x80 then
        if safeSet (UInt8.ofNat c.toNat) then escLoop f rest (pend ++ encodeRune c) out
        else do
          let e ← escapeByte (UInt8.ofNat c.toNat)
          escLoop f rest [] (out ++ pend ++ e)
      else escLoop f rest (pend ++ encodeRune c) out := by
  by_cases h : c.toNat < 0x80
  · rw [if_pos h, encodeRune_ascii c h]
    simp only [List.cons_append, List.nil_append, escLoop]
    rw [if_pos (by rw [toNat_ofNat_small (by omega)]; exact h)]
  · rw [if_neg h]
    obtain ⟨b, bs, hb⟩ := encodeRune_append_eq_cons c rest
    have hmem : b ∈ encodeRune c := by
      cases he : encodeRune c with
      | nil => exact absurd he (encodeRune_ne_nil c)
      | cons x xs => rw [he] at hb; simp at hb; simp [hb.1]
    have hb80 := encodeRune_multi c (by omega) b hmem
    rw [hb, escLoop, if_neg (by omega), ← hb, decodeRune_encodeRune]
    have hl := encodeRune_multi_ne_err c (by omega)
    simp only
    rw [if_neg (by omega)]
    simp

theorem safeSet_ofNat_fin : ∀ n : Fin 128,
    safeSet (UInt8.ofNat n.val) = true ↔ (0x20 ≤ n.val ∧ n.val ≠ 0x22 ∧ n.val ≠ 0x5c) := by
  decide +kernel

theorem safeSet_ofNat {n : Nat} (h : n < 0x80) :
    safeSet (UInt8.ofNat n) = true ↔ (0x20 ≤ n ∧ n ≠ 0x22 ∧ n ≠ 0x5c) :=
  safeSet_ofNat_fin ⟨n, h⟩

theorem escapeByte_good_fin : ∀ n : Fin 128, Encodable (Char.ofNat n.val) →
    ¬ safeSet (UInt8.ofNat n.val) = true →
    escapeByte (UInt8.ofNat n.val) = .ok (escChar (Char.ofNat n.val)) := by
  decide +kernel

theorem escapeByte_good {c : Char} (h : c.toNat < 0x80) (he : Encodable c)
    (hs : ¬ safeSet (UInt8.ofNat c.toNat) = true) : escapeByte (UInt8.ofNat c.toNat) = .ok (escChar c) := by
  have := escapeByte_good_fin ⟨c.toNat, h⟩
  simp only [ofNat_toNat] at this
  exact this he hs

theorem escChar_plain {c : Char} (h : 0x20 ≤ c.toNat) (h1 : c.toNat ≠ 0x22) (h2 : c.toNat ≠ 0x5c) :
    escChar c = encodeRune c := by
  unfold escChar
  dsimp only
  repeat' split
  all_goals first | rfl | omega

theorem bind_ok {α β : Type} (a : α) (f : α → Run β) : (Except.ok a >>= f) = f a := rfl
theorem bind_err {α β : Type} (a : Fault) (f : α → Run β) : ((Except.error a : Run α) >>= f) = .error a := rfl

theorem escLoop_utf8 (cs : List Char) (hcs : ∀ c ∈ cs, Encodable c) :
    ∀ f pend out, (utf8 cs).length ≤ f →
      escLoop f (utf8 cs) pend out = .ok (out ++ pend ++ cs.flatMap escChar) := by
  induction cs with
  | nil => intro f pend out _; cases f <;> simp [escLoop]
  | cons c cs ih =>
    intro f pend out hf
    have hp := encodeRune_length_pos c
    simp only [utf8_cons, List.length_append] at hf ⊢
    have ihc := ih (fun c h => hcs c (List.mem_cons_of_mem _ h))
    have hc := hcs c List.mem_cons_self
    match f with
    | 0 => omega
    | f + 1 =>
      rw [escLoop_step]
      split
      · split
        · rename_i h hs
          rw [safeSet_ofNat h] at hs
          rw [ihc f _ _ (by omega), List.flatMap_cons, escChar_plain hs.1 hs.2.1 hs.2.2]
          simp
        · rename_i h hs
          rw [escapeByte_good h hc hs, bind_ok, ihc f _ _ (by omega)]
          simp
      · rw [ihc f _ _ (by omega), List.flatMap_cons, escChar_plain (by omega) (by omega) (by omega)]
        simp

theorem escapePoString_utf8 (cs : List Char) (hcs : ∀ c ∈ cs, Encodable c) :
    escapePoString (utf8 cs) = .ok (cs.flatMap escChar) := by
  unfold escapePoString; rw [escLoop_utf8 cs hcs _ _ _ (Nat.le_refl _)]; simp

theorem escLoop_bad (cs : List Char) (hcs : ∃ c ∈ cs, ¬ Encodable c) :
    ∀ f pend out, (utf8 cs).length ≤ f →
      escLoop f (utf8 cs) pend out = .error .indexOutOfRange := by
  induction cs with
  | nil => simp at hcs
  | cons c cs ih =>
    intro f pend out hf
    have hp := encodeRune_length_pos c
    simp only [utf8_cons, List.length_append] at hf ⊢
    match f with
    | 0 => omega
    | f + 1 =>
      rw [escLoop_step]
      by_cases hc : Encodable c
      · have hr : ∃ c ∈ cs, ¬ Encodable c := by
          obtain ⟨d, hd, hn⟩ := hcs
          rcases List.mem_cons.1 hd with h | h
          · subst h; exact absurd hc hn
          · exact ⟨d, h, hn⟩
        split
        · split
          · exact ih hr _ _ _ (by omega)
          · rename_i h hs
            rw [escapeByte_good h hc hs, bind_ok, ih hr _ _ _ (by omega)]
        · exact ih hr _ _ _ (by omega)
      · have hn : c.toNat < 0x20 ∧ ¬ (0x07 ≤ c.toNat ∧ c.toNat ≤ 0x0D) := by
          unfold Encodable at hc; omega
        rw [if_pos (by omega), if_neg (by rw [safeSet_ofNat (by omega)]; omega),
          escapeByte_bad _ (by unfold BadByte; rw [toNat_ofNat_small (by omega)]; exact hn), bind_err]

theorem escapePoString_bad (cs : List Char) (hcs : ∃ c ∈ cs, ¬ Encodable c) :
    escapePoString (utf8 cs) = .error .indexOutOfRange :=
  escLoop_bad cs hcs _ _ _ (Nat.le_refl _)

/-! ### The encoders keep the text -/

/-- The quoted line for a text (proof helper). -/
def encLine (l : List Char) : Bytes := quote (l.flatMap escChar)

/-- All texts of a list of lines are encodable. -/
def AllEnc (css : List (List Char)) : Prop := ∀ l ∈ css, ∀ c ∈ l, Encodable c

theorem AllEnc.snoc {css : List (List Char)} {l : List Char} (h : AllEnc css)
    (hl : ∀ c ∈ l, Encodable c) : AllEnc (css ++ [l]) := by
  intro x hx
  rcases List.mem_append.1 hx with hx | hx
  · exact h x hx
  · simp at hx; subst hx; exact hl

theorem escapePoString_cases (L : List Char) :
    ((∀ c ∈ L, Encodable c) ∧ escapePoString (utf8 L) = .ok (L.flatMap escChar)) ∨
    ((∃ c ∈ L, ¬ Encodable c) ∧ escapePoString (utf8 L) = .error .indexOutOfRange) := by
  by_cases h : ∀ c ∈ L, Encodable c
  · exact .inl ⟨h, escapePoString_utf8 L h⟩
  · have h' : ∃ c ∈ L, ¬ Encodable c := by
      simp only [Classical.not_forall] at h
      obtain ⟨c, hc, hn⟩ := h
      exact ⟨c, hc, hn⟩
    exact .inr ⟨h', escapePoString_bad L h'⟩

theorem withoutWrapLoop_ok (cs : List Char) :
    ∀ (css : List (List Char)) (b : List Char), AllEnc css → (∀ l ∈ css, l ≠ []) →
      (∃ (css' : List (List Char)) (b' : List Char),
        withoutWrapLoop cs (css.map encLine) (utf8 b) = .ok (css'.map encLine, utf8 b') ∧
        css'.flatten ++ b' = css.flatten ++ b ++ cs ∧ AllEnc css' ∧ ∀ l ∈ css', l ≠ []) ∨
      ((∃ c ∈ b ++ cs, ¬ Encodable c) ∧
        withoutWrapLoop cs (css.map encLine) (utf8 b) = .error .indexOutOfRange) := by
  induction cs with
  | nil => intro css b hb hne; exact .inl ⟨css, b, rfl, by simp, hb, hne⟩
  | cons c cs ih =>
    intro css b hb hne
    unfold withoutWrapLoop
    split
    · rename_i h
      subst h
      rcases escapePoString_cases b with ⟨henc, he⟩ | ⟨⟨d, hd, hn⟩, he⟩
      · rw [he, bind_ok]
        have e : css.map encLine ++ [quote (b.flatMap escChar ++ b!"\\n")]
            = (css ++ [b ++ ['\n']]).map encLine := by
          simp [encLine, escChar]
        rw [e]
        rcases ih (css ++ [b ++ ['\n']]) [] (hb.snoc (by
            intro c hc; rcases List.mem_append.1 hc with hc | hc
            · exact henc c hc
            · simp at hc; subst hc; decide)) (by
            intro l hl
            rcases List.mem_append.1 hl with h | h
            · exact hne l h
            · simp at h; simp [h]) with ⟨css', b', h1, h2, h3, h4⟩ | ⟨⟨d, hd, hn⟩, h2⟩
        · exact .inl ⟨css', b', h1, by rw [h2]; simp, h3, h4⟩
        · exact .inr ⟨⟨d, by simp at hd; simp [hd], hn⟩, h2⟩
      · rw [he, bind_err]
        exact .inr ⟨⟨d, by simp [hd], hn⟩, rfl⟩
    · have e : utf8 b ++ encodeRune c = utf8 (b ++ [c]) := by simp
      rw [e]
      rcases ih css (b ++ [c]) hb hne with ⟨css', b', h1, h2, h3, h4⟩ | ⟨⟨d, hd, hn⟩, h2⟩
      · exact .inl ⟨css', b', h1, by rw [h2]; simp, h3, h4⟩
      · exact .inr ⟨⟨d, by simpa using hd, hn⟩, h2⟩

theorem utf8_eq_nil {cs : List Char} : utf8 cs = [] ↔ cs = [] := by
  cases cs with
  | nil => simp
  | cons c cs =>
    simp [encodeRune_ne_nil]

/-- What the encoders deliver: lines whose texts concatenate to `cs`, or a panic because of a
character that cannot be encoded. -/
def EncRes (cs : List Char) (r : Run (List Bytes)) : Prop :=
  (∃ css : List (List Char), r = .ok (css.map encLine) ∧ css.flatten = cs ∧ css ≠ [] ∧ AllEnc css ∧
    (2 ≤ css.length → ∀ l ∈ css, l ≠ [])) ∨
  ((∃ c ∈ cs, ¬ Encodable c) ∧ r = .error .indexOutOfRange)

theorem encodeWithoutWrap_res (s : Bytes) : EncRes (runes s) (encodeWithoutWrap s) := by
  rcases withoutWrapLoop_ok (runes s) [] [] (by simp [AllEnc]) (by simp)
    with ⟨css, b, h1, h2, h3, h4⟩ | ⟨⟨d, hd, hn⟩, h2⟩
  · simp at h1 h2
    unfold encodeWithoutWrap
    rw [h1]
    simp only [bind_ok]
    split
    · rename_i h
      rcases escapePoString_cases b with ⟨henc, he⟩ | ⟨⟨d, hd, hn⟩, he⟩
      · rw [he]
        refine .inl ⟨css ++ [b], by simp [bind_ok, encLine], by simpa using h2, by simp, h3.snoc henc, ?_⟩
        intro hl l hm
        rcases List.mem_append.1 hm with hm | hm
        · exact h4 l hm
        · simp at hm; subst hm
          rcases h with h | h
          · intro e; apply h; simp [e]
          · simp at h; subst h; simp at hl
      · rw [he, bind_err]
        exact .inr ⟨⟨d, by rw [← h2]; simp [hd], hn⟩, rfl⟩
    · rename_i h
      have hb : b = [] := by
        by_cases hb : b = []
        · exact hb
        · exact absurd (Or.inl (fun e => hb (utf8_eq_nil.1 e))) h
      subst hb
      refine .inl ⟨css, rfl, by simpa using h2, ?_, h3, fun _ => h4⟩
      intro e; apply h; right; simp [e]
  · unfold encodeWithoutWrap
    simp at h2
    rw [h2, bind_err]
    exact .inr ⟨⟨d, by simpa using hd, hn⟩, rfl⟩

/-- Invariant of the wrapping encoder: the emitted lines, the line buffer, the word buffer and the
space buffer together are the consumed text. -/
structure WrapInv (consumed : List Char) (st : WrapState) where
  css : List (List Char)
  L : List Char
  W : List Char
  S : List Char
  hlines : st.lines = css.map encLine
  hline : st.line = ⟨utf8 L, L.length⟩
  hword : st.word = ⟨utf8 W, W.length⟩
  hspace : st.space = ⟨utf8 S, S.length⟩
  hcat : css.flatten ++ L ++ W ++ S = consumed
  hne : ∀ l ∈ css, l ≠ []
  henc : AllEnc css

def WrapInv' (consumed : List Char) (st : WrapState) : Prop := Nonempty (WrapInv consumed st)

theorem flushWord_inv {consumed : List Char} {st : WrapState} (i : WrapInv consumed st) :
    flushWord st = ⟨st.lines, ⟨utf8 (i.L ++ i.W ++ i.S), (i.L ++ i.W ++ i.S).length⟩,
      SB.empty, SB.empty, st.currentLen⟩ := by
  simp [flushWord, SB.writeInto, i.hline, i.hword, i.hspace, SB.empty, Nat.add_assoc]

/-- Result of a step of the wrapping encoder. -/
def StepRes (consumed : List Char) (Q : WrapState → Prop) (r : Run WrapState) : Prop :=
  (∃ st', r = .ok st' ∧ WrapInv' consumed st' ∧ Q st') ∨
  ((∃ c ∈ consumed, ¬ Encodable c) ∧ r = .error .indexOutOfRange)

theorem createNewLine_cases {st : WrapState} {L : List Char} (h : st.line.buff = utf8 L) :
    ((∀ c ∈ L, Encodable c) ∧
      createNewLine st = .ok ⟨st.lines ++ [encLine L], SB.empty, st.word, st.space, 0⟩) ∨
    ((∃ c ∈ L, ¬ Encodable c) ∧ createNewLine st = .error .indexOutOfRange) := by
  unfold createNewLine
  rw [h]
  rcases escapePoString_cases L with ⟨henc, he⟩ | ⟨hb, he⟩
  · rw [he]; exact .inl ⟨henc, rfl⟩
  · rw [he]; exact .inr ⟨hb, rfl⟩

theorem breakIfFull_inv {width : Int} {consumed : List Char} {st : WrapState} (i : WrapInv consumed st)
    (hcur : st.currentLen > 0 → st.currentLen = st.line.len) :
    StepRes consumed (fun st' => st'.currentLen > 0 → st'.currentLen = st'.line.len)
      (breakIfFull width st) := by
  unfold breakIfFull
  split
  · rename_i h
    rcases createNewLine_cases (L := i.L) (st := st) (by rw [i.hline]) with ⟨henc, he⟩ | ⟨⟨c, hc, hn⟩, he⟩
    · rw [he]
      refine .inl ⟨_, rfl, ⟨⟨i.css ++ [i.L], [], i.W, i.S, by simp [i.hlines], rfl, i.hword, i.hspace, ?_, ?_,
        i.henc.snoc henc⟩⟩, ?_⟩
      · simpa using i.hcat
      · intro l hl
        rcases List.mem_append.1 hl with hl | hl
        · exact i.hne l hl
        · simp at hl; subst hl
          intro e
          have := hcur h.2
          rw [i.hline] at this
          rw [e] at this; simp at this; omega
      · simp
    · rw [he]; exact .inr ⟨⟨c, by rw [← i.hcat]; simp [hc], hn⟩, rfl⟩
  · exact .inl ⟨st, rfl, ⟨i⟩, hcur⟩

theorem writeRune_utf8 (X : List Char) (c : Char) :
    (⟨utf8 X, X.length⟩ : SB).writeRune c = ⟨utf8 (X ++ [c]), (X ++ [c]).length⟩ := by
  simp [SB.writeRune]

theorem mem_lws {consumed : List Char} {st : WrapState} (i : WrapInv consumed st) {d : Char}
    (hd : d ∈ i.L ++ i.W ++ i.S) : d ∈ consumed := by
  rw [← i.hcat]; simp at hd ⊢; rcases hd with h | h | h <;> simp [h]

theorem wrapNewline_inv {consumed : List Char} {st : WrapState} (i : WrapInv consumed st) :
    StepRes (consumed ++ ['\n']) (fun _ => True) (wrapNewline st) := by
  unfold wrapNewline
  rw [flushWord_inv i]
  simp only [writeRune_utf8]
  rcases createNewLine_cases (L := i.L ++ i.W ++ i.S ++ ['\n'])
    (st := ⟨st.lines, ⟨utf8 (i.L ++ i.W ++ i.S ++ ['\n']), (i.L ++ i.W ++ i.S ++ ['\n']).length⟩,
      SB.empty, SB.empty, st.currentLen⟩) rfl with ⟨henc, he⟩ | ⟨⟨c, hc, hn⟩, he⟩
  · rw [he]
    refine .inl ⟨_, rfl, ⟨⟨i.css ++ [i.L ++ i.W ++ i.S ++ ['\n']], [], [], [], by simp [i.hlines], rfl, rfl, rfl,
      ?_, ?_, i.henc.snoc henc⟩⟩, trivial⟩
    · (conv => rhs; rw [← i.hcat]); simp
    · intro l hl
      rcases List.mem_append.1 hl with hl | hl
      · exact i.hne l hl
      · simp at hl; simp [hl]
  · rw [he]
    refine .inr ⟨⟨c, ?_, hn⟩, rfl⟩
    rcases List.mem_append.1 hc with hc | hc
    · exact List.mem_append_left _ (mem_lws i hc)
    · exact List.mem_append_right _ hc

theorem wrapSpace_inv {width : Int} {consumed : List Char} {st : WrapState} (c : Char)
    (i : WrapInv consumed st) (hcur : st.currentLen = st.line.len) :
    StepRes (consumed ++ [c]) (fun _ => True) (wrapSpace width st c) := by
  unfold wrapSpace
  rcases breakIfFull_inv (width := width) i (fun _ => hcur) with ⟨st2, hb, ⟨i2⟩, hcur2⟩ | ⟨⟨d, hd, hn⟩, he⟩
  · rw [hb, bind_ok]
    rcases breakIfFull_inv (width := width) (consumed := consumed ++ [c])
      (st := { st2 with space := st2.space.writeRune c })
      ⟨i2.css, i2.L, i2.W, i2.S ++ [c], i2.hlines, i2.hline, i2.hword,
          by simp only [i2.hspace, writeRune_utf8],
          by (conv => rhs; rw [← i2.hcat]); simp, i2.hne, i2.henc⟩ hcur2 with ⟨st4, h4, i4, _⟩ | h
    · exact .inl ⟨st4, h4, i4, trivial⟩
    · exact .inr h
  · rw [he, bind_err]
    exact .inr ⟨⟨d, List.mem_append_left _ hd, hn⟩, rfl⟩

theorem breakBeforeWord_inv {width : Int} {consumed : List Char} {st : WrapState}
    (i : WrapInv consumed st) (hsp : st.space.len > 0) :
    StepRes consumed (fun _ => True) (breakBeforeWord width st) := by
  unfold breakBeforeWord
  split
  · rw [flushWord_inv i]
    rcases createNewLine_cases (L := i.L ++ i.W ++ i.S)
      (st := ⟨st.lines, ⟨utf8 (i.L ++ i.W ++ i.S), (i.L ++ i.W ++ i.S).length⟩,
        SB.empty, SB.empty, st.currentLen⟩) rfl with ⟨henc, he⟩ | ⟨⟨c, hc, hn⟩, he⟩
    · rw [he]
      refine .inl ⟨_, rfl, ⟨⟨i.css ++ [i.L ++ i.W ++ i.S], [], [], [], by simp [i.hlines], rfl, rfl, rfl, ?_, ?_,
        i.henc.snoc henc⟩⟩, trivial⟩
      · (conv => rhs; rw [← i.hcat]); simp
      · intro l hl
        rcases List.mem_append.1 hl with hl | hl
        · exact i.hne l hl
        · simp at hl; subst hl
          have := i.hspace; rw [this] at hsp
          intro e; simp at e; rw [e.2.2] at hsp; simp at hsp
    · rw [he]; exact .inr ⟨⟨c, mem_lws i hc, hn⟩, rfl⟩
  · exact .inl ⟨st, rfl, ⟨i⟩, trivial⟩

theorem startWord_inv {width : Int} {consumed : List Char} {st : WrapState}
    (i : WrapInv consumed st) :
    StepRes consumed (fun st' => st'.space = SB.empty) (startWord width st) := by
  unfold startWord
  split
  · rename_i h
    rcases breakBeforeWord_inv (width := width) i h with ⟨st2, h2, ⟨i2⟩, _⟩ | ⟨hb, he⟩
    · rw [h2, bind_ok, flushWord_inv i2]
      exact .inl ⟨_, rfl, ⟨⟨i2.css, i2.L ++ i2.W ++ i2.S, [], [], i2.hlines, rfl, rfl, rfl,
        by (conv => rhs; rw [← i2.hcat]); simp, i2.hne, i2.henc⟩⟩, rfl⟩
    · rw [he, bind_err]; exact .inr ⟨hb, rfl⟩
  · rename_i h
    refine .inl ⟨st, rfl, ⟨i⟩, ?_⟩
    have := i.hspace; rw [this] at h
    show st.space = _
    rw [this]
    simp at h; simp [h, SB.empty]

theorem wrapOther_inv {width : Int} {consumed : List Char} {st : WrapState} (c : Char)
    (i : WrapInv consumed st) :
    StepRes (consumed ++ [c]) (fun _ => True) (wrapOther width st c) := by
  unfold wrapOther
  rcases startWord_inv (width := width) i with ⟨st2, h2, ⟨i2⟩, hS⟩ | ⟨⟨d, hd, hn⟩, he⟩
  · rw [h2, bind_ok]
    have hS' : i2.S = [] := by
      have := i2.hspace; rw [hS] at this
      have := congrArg SB.len this
      simp [SB.empty] at this
      exact List.length_eq_zero_iff.1 this.symm
    refine .inl ⟨_, rfl, ⟨⟨i2.css, i2.L, i2.W ++ [c], [], i2.hlines, i2.hline, ?_, ?_, ?_, i2.hne, i2.henc⟩⟩, trivial⟩
    · simp only [i2.hword, writeRune_utf8]
    · simp only [hS]; rfl
    · (conv => rhs; rw [← i2.hcat, hS']); simp
  · rw [he, bind_err]
    exact .inr ⟨⟨d, List.mem_append_left _ hd, hn⟩, rfl⟩

def setLen_inv {consumed : List Char} {st : WrapState} (i : WrapInv consumed st) :
    WrapInv consumed (setLen st) :=
  ⟨i.css, i.L, i.W, i.S, i.hlines, i.hline, i.hword, i.hspace, i.hcat, i.hne, i.henc⟩

theorem wrapStep_inv {width : Int} {consumed : List Char} {st : WrapState} (c : Char)
    (h : WrapInv' consumed st) :
    StepRes (consumed ++ [c]) (fun _ => True) (wrapStep width st c) := by
  obtain ⟨i⟩ := h
  unfold wrapStep
  split
  · rename_i hc; subst hc; exact wrapNewline_inv i
  · split
    · exact wrapSpace_inv c (setLen_inv i) rfl
    · exact wrapOther_inv c (setLen_inv i)

theorem wrapLoop_inv {width : Int} (cs : List Char) : ∀ {consumed : List Char} {st : WrapState},
    WrapInv' consumed st → StepRes (consumed ++ cs) (fun _ => True) (wrapLoop width cs st) := by
  induction cs with
  | nil => intro consumed st h; exact .inl ⟨st, rfl, by simpa using h, trivial⟩
  | cons c cs ih =>
    intro consumed st h
    unfold wrapLoop
    rcases wrapStep_inv (width := width) c h with ⟨st1, h1, i1, _⟩ | ⟨⟨d, hd, hn⟩, he⟩
    · rw [h1, bind_ok]
      simpa using ih i1
    · rw [he, bind_err]
      exact .inr ⟨⟨d, by simp at hd ⊢; rcases hd with h | h <;> simp [h], hn⟩, rfl⟩

theorem encodeWithWrap_res (s : Bytes) (width : Int) : EncRes (runes s) (encodeWithWrap s width) := by
  unfold encodeWithWrap
  rcases wrapLoop_inv (width := width) (runes s) (consumed := [])
    (st := ⟨[], SB.empty, SB.empty, SB.empty, 0⟩)
    ⟨⟨[], [], [], [], rfl, rfl, rfl, rfl, rfl, by simp, by simp [AllEnc]⟩⟩
    with ⟨st, h1, ⟨i⟩, _⟩ | ⟨⟨d, hd, hn⟩, he⟩
  · rw [h1, bind_ok, flushWord_inv i]
    have hcat := i.hcat
    simp at hcat
    dsimp only
    split
    · rename_i h
      rcases escapePoString_cases (i.L ++ i.W ++ i.S) with ⟨henc, he⟩ | ⟨⟨c, hc, hn⟩, he⟩
      · rw [he]
        refine .inl ⟨i.css ++ [i.L ++ i.W ++ i.S], by simp [bind_ok, encLine, i.hlines], by simpa using hcat,
          by simp, i.henc.snoc henc, ?_⟩
        intro hl l hm
        rcases List.mem_append.1 hm with hm | hm
        · exact i.hne l hm
        · simp only [List.mem_singleton] at hm; subst hm
          rcases h with h | h
          · intro e; apply h; rw [e]; rfl
          · rw [i.hlines] at h
            simp at h; rw [h] at hl; simp at hl
      · rw [he, bind_err]
        exact .inr ⟨⟨c, by simpa using mem_lws i hc, hn⟩, rfl⟩
    · rename_i h
      have hb : i.L ++ i.W ++ i.S = [] := by
        by_cases hb : i.L ++ i.W ++ i.S = []
        · exact hb
        · exact absurd (Or.inl (fun e => hb (utf8_eq_nil.1 e))) h
      refine .inl ⟨i.css, by rw [← i.hlines], ?_, ?_, i.henc, fun _ => i.hne⟩
      · have hb' : i.L ++ (i.W ++ i.S) = [] := by simpa using hb
        rw [hb'] at hcat; simpa using hcat
      · intro e; apply h; right; rw [i.hlines, e]; simp
  · rw [he, bind_err]
    exact .inr ⟨⟨d, by simpa using hd, hn⟩, rfl⟩

/-! ### Decoding -/

theorem unescLoop_cons (f : Nat) (b : UInt8) (bs out : Bytes) : unescLoop (f + 1) (b :: bs) out =
    if b = 0x5c then
      match bs with
      | [] => unescLoop f [b] out
      | e :: bs' =>
        match unescapeLetter e with
        | some x => unescLoop f bs' (out ++ [x])
        | none => unescLoop f (e :: bs') (out ++ [0x5c])
    else if b.toNat < 0x80 then unescLoop f bs (out ++ [b])
    else unescLoop f ((b :: bs).drop (decodeRune (b :: bs)).2) (out ++ encodeRune (decodeRune (b :: bs)).1) := by
  rw [unescLoop.eq_def]; rfl

theorem unescLoop_fuel_mono : ∀ (f : Nat) (s out r : Bytes), unescLoop f s out = some r →
    unescLoop (f + 1) s out = some r := by
  intro f
  induction f with
  | zero =>
    intro s out r h
    cases s with
    | nil => simpa [unescLoop] using h
    | cons b bs => simp [unescLoop] at h
  | succ f ih =>
    intro s out r h
    cases s with
    | nil => simpa [unescLoop] using h
    | cons b bs =>
      rw [unescLoop_cons] at h ⊢
      split at h
      · rename_i hb
        rw [if_pos hb]
        cases bs with
        | nil => exact ih _ _ _ h
        | cons e bs' =>
          dsimp only at h ⊢
          cases hu : unescapeLetter e with
          | none => rw [hu] at h; exact ih _ _ _ h
          | some x => rw [hu] at h; exact ih _ _ _ h
      · rename_i hb
        rw [if_neg hb]
        split at h
        · rename_i hc; rw [if_pos hc]; exact ih _ _ _ h
        · rename_i hc; rw [if_neg hc]; exact ih _ _ _ h

theorem unescLoop_fuel_le {f g : Nat} {s out r : Bytes} (hfg : f ≤ g) (h : unescLoop f s out = some r) :
    unescLoop g s out = some r := by
  induction hfg with
  | refl => exact h
  | step _ ih => exact unescLoop_fuel_mono _ _ _ _ ih

/-- A step of the decoder over an ordinary rune. -/
theorem unescLoop_rune (f : Nat) (c : Char) (rest out : Bytes) (h : c.toNat ≠ 0x5c) :
    unescLoop (f + 1) (encodeRune c ++ rest) out = unescLoop f rest (out ++ encodeRune c) := by
  by_cases h1 : c.toNat < 0x80
  · rw [encodeRune_ascii c h1]
    simp only [List.cons_append, List.nil_append, unescLoop]
    rw [if_neg, if_pos (by rw [toNat_ofNat_small (by omega)]; exact h1)]
    intro e; exact h ((ofNat_eq_iff (k := 0x5c) (by omega) (by omega)).1 e)
  · obtain ⟨b, bs, hb⟩ := encodeRune_append_eq_cons c rest
    have hmem : b ∈ encodeRune c := by
      cases he : encodeRune c with
      | nil => exact absurd he (encodeRune_ne_nil c)
      | cons x xs => rw [he] at hb; simp at hb; simp [hb.1]
    have hb80 := encodeRune_multi c (by omega) b hmem
    rw [hb, unescLoop_cons, if_neg (by intro e; rw [e] at hb80; simp at hb80), if_neg (by omega), ← hb,
      decodeRune_encodeRune]
    simp

theorem unescLoop_esc_fin : ∀ n : Fin 128, Encodable (Char.ofNat n.val) →
    (n.val < 0x20 ∨ n.val = 0x22 ∨ n.val = 0x5c) →
    ∃ e x, escChar (Char.ofNat n.val) = [0x5c, e] ∧ unescapeLetter e = some x ∧
      encodeRune (Char.ofNat n.val) = [x] := by
  have key : ∀ n : Fin 128, Encodable (Char.ofNat n.val) →
    (n.val < 0x20 ∨ n.val = 0x22 ∨ n.val = 0x5c) →
    (escChar (Char.ofNat n.val)).length = 2 ∧ (escChar (Char.ofNat n.val))[0]? = some 0x5c ∧
    (unescapeLetter ((escChar (Char.ofNat n.val))[1]?.getD 0)).map (fun x => [x]) =
      some (encodeRune (Char.ofNat n.val)) := by decide +kernel
  intro n h1 h2
  obtain ⟨k1, k2, k3⟩ := key n h1 h2
  match he : escChar (Char.ofNat n.val), k1 with
  | [a, e], _ =>
    rw [he] at k2 k3
    simp at k2 k3
    obtain ⟨x, hx, hx'⟩ := k3
    exact ⟨e, x, by rw [k2], hx, hx'.symm⟩

/-- A step of the decoder over an escaped rune gives the rune. -/
theorem unescLoop_escChar (f : Nat) (c : Char) (rest out : Bytes) (h : Encodable c) :
    unescLoop (f + 1) (escChar c ++ rest) out = unescLoop f rest (out ++ encodeRune c) := by
  by_cases hs : c.toNat < 0x20 ∨ c.toNat = 0x22 ∨ c.toNat = 0x5c
  · have := unescLoop_esc_fin ⟨c.toNat, by omega⟩
    simp only [ofNat_toNat] at this
    obtain ⟨e, x, h1, h2, h3⟩ := this h hs
    rw [h1, h3]
    simp only [List.cons_append, List.nil_append, unescLoop, h2]
    simp
  · rw [escChar_plain (by omega) (by omega) (by omega)]
    exact unescLoop_rune f c rest out (by omega)

theorem escChar_length_pos (c : Char) : 0 < (escChar c).length := by
  unfold escChar; dsimp only
  repeat' split
  all_goals first | exact encodeRune_length_pos c | simp

theorem unescLoop_escaped (cs : List Char) (h : ∀ c ∈ cs, Encodable c) : ∀ f out,
    (cs.flatMap escChar).length ≤ f → unescLoop f (cs.flatMap escChar) out = some (out ++ utf8 cs) := by
  induction cs with
  | nil => intro f out _; cases f <;> simp [unescLoop]
  | cons c cs ih =>
    intro f out hf
    have hp := escChar_length_pos c
    simp only [List.flatMap_cons, List.length_append] at hf ⊢
    match f with
    | 0 => omega
    | f + 1 =>
      rw [unescLoop_escChar f c _ out (h c List.mem_cons_self),
        ih (fun c hc => h c (List.mem_cons_of_mem _ hc)) f _ (by omega)]
      simp

/-- The fast scan consumes a valid prefix of ordinary runes. -/
theorem fastScan_spec : ∀ (f : Nat) (done s : Bytes), s.length ≤ f →
    ∃ (cs : List Char) (rem : Bytes), fastScan f done s = (done ++ utf8 cs, rem) ∧ s = utf8 cs ++ rem ∧
      ∀ c ∈ cs, c.toNat ≠ 0x5c := by
  intro f
  induction f with
  | zero =>
    intro done s hs
    have : s = [] := List.length_eq_zero_iff.1 (by omega)
    subst this
    exact ⟨[], [], by simp [fastScan], by simp, by simp⟩
  | succ f ih =>
    intro done s hs
    cases s with
    | nil => exact ⟨[], [], by simp [fastScan], by simp, by simp⟩
    | cons b bs =>
      simp only [List.length_cons] at hs
      rw [fastScan]
      split
      · exact ⟨[], b :: bs, by simp, by simp, by simp⟩
      · rename_i hsp
        split
        · rename_i hb
          obtain ⟨cs, rem, h1, h2, h3⟩ := ih (done ++ [b]) bs (by omega)
          have hn := toNat_ofNat_of_valid (n := b.toNat) (by omega)
          have henc : encodeRune (Char.ofNat b.toNat) = [b] := by
            rw [encodeRune_ascii _ (by omega), hn]; simp
          refine ⟨Char.ofNat b.toNat :: cs, rem, ?_, ?_, ?_⟩
          · rw [h1]; simp [henc]
          · simp [henc, h2]
          · intro c hc
            rcases List.mem_cons.1 hc with hc | hc
            · subst hc; rw [hn]; intro e; apply hsp; left
              exact (byte_eq_iff b 0x5c (by omega)).2 e
            · exact h3 c hc
        · rename_i hb
          dsimp only
          split
          · exact ⟨[], b :: bs, by simp, by simp, by simp⟩
          · rename_i herr
            have hsound := decodeRune_sound b bs herr
            have hpos := decodeRune_size_pos b bs
            generalize hd : decodeRune (b :: bs) = p at *
            obtain ⟨c, k⟩ := p
            dsimp only at *
            obtain ⟨cs, rem, h1, h2, h3⟩ := ih (done ++ (b :: bs).take k) ((b :: bs).drop k) (by
              simp; omega)
            refine ⟨c :: cs, rem, ?_, ?_, ?_⟩
            · rw [h1, hsound]; simp
            · have : b :: bs = (b :: bs).take k ++ (b :: bs).drop k := by simp
              rw [this, hsound, h2]; simp
            · intro d hdm
              rcases List.mem_cons.1 hdm with hdm | hdm
              · subst hdm
                intro e
                have : encodeRune d = [UInt8.ofNat d.toNat] := encodeRune_ascii d (by omega)
                rw [this] at hsound
                match k, hpos with
                | k + 1, _ =>
                  simp at hsound
                  rw [hsound.1, e] at hb
                  simp at hb
              · exact h3 d hdm

theorem unescLoop_runes (cs : List Char) (h : ∀ c ∈ cs, c.toNat ≠ 0x5c) : ∀ f rem out,
    unescLoop (f + cs.length) (utf8 cs ++ rem) out = unescLoop f rem (out ++ utf8 cs) := by
  induction cs with
  | nil => simp
  | cons c cs ih =>
    intro f rem out
    have e : f + (c :: cs).length = (f + cs.length) + 1 := by simp; omega
    rw [e, utf8_cons, List.append_assoc, unescLoop_rune _ _ _ _ (h c List.mem_cons_self),
      ih (fun c hc => h c (List.mem_cons_of_mem _ hc))]
    simp

theorem utf8_length_ge (cs : List Char) : cs.length ≤ (utf8 cs).length := by
  induction cs with
  | nil => simp
  | cons c cs ih => have := encodeRune_length_pos c; simp; omega

/-- The fast path does not change the result. -/
theorem unescapePoBytes_eq (s r : Bytes) (f : Nat) (h : unescLoop f s [] = some r) :
    unescapePoBytes f s = some r := by
  unfold unescapePoBytes
  obtain ⟨cs, rem, h1, h2, h3⟩ := fastScan_spec s.length [] s (Nat.le_refl _)
  rw [h1]
  have h' := unescLoop_fuel_le (g := f + cs.length) (by omega) h
  rw [h2, unescLoop_runes cs h3] at h'
  simp at h' ⊢
  cases rem with
  | nil => simp [unescLoop] at h' ⊢; rw [h2, ← h']; simp
  | cons b bs => simpa using h'

theorem unescapePoBytes_eq' (s r : Bytes) (f : Nat) (h : unescapePoBytes f s = some r) :
    ∃ g, unescLoop g s [] = some r := by
  unfold unescapePoBytes at h
  obtain ⟨cs, rem, h1, h2, h3⟩ := fastScan_spec s.length [] s (Nat.le_refl _)
  rw [h1] at h
  cases rem with
  | nil =>
    simp at h h2
    refine ⟨0 + cs.length, ?_⟩
    have := unescLoop_runes cs h3 0 [] []
    simp at this
    rw [Nat.zero_add, h2, this, ← h, h2]
    simp [unescLoop]
  | cons b bs =>
    simp at h
    refine ⟨f + cs.length, ?_⟩
    rw [h2, unescLoop_runes cs h3]
    simpa using h

/-! ### Termination: the escape state at the end of the text -/

/-- Whether a backslash is pending after the bytes (proof helper). -/
def escState : Bool → Bytes → Bool
  | st, [] => st
  | st, b :: bs => escState (b == 0x5c && !st) bs

theorem escState_append (st : Bool) (a b : Bytes) : escState st (a ++ b) = escState (escState st a) b := by
  induction a generalizing st with
  | nil => rfl
  | cons x xs ih => simp [escState, ih]

theorem trailing_snoc (s : Bytes) (b : UInt8) :
    trailingBackslashes (s ++ [b]) = if b = 0x5c then trailingBackslashes s + 1 else 0 := by
  unfold trailingBackslashes
  simp only [List.reverse_append, List.reverse_cons, List.reverse_nil, List.nil_append, List.cons_append,
    List.takeWhile_cons]
  split
  · rename_i h; simp at h; simp [h]
  · rename_i h; simp at h; simp [h]

theorem escState_snoc_induction (s : List UInt8) : ∀ n, s.length = n →
    (escState false s = true ↔ trailingBackslashes s % 2 = 1) := by
  intro n
  induction n generalizing s with
  | zero => intro h; rw [List.length_eq_zero_iff.1 h]; simp [escState, trailingBackslashes]
  | succ n ih =>
    intro h
    have hne : s ≠ [] := by intro e; rw [e] at h; simp at h
    rw [← List.dropLast_concat_getLast hne, escState_append, trailing_snoc]
    have := ih s.dropLast (by simp [h])
    simp only [escState]
    by_cases hb : s.getLast hne = 0x5c
    · simp only [hb]
      cases he : escState false s.dropLast <;> simp [he] at this ⊢ <;> omega
    · simp [hb]

theorem escState_iff (s : Bytes) : escState false s = true ↔ trailingBackslashes s % 2 = 1 :=
  escState_snoc_induction s _ rfl

theorem escState_high (st : Bool) (s : Bytes) (hs : s ≠ []) (h : ∀ b ∈ s, 0x80 ≤ b.toNat) :
    escState st s = false := by
  induction s generalizing st with
  | nil => exact absurd rfl hs
  | cons b bs ih =>
    have hb := h b List.mem_cons_self
    have hne : (b == 0x5c) = false := by
      simp only [beq_eq_false_iff_ne]; intro e; rw [e] at hb; simp at hb
    simp only [escState, hne, Bool.false_and]
    cases bs with
    | nil => rfl
    | cons c cs => exact ih false (by simp) (fun b hb => h b (List.mem_cons_of_mem _ hb))

theorem unescapeLetter_none {e : UInt8} (h : unescapeLetter e = none) : e ≠ 0x5c := by
  intro he; subst he; simp [unescapeLetter] at h

/-- What a step of `DecodeRune` consumes at a byte ≥ 0x80 are bytes ≥ 0x80. -/
theorem decode_take_high (b : UInt8) (bs : Bytes) (h : ¬ b.toNat < 0x80) :
    ∀ x ∈ (b :: bs).take (decodeRune (b :: bs)).2, 0x80 ≤ x.toNat := by
  intro x hx
  by_cases herr : (decodeRune (b :: bs)).1 = runeError ∧ (decodeRune (b :: bs)).2 = 1
  · rw [herr.2] at hx
    simp at hx; subst hx; omega
  · have hs := decodeRune_sound b bs herr
    rw [hs] at hx
    by_cases hc : 0x80 ≤ (decodeRune (b :: bs)).1.toNat
    · exact encodeRune_multi _ hc x hx
    · rw [encodeRune_ascii _ (by omega)] at hs
      have hp := decodeRune_size_pos b bs
      generalize decodeRune (b :: bs) = p at *
      match p, hp with
      | (c, k + 1), _ =>
        simp at hs hc
        rw [hs.1] at h
        simp at h; omega

theorem unescLoop_returns : ∀ (n : Nat) (s out : Bytes), s.length ≤ n → escState false s = false →
    ∃ r, unescLoop n s out = some r := by
  intro n
  induction n with
  | zero =>
    intro s out hs _
    have : s = [] := List.length_eq_zero_iff.1 (by omega)
    subst this
    exact ⟨out, by simp [unescLoop]⟩
  | succ n ih =>
    intro s out hs hst
    cases s with
    | nil => exact ⟨out, by simp [unescLoop]⟩
    | cons b bs =>
      simp only [List.length_cons] at hs
      rw [unescLoop_cons]
      split
      · rename_i hb
        subst hb
        cases bs with
        | nil => simp [escState] at hst
        | cons e bs' =>
          simp only [List.length_cons] at hs
          dsimp only
          simp only [escState] at hst
          cases hu : unescapeLetter e with
          | some x => exact ih _ _ (by omega) (by simpa using hst)
          | none =>
            have := unescapeLetter_none hu
            refine ih _ _ (by simp; omega) ?_
            simpa [escState, beq_false_of_ne this] using hst
      · rename_i hb
        split
        · apply ih _ _ (by omega)
          simpa [escState, beq_false_of_ne hb] using hst
        · rename_i h80
          have hp := decodeRune_size_pos b bs
          apply ih _ _ (by simp; omega)
          have : b :: bs = (b :: bs).take (decodeRune (b :: bs)).2 ++ (b :: bs).drop (decodeRune (b :: bs)).2 := by
            simp
          rw [this, escState_append, escState_high _ _ _ (decode_take_high b bs h80)] at hst
          · exact hst
          · intro e
            have := congrArg List.length e
            simp at this; omega

theorem unescLoop_hangs : ∀ (n : Nat) (s out : Bytes), escState false s = true →
    unescLoop n s out = none := by
  intro n
  induction n with
  | zero =>
    intro s out hst
    cases s with
    | nil => simp [escState] at hst
    | cons b bs => simp [unescLoop]
  | succ n ih =>
    intro s out hst
    cases s with
    | nil => simp [escState] at hst
    | cons b bs =>
      rw [unescLoop_cons]
      split
      · rename_i hb
        subst hb
        cases bs with
        | nil => exact ih _ _ hst
        | cons e bs' =>
          dsimp only
          simp only [escState] at hst
          cases hu : unescapeLetter e with
          | some x => exact ih _ _ (by simpa using hst)
          | none =>
            have := unescapeLetter_none hu
            refine ih _ _ ?_
            simpa [escState, beq_false_of_ne this] using hst
      · rename_i hb
        split
        · apply ih
          simpa [escState, beq_false_of_ne hb] using hst
        · rename_i h80
          have hp := decodeRune_size_pos b bs
          apply ih
          have : b :: bs = (b :: bs).take (decodeRune (b :: bs)).2 ++ (b :: bs).drop (decodeRune (b :: bs)).2 := by
            simp
          rw [this, escState_append, escState_high _ _ _ (decode_take_high b bs h80)] at hst
          · exact hst
          · intro e
            have := congrArg List.length e
            simp at this; omega

/-! ### Valid output -/

theorem validUtf8_append {a b : Bytes} (ha : ValidUtf8 a) (hb : ValidUtf8 b) : ValidUtf8 (a ++ b) := by
  obtain ⟨x, rfl⟩ := ha
  obtain ⟨y, rfl⟩ := hb
  exact ⟨x ++ y, by simp⟩

theorem validUtf8_byte (b : UInt8) (h : b.toNat < 0x80) : ValidUtf8 [b] := by
  refine ⟨[Char.ofNat b.toNat], ?_⟩
  have hn := toNat_ofNat_of_valid (n := b.toNat) (by omega)
  simp [encodeRune, hn, h]

theorem unescapeLetter_ascii : ∀ e : UInt8, ∀ x, unescapeLetter e = some x → x.toNat < 0x80 := by
  intro e x h
  have key : ∀ e : UInt8, ((unescapeLetter e).map (fun x => decide (x.toNat < 0x80))).getD true = true := by
    apply forall_byte; decide +kernel
  have := key e
  rw [h] at this
  simpa using this

theorem unescLoop_valid : ∀ (n : Nat) (s out r : Bytes), ValidUtf8 out → unescLoop n s out = some r →
    ValidUtf8 r := by
  intro n
  induction n with
  | zero =>
    intro s out r hv h
    cases s with
    | nil => simp [unescLoop] at h; subst h; exact hv
    | cons b bs => simp [unescLoop] at h
  | succ n ih =>
    intro s out r hv h
    cases s with
    | nil => simp [unescLoop] at h; subst h; exact hv
    | cons b bs =>
      rw [unescLoop_cons] at h
      split at h
      · rename_i hb
        subst hb
        cases bs with
        | nil => exact ih _ _ _ hv h
        | cons e bs' =>
          dsimp only at h
          cases hu : unescapeLetter e with
          | some x =>
            rw [hu] at h
            exact ih _ _ _ (validUtf8_append hv (validUtf8_byte x (unescapeLetter_ascii e x hu))) h
          | none =>
            rw [hu] at h
            exact ih _ _ _ (validUtf8_append hv (validUtf8_byte _ (by decide))) h
      · split at h
        · rename_i hb; exact ih _ _ _ (validUtf8_append hv (validUtf8_byte b hb)) h
        · exact ih _ _ _ (validUtf8_append hv ⟨[(decodeRune (b :: bs)).1], by simp⟩) h

theorem unescapePoBytes_valid {f : Nat} {s r : Bytes} (h : unescapePoBytes f s = some r) : ValidUtf8 r := by
  obtain ⟨g, hg⟩ := unescapePoBytes_eq' s r f h
  exact unescLoop_valid g s [] r ⟨[], rfl⟩ hg

end Verif.Model.PoString

namespace Verif.Model.PoString
open Verif.Go Verif.Spec.PoString

/-! ### Lines -/

/-- The three shapes of a line. -/
theorem line_cases (l : Bytes) : 0x22 ∉ l ∨ (∃ a b, l = a ++ 0x22 :: b ∧ (0x22 : UInt8) ∉ a ∧ (0x22 : UInt8) ∉ b) ∨
    (∃ a m b, l = a ++ [0x22] ++ m ++ [0x22] ++ b ∧ (0x22 : UInt8) ∉ a ∧ (0x22 : UInt8) ∉ b) := by
  by_cases h : (0x22 : UInt8) ∈ l
  · obtain ⟨a, r, h1, h2⟩ := exists_first _ _ h
    by_cases hr : (0x22 : UInt8) ∈ r
    · obtain ⟨m, b, h3, h4⟩ := exists_last _ _ hr
      exact .inr (.inr ⟨a, m, b, by simp [h1, h3], h2, h4⟩)
    · exact .inr (.inl ⟨a, r, h1, h2, hr⟩)
  · exact .inl h

theorem decodeLine_none_quote (f : Nat) {l : Bytes} (h : (0x22 : UInt8) ∉ l) : decodeLine f l = some [] := by
  unfold decodeLine
  rw [(indexByte?_none _ _).2 h]

theorem decodeLine_one_quote (f : Nat) {a b : Bytes} (h1 : (0x22 : UInt8) ∉ a) (h2 : (0x22 : UInt8) ∉ b) :
    decodeLine f (a ++ 0x22 :: b) = some [] := by
  unfold decodeLine
  rw [indexByte?_first _ _ _ h1, lastIndexByte?_last _ _ _ h2]
  simp

theorem decodeLine_quoted (f : Nat) {a m b : Bytes} (h1 : (0x22 : UInt8) ∉ a) (h2 : (0x22 : UInt8) ∉ b) :
    decodeLine f (a ++ [0x22] ++ m ++ [0x22] ++ b) = unescapePoBytes f m := by
  unfold decodeLine
  have e1 : a ++ [0x22] ++ m ++ [0x22] ++ b = a ++ 0x22 :: (m ++ 0x22 :: b) := by simp
  have e2 : a ++ [0x22] ++ m ++ [0x22] ++ b = (a ++ 0x22 :: m) ++ 0x22 :: b := by simp
  rw [show indexByte? 0x22 (a ++ [0x22] ++ m ++ [0x22] ++ b) = some a.length by
      rw [e1]; exact indexByte?_first _ _ _ h1,
    show lastIndexByte? 0x22 (a ++ [0x22] ++ m ++ [0x22] ++ b) = some (a ++ 0x22 :: m).length by
      rw [e2]; exact lastIndexByte?_last _ _ _ h2]
  dsimp only
  rw [if_neg (by simp)]
  congr 1
  unfold slice
  rw [e2, List.take_left]
  simp

/-- The decomposition at the outermost quotes is unique. -/
theorem quoted_unique {a m b a' m' b' : Bytes}
    (h : a ++ [0x22] ++ m ++ [0x22] ++ b = a' ++ [0x22] ++ m' ++ [0x22] ++ b')
    (ha : (0x22 : UInt8) ∉ a) (hb : (0x22 : UInt8) ∉ b) (ha' : (0x22 : UInt8) ∉ a') (hb' : (0x22 : UInt8) ∉ b') :
    m = m' := by
  have e1 : ∀ a m b : Bytes, a ++ [0x22] ++ m ++ [0x22] ++ b = a ++ 0x22 :: (m ++ 0x22 :: b) := by simp
  have e2 : ∀ a m b : Bytes, a ++ [0x22] ++ m ++ [0x22] ++ b = (a ++ 0x22 :: m) ++ 0x22 :: b := by simp
  have l1 : a.length = a'.length := by
    have := congrArg (indexByte? 0x22) h
    rw [e1, e1, indexByte?_first _ _ _ ha, indexByte?_first _ _ _ ha'] at this
    simpa using this
  have l2 : (a ++ 0x22 :: m).length = (a' ++ 0x22 :: m').length := by
    have := congrArg (lastIndexByte? 0x22) h
    rw [e2, e2, lastIndexByte?_last _ _ _ hb, lastIndexByte?_last _ _ _ hb'] at this
    simpa using this
  rw [e2, e2] at h
  have h3 := (List.append_inj h l2).1
  have h4 := (List.append_inj h3 l1).2
  simpa using h4

theorem unescapePoBytes_mono {f g : Nat} {s r : Bytes} (h : f ≤ g) (hs : unescapePoBytes f s = some r) :
    unescapePoBytes g s = some r := by
  unfold unescapePoBytes at hs ⊢
  split at hs
  · exact hs
  · exact unescLoop_fuel_le h hs

theorem decodeLine_mono {f g : Nat} {l r : Bytes} (h : f ≤ g) (hs : decodeLine f l = some r) :
    decodeLine g l = some r := by
  unfold decodeLine at hs ⊢
  split at hs
  · split at hs
    · rename_i e; rw [if_pos e]; exact hs
    · rename_i e; rw [if_neg e]; exact unescapePoBytes_mono h hs
  · exact hs

theorem decodeLines_mono {f g : Nat} (h : f ≤ g) : ∀ {ls rs : List Bytes}, decodeLines f ls = some rs →
    decodeLines g ls = some rs := by
  intro ls
  induction ls with
  | nil => intro rs hs; simpa [decodeLines] using hs
  | cons l ls ih =>
    intro rs hs
    unfold decodeLines at hs ⊢
    cases h1 : decodeLine f l with
    | none => rw [h1] at hs; simp at hs
    | some x =>
      rw [h1] at hs
      rw [decodeLine_mono h h1]
      cases h2 : decodeLines f ls with
      | none => rw [h2] at hs; simp at hs
      | some xs => rw [h2] at hs; rw [ih h2]; exact hs

theorem decode_mono {f g : Nat} {t r : Bytes} (h : f ≤ g) (hs : decodePoStringFuel f t = some r) :
    decodePoStringFuel g t = some r := by
  unfold decodePoStringFuel at hs ⊢
  split at hs
  · rename_i e; rw [if_pos e]; exact hs
  · rename_i e
    rw [if_neg e]
    cases h1 : decodeLines f (splitByte 0x0a t) with
    | none => rw [h1] at hs; simp at hs
    | some ls => rw [h1] at hs; rw [decodeLines_mono h h1]; exact hs

theorem decodes_unique {t r r' : Bytes} (h : Decodes t r) (h' : Decodes t r') : r = r' := by
  obtain ⟨f, hf⟩ := h
  obtain ⟨g, hg⟩ := h'
  have h1 := decode_mono (Nat.le_max_left f g) hf
  have h2 := decode_mono (Nat.le_max_right f g) hg
  rw [h1] at h2; simpa using h2

/-- A quoted escaped text decodes to the text. -/
theorem decodeLine_encLine (l : List Char) (h : ∀ c ∈ l, Encodable c) :
    decodeLine (l.flatMap escChar).length (encLine l) = some (utf8 l) := by
  have := decodeLine_quoted (l.flatMap escChar).length (a := []) (m := l.flatMap escChar) (b := [])
    (by simp) (by simp)
  have e : encLine l = [] ++ [0x22] ++ l.flatMap escChar ++ [0x22] ++ [] := by simp [encLine, quote]
  rw [e, this]
  exact unescapePoBytes_eq _ _ _ (by simpa using unescLoop_escaped l h _ [] (Nat.le_refl _))

theorem decodeLines_encLines (css : List (List Char)) (h : AllEnc css) :
    ∃ f, decodeLines f (css.map encLine) = some (css.map utf8) := by
  induction css with
  | nil => exact ⟨0, rfl⟩
  | cons l css ih =>
    obtain ⟨f, hf⟩ := ih (fun x hx => h x (List.mem_cons_of_mem _ hx))
    refine ⟨max f (l.flatMap escChar).length, ?_⟩
    simp only [List.map_cons, decodeLines]
    rw [decodeLine_mono (Nat.le_max_right _ _) (decodeLine_encLine l (h l List.mem_cons_self)),
      decodeLines_mono (Nat.le_max_left _ _) hf]

theorem escChar_no_special (c : Char) (h : Encodable c) : (0x0a : UInt8) ∉ escChar c := by
  by_cases hs : c.toNat < 0x80
  · have key : ∀ n : Fin 128, Encodable (Char.ofNat n.val) → (0x0a : UInt8) ∉ escChar (Char.ofNat n.val) := by
      decide +kernel
    have := key ⟨c.toNat, hs⟩
    simp only [ofNat_toNat] at this
    exact this h
  · rw [escChar_plain (by omega) (by omega) (by omega)]
    intro hm
    have := encodeRune_multi c (by omega) _ hm
    simp at this

theorem encLine_no_newline (l : List Char) (h : ∀ c ∈ l, Encodable c) : (0x0a : UInt8) ∉ encLine l := by
  unfold encLine quote
  simp only [List.mem_append, List.mem_singleton, not_or]
  refine ⟨⟨by decide, ?_⟩, by decide⟩
  rw [List.mem_flatMap]
  rintro ⟨c, hc, hm⟩
  exact escChar_no_special c (h c hc) hm

theorem encLine_eq_empty {l : List Char} (h : encLine l = b!"\"\"") : l = [] := by
  unfold encLine quote at h
  cases l with
  | nil => rfl
  | cons c cs =>
    have := congrArg List.length h
    have hp := escChar_length_pos c
    simp at this; omega

theorem encLine_ne_nil (l : List Char) : encLine l ≠ [] := by simp [encLine, quote]

theorem encLine_nil : encLine [] = b!"\"\"" := rfl

/-- The lines that `assemble` joins, as texts (proof helper). -/
def assembled (css : List (List Char)) : List (List Char) :=
  if css.length = 1 then css else [] :: css

theorem assemble_enc (css : List (List Char)) (hne : css ≠ []) (h2 : 2 ≤ css.length → ∀ l ∈ css, l ≠ []) :
    assemble (css.map encLine) = join [0x0a] ((assembled css).map encLine) := by
  match css, hne with
  | [l], _ => simp [assemble, assembled, join]
  | [l, m], _ =>
    have hm : m ≠ [] := h2 (by simp) m (by simp)
    simp only [List.map_cons, List.map_nil, assemble]
    rw [if_neg]
    · rfl
    · rintro (h | h)
      · exact encLine_ne_nil m h
      · exact hm (encLine_eq_empty h)
  | a :: b :: c :: rest, _ =>
    have hl : (b!"\"\"" :: (a :: b :: c :: rest).map encLine).getLast? =
        some (encLine ((a :: b :: c :: rest).getLast (by simp))) := by
      rw [List.getLast?_cons, List.getLast?_map, List.getLast?_eq_some_getLast (by simp)]
      rfl
    have hlast : (a :: b :: c :: rest).getLast (by simp) ≠ [] := h2 (by simp) _ (List.getLast_mem (by simp))
    show (match (b!"\"\"" :: (a :: b :: c :: rest).map encLine).getLast? with
      | some l => if l = [] ∨ l = b!"\"\"" then join [0x0a] (b!"\"\"" :: (a :: b :: c :: rest).map encLine).dropLast
          else join [0x0a] (b!"\"\"" :: (a :: b :: c :: rest).map encLine)
      | none => []) = _
    rw [hl]
    dsimp only
    rw [if_neg]
    · simp [assembled, encLine_nil]
    · rintro (h | h)
      · exact encLine_ne_nil _ h
      · exact hlast (encLine_eq_empty h)

theorem assembled_allEnc {css : List (List Char)} (h : AllEnc css) : AllEnc (assembled css) := by
  unfold assembled
  split
  · exact h
  · intro l hl
    rcases List.mem_cons.1 hl with hl | hl
    · subst hl; simp
    · exact h l hl

theorem assembled_flatten (css : List (List Char)) : (assembled css).flatten = css.flatten := by
  unfold assembled; split <;> simp

theorem assembled_ne_nil {css : List (List Char)} (h : css ≠ []) : assembled css ≠ [] := by
  unfold assembled; split <;> simp [h]

theorem flatMap_id_map_utf8 (css : List (List Char)) : (css.map utf8).flatMap id = utf8 css.flatten := by
  induction css with
  | nil => rfl
  | cons l ls ih => simp only [List.map_cons, List.flatMap_cons, List.flatten_cons, utf8_append, ih, id]

theorem decodes_join (css : List (List Char)) (hne : css ≠ []) (h : AllEnc css) :
    Decodes (join [0x0a] (css.map encLine)) (utf8 css.flatten) := by
  obtain ⟨f, hf⟩ := decodeLines_encLines css h
  refine ⟨f, ?_⟩
  have hsplit : splitByte 0x0a (join [0x0a] (css.map encLine)) = css.map encLine := by
    apply splitByte_join
    · simpa using hne
    · intro l hl
      obtain ⟨x, hx, rfl⟩ := List.mem_map.1 hl
      exact encLine_no_newline x (h x hx)
  unfold decodePoStringFuel
  split
  · rename_i e
    rw [e] at hsplit
    have e2 : splitByte 0x0a (b!"\"\"") = [encLine []] := by decide
    rw [e2] at hsplit
    match css, hsplit with
    | [l], hs =>
      simp at hs
      have : l = [] := encLine_eq_empty hs.symm
      subst this; rfl
    | [], hs => simp at hs
    | _ :: _ :: _, hs => simp at hs
  · rw [hsplit, hf]
    dsimp only
    rw [flatMap_id_map_utf8]

/-- Summary of the encoder for all inputs. -/
theorem encodePoString_cases (s : Bytes) (w : Int) :
    (∃ css : List (List Char), encodePoString s w = .ok (join [0x0a] ((assembled css).map encLine)) ∧
      css.flatten = runes s ∧ css ≠ [] ∧ AllEnc css) ∨
    ((∃ c ∈ runes s, ¬ Encodable c) ∧ encodePoString s w = .error .indexOutOfRange) := by
  have key : EncRes (runes s) (if w ≤ 0 then encodeWithoutWrap s else encodeWithWrap s w) := by
    split
    · exact encodeWithoutWrap_res s
    · exact encodeWithWrap_res s w
  have heq : encodePoString s w =
      (if w ≤ 0 then encodeWithoutWrap s else encodeWithWrap s w) >>= fun lines => .ok (assemble lines) := by
    unfold encodePoString
    by_cases hw : w ≤ 0
    · rw [if_pos hw]; simp only [if_pos hw]
    · rw [if_neg hw]; simp only [if_neg hw]
  rw [heq]
  rcases key with ⟨css, h1, h2, h3, h4, h5⟩ | ⟨hb, he⟩
  · rw [h1, bind_ok]
    exact .inl ⟨css, by rw [assemble_enc css h3 h5], h2, h3, h4⟩
  · rw [he, bind_err]
    exact .inr ⟨hb, rfl⟩

/-! ### Control runes are control bytes -/

theorem runesAux_small : ∀ (f : Nat) (s : Bytes), s.length ≤ f → ∀ n, n < 0x80 →
    ((∃ c ∈ runesAux f s, c.toNat = n) ↔ UInt8.ofNat n ∈ s) := by
  intro f
  induction f with
  | zero =>
    intro s hs n _
    have : s = [] := List.length_eq_zero_iff.1 (by omega)
    subst this; simp [runesAux]
  | succ f ih =>
    intro s hs n hn
    cases s with
    | nil => simp [runesAux]
    | cons b bs =>
      simp only [List.length_cons] at hs
      have hp := decodeRune_size_pos b bs
      have ih' := ih ((b :: bs).drop (decodeRune (b :: bs)).2) (by simp; omega) n hn
      have e : runesAux (f + 1) (b :: bs) = (decodeRune (b :: bs)).1 ::
        runesAux f ((b :: bs).drop (decodeRune (b :: bs)).2) := rfl
      rw [e]
      by_cases hb : b.toNat < 0x80
      · rw [decodeRune_ascii b bs hb] at ih' ⊢
        simp only [List.drop_succ_cons, List.drop_zero] at ih' ⊢
        have hv := toNat_ofNat_of_valid (n := b.toNat) (by omega)
        simp only [List.mem_cons, exists_eq_or_imp, hv, ih']
        constructor
        · rintro (h | h)
          · left; apply byte_ext; simp; omega
          · right; exact h
        · rintro (h | h)
          · left; rw [← h]; simp; omega
          · right; exact h
      · have hhigh := decode_take_high b bs hb
        have hmem : UInt8.ofNat n ∈ b :: bs ↔ UInt8.ofNat n ∈ (b :: bs).drop (decodeRune (b :: bs)).2 := by
          conv => lhs; rw [← List.take_append_drop (decodeRune (b :: bs)).2 (b :: bs)]
          rw [List.mem_append]
          constructor
          · rintro (h | h)
            · have := hhigh _ h
              simp at this; omega
            · exact h
          · exact fun h => .inr h
        rw [hmem, ← ih']
        have hc : 0x80 ≤ (decodeRune (b :: bs)).1.toNat := by
          by_cases herr : (decodeRune (b :: bs)).1 = runeError ∧ (decodeRune (b :: bs)).2 = 1
          · rw [herr.1]; decide
          · have hs := decodeRune_sound b bs herr
            by_cases hlt : (decodeRune (b :: bs)).1.toNat < 0x80
            · rw [encodeRune_ascii _ hlt] at hs
              have : UInt8.ofNat (decodeRune (b :: bs)).1.toNat ∈ (b :: bs).take (decodeRune (b :: bs)).2 := by
                rw [hs]; simp
              have := hhigh _ this
              simp at this; omega
            · omega
        simp only [List.mem_cons, exists_eq_or_imp]
        constructor
        · rintro (h | h)
          · omega
          · exact h
        · exact fun h => .inr h

theorem bad_rune_iff_bad_byte (s : Bytes) : (∃ c ∈ runes s, ¬ Encodable c) ↔ ∃ b ∈ s, BadByte b := by
  constructor
  · rintro ⟨c, hc, hn⟩
    have hlt : c.toNat < 0x20 ∧ ¬ (0x07 ≤ c.toNat ∧ c.toNat ≤ 0x0D) := by unfold Encodable at hn; omega
    refine ⟨UInt8.ofNat c.toNat, (runesAux_small _ s (Nat.le_refl _) c.toNat (by omega)).1 ⟨c, hc, rfl⟩, ?_⟩
    unfold BadByte
    rw [toNat_ofNat_small (by omega)]
    exact hlt
  · rintro ⟨b, hb, hlt⟩
    unfold BadByte at hlt
    obtain ⟨c, hc, he⟩ := (runesAux_small _ s (Nat.le_refl _) b.toNat (by omega)).2 (by simpa using hb)
    refine ⟨c, hc, ?_⟩
    unfold Encodable
    omega

/-! ### Lines of a text -/

theorem mem_splitByte_iff (line text : Bytes) : line ∈ splitByte 0x0a text ↔ IsLineOf line text := by
  constructor
  · intro h
    refine ⟨not_mem_of_mem_splitByte _ _ line h, ?_⟩
    generalize hn : text.length = n
    induction n using Nat.strongRecOn generalizing text with
    | _ n ih =>
      by_cases hm : (0x0a : UInt8) ∈ text
      · obtain ⟨a, b, h1, h2⟩ := exists_first _ _ hm
        rw [h1, splitByte_line _ _ _ h2] at h
        rcases List.mem_cons.1 h with h | h
        · exact ⟨[], 0x0a :: b, by simp [h1, h], .inl rfl, .inr rfl⟩
        · obtain ⟨pre, post, e, hp, hq⟩ := ih b.length (by rw [← hn, h1]; simp; omega) b h rfl
          refine ⟨a ++ 0x0a :: pre, post, by simp [h1, e], .inr ?_, hq⟩
          rcases hp with hp | hp
          · subst hp; simp
          · rw [List.getLast?_append, List.getLast?_cons, hp]; simp
      · rw [splitByte_of_not_mem _ _ hm] at h
        simp at h
        exact ⟨[], [], by simp [h], .inl rfl, .inl rfl⟩
  · rintro ⟨hnl, pre, post, e, hp, hq⟩
    have step : line ∈ splitByte 0x0a (line ++ post) := by
      rcases hq with hq | hq
      · subst hq; rw [List.append_nil, splitByte_of_not_mem _ _ hnl]; simp
      · cases post with
        | nil => simp at hq
        | cons x xs =>
          simp at hq; subst hq
          rw [splitByte_line _ _ _ hnl]; simp
    rcases hp with hp | hp
    · subst hp; rw [e]; simpa using step
    · have hne : pre ≠ [] := by intro h; rw [h] at hp; simp at hp
      have hlast : pre.getLast hne = 0x0a := by
        rw [List.getLast?_eq_some_getLast hne] at hp; simpa using hp
      have : pre = pre.dropLast ++ [0x0a] := by
        conv => lhs; rw [← List.dropLast_concat_getLast hne, hlast]
      rw [e, this]
      rw [List.append_assoc, List.append_assoc, List.singleton_append, splitByte_append_sep]
      exact List.mem_append_right _ step

/-- A line hangs the decoder iff it is dangling. -/
theorem decodeLine_returns_iff (line : Bytes) :
    (∃ f r, decodeLine f line = some r) ↔ ¬ Dangling line := by
  constructor
  · rintro ⟨f, r, h⟩ ⟨pre, body, post, e, h1, h2, hodd⟩
    rw [e, decodeLine_quoted f h1 h2] at h
    obtain ⟨g, hg⟩ := unescapePoBytes_eq' _ _ _ h
    rw [unescLoop_hangs g body [] ((escState_iff body).2 hodd)] at hg
    simp at hg
  · intro hd
    rcases line_cases line with h | ⟨a, b, e, h1, h2⟩ | ⟨a, m, b, e, h1, h2⟩
    · exact ⟨0, [], decodeLine_none_quote 0 h⟩
    · exact ⟨0, [], by rw [e]; exact decodeLine_one_quote 0 h1 h2⟩
    · have hst : escState false m = false := by
        cases hs : escState false m with
        | false => rfl
        | true => exact absurd ⟨a, m, b, e, h1, h2, (escState_iff m).1 hs⟩ hd
      obtain ⟨r, hr⟩ := unescLoop_returns m.length m [] (Nat.le_refl _) hst
      exact ⟨m.length, r, by rw [e, decodeLine_quoted _ h1 h2]; exact unescapePoBytes_eq _ _ _ hr⟩

theorem decodeLines_returns (ls : List Bytes) : (∃ f rs, decodeLines f ls = some rs) ↔
    ∀ l ∈ ls, ∃ f r, decodeLine f l = some r := by
  induction ls with
  | nil => exact ⟨fun _ => by simp, fun _ => ⟨0, [], rfl⟩⟩
  | cons l ls ih =>
    constructor
    · rintro ⟨f, rs, h⟩
      unfold decodeLines at h
      cases h1 : decodeLine f l with
      | none => rw [h1] at h; simp at h
      | some x =>
        rw [h1] at h
        cases h2 : decodeLines f ls with
        | none => rw [h2] at h; simp at h
        | some xs =>
          intro y hy
          rcases List.mem_cons.1 hy with hy | hy
          · subst hy; exact ⟨f, x, h1⟩
          · exact ih.1 ⟨f, xs, h2⟩ y hy
    · intro h
      obtain ⟨f, x, h1⟩ := h l List.mem_cons_self
      obtain ⟨g, xs, h2⟩ := ih.2 (fun y hy => h y (List.mem_cons_of_mem _ hy))
      refine ⟨max f g, x :: xs, ?_⟩
      unfold decodeLines
      rw [decodeLine_mono (Nat.le_max_left _ _) h1, decodeLines_mono (Nat.le_max_right _ _) h2]

theorem decodeLine_valid {f : Nat} {l r : Bytes} (h : decodeLine f l = some r) : ValidUtf8 r := by
  unfold decodeLine at h
  split at h
  · split at h
    · simp at h; subst h; exact ⟨[], rfl⟩
    · exact unescapePoBytes_valid h
  · simp at h; subst h; exact ⟨[], rfl⟩

theorem decodeLines_valid {f : Nat} : ∀ {ls rs : List Bytes}, decodeLines f ls = some rs →
    ValidUtf8 (rs.flatMap id) := by
  intro ls
  induction ls with
  | nil => intro rs h; simp [decodeLines] at h; subst h; exact ⟨[], rfl⟩
  | cons l ls ih =>
    intro rs h
    unfold decodeLines at h
    cases h1 : decodeLine f l with
    | none => rw [h1] at h; simp at h
    | some x =>
      rw [h1] at h
      cases h2 : decodeLines f ls with
      | none => rw [h2] at h; simp at h
      | some xs =>
        rw [h2] at h
        simp at h; subst h
        exact validUtf8_append (decodeLine_valid h1) (ih h2)

/-! ### Shape of encoded lines -/

theorem escapedBody_append {a b : Bytes} (ha : EscapedBody a) (hb : EscapedBody b) : EscapedBody (a ++ b) := by
  induction ha with
  | nil => exact hb
  | plain x rest h1 h2 h3 _ ih => exact .plain x _ h1 h2 h3 ih
  | esc e rest h1 _ ih => exact .esc e _ h1 ih

theorem escapedBody_plain (l : Bytes) (h : ∀ b ∈ l, 0x20 ≤ b.toNat ∧ b ≠ 0x22 ∧ b ≠ 0x5c) : EscapedBody l := by
  induction l with
  | nil => exact .nil
  | cons b bs ih =>
    obtain ⟨h1, h2, h3⟩ := h b List.mem_cons_self
    exact .plain b bs h1 h2 h3 (ih (fun x hx => h x (List.mem_cons_of_mem _ hx)))

theorem escapedBody_escChar (c : Char) (h : Encodable c) : EscapedBody (escChar c) := by
  by_cases hs : c.toNat < 0x20 ∨ c.toNat = 0x22 ∨ c.toNat = 0x5c
  · have key : ∀ n : Fin 128, Encodable (Char.ofNat n.val) →
        (n.val < 0x20 ∨ n.val = 0x22 ∨ n.val = 0x5c) →
        (escChar (Char.ofNat n.val)).length = 2 ∧ (escChar (Char.ofNat n.val))[0]? = some 0x5c ∧
        (escChar (Char.ofNat n.val))[1]?.getD 0 ∈ escapeLetters := by decide +kernel
    have := key ⟨c.toNat, by omega⟩
    simp only [ofNat_toNat] at this
    obtain ⟨k1, k2, k3⟩ := this h hs
    match he : escChar c, k1 with
    | [a, e], _ =>
      rw [he] at k2 k3
      simp at k2 k3
      subst k2
      exact .esc e [] k3 .nil
  · rw [escChar_plain (by omega) (by omega) (by omega)]
    apply escapedBody_plain
    intro b hb
    by_cases h8 : c.toNat < 0x80
    · rw [encodeRune_ascii c h8] at hb
      simp at hb; subst hb
      refine ⟨by simp; omega, ?_, ?_⟩
      · intro e; have := (ofNat_eq_iff (k := 0x22) (by omega) (by omega)).1 e; omega
      · intro e; have := (ofNat_eq_iff (k := 0x5c) (by omega) (by omega)).1 e; omega
    · have := encodeRune_multi c (by omega) b hb
      refine ⟨by omega, ?_, ?_⟩
      · intro e; rw [e] at this; simp at this
      · intro e; rw [e] at this; simp at this

theorem quotedLine_encLine (l : List Char) (h : ∀ c ∈ l, Encodable c) : QuotedLine (encLine l) := by
  refine ⟨l.flatMap escChar, rfl, ?_⟩
  induction l with
  | nil => exact .nil
  | cons c cs ih =>
    rw [List.flatMap_cons]
    exact escapedBody_append (escapedBody_escChar c (h c List.mem_cons_self))
      (ih (fun x hx => h x (List.mem_cons_of_mem _ hx)))

theorem join_cons_flatMap (sep : UInt8) (l : Bytes) (ls : List Bytes) :
    join [sep] (l :: ls) = l ++ ls.flatMap (fun x => sep :: x) := by
  induction ls generalizing l with
  | nil => simp [join]
  | cons m ms ih => rw [join, ih]; simp; simp

end Verif.Model.PoString
