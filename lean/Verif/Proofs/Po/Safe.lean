import Verif.Proofs.Po.FileRead
import Verif.Props.PoString
/-!
# Panics, endless loops and unrecognised lines in the parser for PO files
-/
namespace Verif.Proofs.Po
open Verif.Go Verif.Model.PoString Verif.Spec.PoString Verif.Spec.PoEntry
open Verif.Model.Po hiding Field

/-- The two ways not to return. -/
inductive Fail | panic | hang

def Fails {α : Type} : Fail → Res α → Prop
  | .panic, .panic => True
  | .hang, .hang => True
  | _, _ => False

theorem fails_bind {α β : Type} {k : Fail} {r : Res α} {g : α → Res β} (h : Fails k (r.bind g)) :
    Fails k r ∨ ∃ a, r = .ok a ∧ Fails k (g a) := by
  cases r with
  | ok a => exact .inr ⟨a, rfl, h⟩
  | eof => exact .inl (by cases k <;> exact h)
  | error e => exact .inl (by cases k <;> exact h)
  | panic => exact .inl (by cases k <;> exact h)
  | hang => exact .inl (by cases k <;> exact h)

theorem not_fails_ok {α : Type} {k : Fail} {a : α} : ¬ Fails k (.ok a) := by cases k <;> exact id
theorem not_fails_eof {α : Type} {k : Fail} : ¬ Fails k (.eof : Res α) := by cases k <;> exact id
theorem not_fails_error {α : Type} {k : Fail} {e : ParseError} : ¬ Fails k (.error e : Res α) := by cases k <;> exact id

/-- A token on which the parser may not return. -/
def TokFails (k : Fail) (t : Tok) : Prop :=
  (∃ m, Fails k (messageStep m t.1 t.2)) ∨ (t.1.isComment = true ∧ ∃ c, Fails k (commentStep c t.1 t.2))

theorem messageLoop_fails {k : Fail} {ts : List Tok} : ∀ {m}, Fails k (messageLoop m ts) → ∃ t ∈ ts, TokFails k t := by
  induction ts with
  | nil => intro m h; exact absurd h not_fails_ok
  | cons t ts ih =>
    intro m h
    obtain ⟨tok, lit⟩ := t
    rw [messageLoop] at h
    split at h
    · exact absurd h not_fails_ok
    · rcases fails_bind h with h | ⟨m', _, h⟩
      · exact ⟨_, List.mem_cons_self, .inl ⟨m, h⟩⟩
      · obtain ⟨t, ht, hf⟩ := ih h
        exact ⟨t, List.mem_cons_of_mem _ ht, hf⟩

theorem parseComment_fails {k : Fail} {ts : List Tok} : ∀ {c}, Fails k (parseComment c ts) → ∃ t ∈ ts, TokFails k t := by
  induction ts with
  | nil => intro m h; exact absurd h not_fails_eof
  | cons t ts ih =>
    intro m h
    obtain ⟨tok, lit⟩ := t
    rw [parseComment] at h
    split at h
    · exact absurd h not_fails_error
    · split at h
      · rename_i hc
        rcases fails_bind h with h | ⟨m', _, h⟩
        · exact ⟨_, List.mem_cons_self, .inr ⟨hc, m, h⟩⟩
        · obtain ⟨t, ht, hf⟩ := ih h
          exact ⟨t, List.mem_cons_of_mem _ ht, hf⟩
      · exact absurd h not_fails_ok

theorem messageLoop_suffix {ts : List Tok} : ∀ {m m' : Message} {r : List Tok}, messageLoop m ts = .ok (m', r) →
    r <:+ ts ∧ ((∃ t ∈ ts, t.1 = .failure) → ∃ t ∈ r, t.1 = .failure) := by
  induction ts with
  | nil => intro m m' r h; simp [messageLoop] at h; simp [h.2]
  | cons t ts ih =>
    intro m m' r h
    obtain ⟨tok, lit⟩ := t
    rw [messageLoop] at h
    split at h
    · rename_i he
      cases h
      refine ⟨List.suffix_cons _ _, ?_⟩
      rintro ⟨t, ht, hf⟩
      rcases List.mem_cons.1 ht with rfl | ht
      · simp only at hf; subst hf; exact absurd he (by decide)
      · exact ⟨t, ht, hf⟩
    · obtain ⟨a, h1, h2⟩ := bind_eq_ok.1 h
      obtain ⟨g1, g2⟩ := ih h2
      refine ⟨List.IsSuffix.trans g1 (List.suffix_cons _ _), ?_⟩
      rintro ⟨t, ht, hf⟩
      rcases List.mem_cons.1 ht with rfl | ht
      · simp only at hf; subst hf; simp [messageStep] at h1
      · exact g2 ⟨t, ht, hf⟩

theorem parseComment_suffix {ts : List Tok} : ∀ {c c' : Comment} {r : List Tok}, parseComment c ts = .ok (c', r) →
    r <:+ ts ∧ ((∃ t ∈ ts, t.1 = .failure) → ∃ t ∈ r, t.1 = .failure) := by
  induction ts with
  | nil => intro m m' r h; cases h
  | cons t ts ih =>
    intro m m' r h
    obtain ⟨tok, lit⟩ := t
    rw [parseComment] at h
    split at h
    · cases h
    · rename_i hf
      split at h
      · obtain ⟨a, h1, h2⟩ := bind_eq_ok.1 h
        obtain ⟨g1, g2⟩ := ih h2
        refine ⟨List.IsSuffix.trans g1 (List.suffix_cons _ _), ?_⟩
        rintro ⟨t, ht, hf'⟩
        rcases List.mem_cons.1 ht with rfl | ht
        · exact absurd hf' hf
        · exact g2 ⟨t, ht, hf'⟩
      · cases h; exact ⟨List.suffix_refl _, id⟩

theorem parseComment_eof {ts : List Tok} : ∀ {c : Comment}, parseComment c ts = .eof → ∀ t ∈ ts, t.1 ≠ .failure := by
  induction ts with
  | nil => simp
  | cons t ts ih =>
    intro c h
    obtain ⟨tok, lit⟩ := t
    rw [parseComment] at h
    split at h
    · cases h
    · rename_i hf
      split at h
      · rcases bind_eq_eof.1 h with h | ⟨a, _, h2⟩
        · exact absurd h (commentStep_ne_eof _ _ _)
        · intro t ht
          rcases List.mem_cons.1 ht with rfl | ht
          · exact hf
          · exact ih h2 t ht
      · cases h

theorem parseMessage_suffix {ts r : List Tok} {m : Message} (h : parseMessage ts = .ok (m, r)) :
    r <:+ ts ∧ ((∃ t ∈ ts, t.1 = .failure) → ∃ t ∈ r, t.1 = .failure) := by
  match ts, h with
  | (tok, lit) :: ts, h =>
    rw [parseMessage] at h
    split at h
    · obtain ⟨⟨c, r'⟩, h1, h2⟩ := bind_eq_ok.1 h
      have a := parseComment_suffix h1
      have b := messageLoop_suffix h2
      exact ⟨b.1.trans a.1, fun h => b.2 (a.2 h)⟩
    · exact messageLoop_suffix h

theorem parseMessage_eof {ts : List Tok} (h : parseMessage ts = .eof) : ∀ t ∈ ts, t.1 ≠ .failure := by
  match ts, h with
  | [], _ => simp
  | (tok, lit) :: ts, h =>
    rw [parseMessage] at h
    split at h
    · rcases bind_eq_eof.1 h with h | ⟨⟨c, r⟩, _, h2⟩
      · exact parseComment_eof h
      · exact absurd h2 (messageLoop_ne_eof _ _)
    · exact absurd h (messageLoop_ne_eof _ _)

theorem parseMessage_fails {k : Fail} {ts : List Tok} (h : Fails k (parseMessage ts)) : ∃ t ∈ ts, TokFails k t := by
  match ts, h with
  | [], h => exact absurd h not_fails_eof
  | (tok, lit) :: ts, h =>
    rw [parseMessage] at h
    split at h
    · rcases fails_bind h with h | ⟨⟨c, r⟩, h1, h⟩
      · exact parseComment_fails h
      · obtain ⟨t, ht, hf⟩ := messageLoop_fails h
        exact ⟨t, (parseComment_suffix h1).1.subset ht, hf⟩
    · exact messageLoop_fails h

theorem store_not_fails {u : Unicode} {k : Fail} {st : PState} {m : Message} : ¬ Fails k (store u st m) := by
  by_cases hid : m.id = []
  · rcases store_header (u := u) (st := st) hid with ⟨_, _, he⟩ | ⟨_, he, _⟩
    · rw [he]; exact not_fails_error
    · rw [he]; exact not_fails_ok
  · rcases store_message (u := u) (st := st) hid with ⟨_, he⟩ | ⟨_, _, he, _⟩
    · rw [he]; exact not_fails_error
    · rw [he]; exact not_fails_ok

theorem fileLoop_fails {u : Unicode} {k : Fail} : ∀ (f : Nat) {st : PState} {ts : List Tok}, Fails k (fileLoop u f st ts) →
    ∃ t ∈ ts, TokFails k t := by
  intro f
  induction f with
  | zero => intro st ts h; exact absurd h not_fails_ok
  | succ f ih =>
    intro st ts h
    rw [fileLoop] at h
    cases hp : parseMessage ts with
    | eof => rw [hp] at h; exact absurd h not_fails_ok
    | error e => rw [hp] at h; exact absurd h not_fails_error
    | panic => rw [hp] at h; exact parseMessage_fails (by rw [hp]; cases k <;> exact h)
    | hang => rw [hp] at h; exact parseMessage_fails (by rw [hp]; cases k <;> exact h)
    | ok a =>
      obtain ⟨m, r⟩ := a
      rw [hp] at h
      simp only at h
      rcases fails_bind h with h | ⟨st', _, h⟩
      · exact absurd h store_not_fails
      · obtain ⟨t, ht, hf⟩ := ih h
        exact ⟨t, (parseMessage_suffix hp).1.subset ht, hf⟩

theorem fileLoop_no_failure {u : Unicode} : ∀ (f : Nat) {st st' : PState} {ts : List Tok}, ts.length < f →
    fileLoop u f st ts = .ok st' → ∀ t ∈ ts, t.1 ≠ .failure := by
  intro f
  induction f with
  | zero => intro st st' ts h; omega
  | succ f ih =>
    intro st st' ts hl h
    rw [fileLoop] at h
    cases hp : parseMessage ts with
    | eof => exact parseMessage_eof hp
    | error e => rw [hp] at h; cases h
    | panic => rw [hp] at h; cases h
    | hang => rw [hp] at h; cases h
    | ok a =>
      obtain ⟨m, r⟩ := a
      rw [hp] at h
      simp only at h
      obtain ⟨s1, _, h⟩ := bind_eq_ok.1 h
      have hlt := parseMessage_length hp
      have hr := ih (by omega) h
      intro t ht hf
      obtain ⟨t', ht', hf'⟩ := (parseMessage_suffix hp).2 ⟨t, ht, hf⟩
      exact hr t' ht' hf'

/-! ## Literals -/

theorem matchQuoted_len {s : Bytes} (h : matchQuoted s = true) : 2 ≤ s.length ∧ 0x22 ∈ s := by
  match s, h with
  | [], h => cases h
  | c :: t, h =>
    have hc : c = 0x22 := by
      by_cases e : c = 0x22
      · exact e
      · exfalso
        simp only [matchQuoted] at h
        split at h
        · rename_i e'; exact e (List.cons.inj e').1
        · cases h
    subst hc
    simp only [matchQuoted, decide_eq_true_eq] at h
    cases t with
    | nil => cases h
    | cons x t => simp

theorem matchPrefix_spec {p : Bytes} {k : Bytes → Bool} {s : Bytes} (h : matchPrefix p k s = true) :
    ∃ r, s = p ++ r ∧ k r = true := by
  unfold matchPrefix at h
  simp only [Bool.and_eq_true, List.isPrefixOf_iff_prefix] at h
  obtain ⟨⟨r, rfl⟩, h2⟩ := h
  rw [List.drop_left] at h2
  exact ⟨r, rfl, h2⟩

theorem dropWhile_split (p : UInt8 → Bool) (s : Bytes) : ∃ a, s = a ++ s.dropWhile p ∧ ∀ b ∈ a, p b = true := by
  refine ⟨s.takeWhile p, (List.takeWhile_append_dropWhile).symm, ?_⟩
  intro b hb
  induction s with
  | nil => cases hb
  | cons x s ih =>
    rw [List.takeWhile_cons] at hb
    split at hb
    · rename_i hx
      rcases List.mem_cons.1 hb with rfl | hb
      · exact hx
      · exact ih hb
    · cases hb

theorem matchBlanks1_spec {k : Bytes → Bool} {s : Bytes} (h : matchBlanks1 k s = true) :
    ∃ b a r, s = b :: (a ++ r) ∧ isBlankByte b = true ∧ (∀ x ∈ a, isBlankByte x = true) ∧ k r = true := by
  match s, h with
  | [], h => cases h
  | b :: s, h =>
    simp only [matchBlanks1, Bool.and_eq_true] at h
    obtain ⟨a, e, ha⟩ := dropWhile_split isBlankByte s
    exact ⟨b, a, s.dropWhile isBlankByte, by rw [← e], h.1, ha, h.2⟩

theorem matchBlanks_spec {k : Bytes → Bool} {s : Bytes} (h : matchBlanks k s = true) :
    ∃ a r, s = a ++ r ∧ (∀ x ∈ a, isBlankByte x = true) ∧ k r = true := by
  obtain ⟨a, e, ha⟩ := dropWhile_split isBlankByte s
  exact ⟨a, s.dropWhile isBlankByte, e, ha, h⟩

theorem matchIndex_spec {k : Bytes → Bool} {s : Bytes} (h : matchIndex k s = true) :
    ∃ d ds r, s = 0x5b :: d :: (ds ++ 0x5d :: r) ∧ isDigit d = true ∧ (∀ x ∈ ds, isDigit x = true) ∧ k r = true := by
  match s, h with
  | [], h => cases h
  | [c], h => simp [matchIndex] at h
  | c :: d :: s, h =>
    have hc : c = 0x5b := by
      by_cases e : c = 0x5b
      · exact e
      · exfalso
        simp only [matchIndex] at h
        split at h
        · rename_i e'; exact e (List.cons.inj e').1
        · cases h
    subst hc
    simp only [matchIndex, Bool.and_eq_true] at h
    obtain ⟨hd, h⟩ := h
    obtain ⟨a, e, ha⟩ := dropWhile_split isDigit s
    split at h
    · rename_i r hr
      exact ⟨d, a, r, by rw [← hr, ← e], hd, ha, h⟩
    · cases h

/-- What is known about the literal of a token. -/
def LitOk : Tok → Prop
  | (.msgContext, x) => 8 ≤ x.length
  | (.msgID, x) => 6 ≤ x.length
  | (.msgIDPlural, x) => 13 ≤ x.length
  | (.msgStr, x) => 7 ≤ x.length
  | (.msgStrPlural, x) => 10 ≤ x.length ∧ ∃ l r, indexByte? 0x5b x = some l ∧ indexByte? 0x5d x = some r ∧ l + 1 ≤ r
  | (.commentTranslator, x) => 1 ≤ x.length
  | (.commentExtracted, x) | (.commentReference, x) | (.commentFlags, x)
  | (.commentPrevContextLine, x) | (.commentPrevMsgIDLine, x) => 2 ≤ x.length
  | (.commentPrevContext, x) => 10 ≤ x.length
  | (.commentPrevMsgID, x) => 8 ≤ x.length
  | _ => True

theorem litOk_not_panic {t : Tok} (h : LitOk t) : ¬ TokFails .panic t := by
  have key : ∀ {α} (r : Res α), Fails .panic r → r = .panic := by
    intro α r h; cases r <;> first | rfl | exact h.elim
  have hfrom : ∀ {k : Nat} {s : Bytes}, k ≤ s.length → from? k s = .ok (s.drop k) := by
    intro k s h; unfold from?; rw [if_pos h]
  obtain ⟨tok, lit⟩ := t
  rintro (⟨m, hm⟩ | ⟨_, c, hc⟩)
  · have hm := key _ hm
    simp only at hm
    cases tok <;> simp only [messageStep, LitOk] at hm h
    case msgStrPlural =>
      obtain ⟨h1, l, r, h2, h3, h4⟩ := h
      simp only [pluralStep, h2, h3] at hm
      rw [if_pos h4, hfrom h1] at hm
      cases ha : atoi (slice lit (l + 1) r) with
      | none => simp [ha] at hm
      | some i => simp [ha, bind_eq_panic, decode_ne_panic] at hm
    case msgStrPluralLine =>
      split at hm
      · cases hm
      · simp [bind_eq_panic, decode_ne_panic] at hm
    all_goals first
      | (rw [hfrom h] at hm; simp [bind_eq_panic, decode_ne_panic] at hm)
      | simp [bind_eq_panic, decode_ne_panic] at hm
  · have hc := key _ hc
    simp only at hc
    cases tok <;> simp only [commentStep, LitOk] at hc h
    case commentPrevContext =>
      rw [hfrom h] at hc
      change Res.bind (decodePrev _ _) _ = _ at hc
      rcases bind_eq_panic.1 hc with hc | ⟨_, _, hc⟩
      · unfold decodePrev at hc
        split at hc
        · cases hc
        · simp [bind_eq_panic, decode_ne_panic] at hc
      · cases hc
    case commentPrevMsgID =>
      rw [hfrom h] at hc
      change Res.bind (decodePrev _ _) _ = _ at hc
      rcases bind_eq_panic.1 hc with hc | ⟨_, _, hc⟩
      · unfold decodePrev at hc
        split at hc
        · cases hc
        · simp [bind_eq_panic, decode_ne_panic] at hc
      · cases hc
    all_goals first
      | (rw [hfrom h] at hc; simp [bind_eq_panic, decode_ne_panic] at hc)
      | simp [bind_eq_panic, decode_ne_panic] at hc

theorem indexByte_first {c : UInt8} {a b : Bytes} (h : c ∉ a) : indexByte? c (a ++ c :: b) = some a.length := by
  induction a with
  | nil => simp [indexByte?]
  | cons x a ih =>
    simp only [List.mem_cons, not_or] at h
    rw [List.cons_append, indexByte?, if_neg (fun e => h.1 e.symm), ih h.2]
    rfl

theorem reMsgStrPlural_ok {x : Bytes} (h : reMsgStrPlural x = true) : LitOk (.msgStrPlural, x) := by
  obtain ⟨r, rfl, h1⟩ := matchPrefix_spec h
  obtain ⟨a, r, rfl, ha, h2⟩ := matchBlanks_spec h1
  obtain ⟨d, ds, r, rfl, hd, hds, h3⟩ := matchIndex_spec h2
  obtain ⟨b, r, rfl, hb, h4⟩ := matchBlanks_spec h3
  have hq := (matchQuoted_len h4).1
  have na : ∀ c, isBlankByte c = false → c ∉ a := by
    intro c hc hm; rw [ha c hm] at hc; cases hc
  refine ⟨by simp; omega, 6 + a.length, 6 + a.length + (2 + ds.length), ?_, ?_, by omega⟩
  · have e : b!"msgstr" ++ (a ++ 0x5b :: d :: (ds ++ 0x5d :: (b ++ r))) =
      (b!"msgstr" ++ a) ++ 0x5b :: (d :: (ds ++ 0x5d :: (b ++ r))) := by simp
    rw [e, indexByte_first]
    · simp; omega
    · simp only [List.mem_append, not_or]; exact ⟨by decide, na _ (by decide)⟩
  · have e : b!"msgstr" ++ (a ++ 0x5b :: d :: (ds ++ 0x5d :: (b ++ r))) =
      (b!"msgstr" ++ a ++ 0x5b :: d :: ds) ++ 0x5d :: (b ++ r) := by simp
    rw [e, indexByte_first]
    · simp; omega
    · simp only [List.mem_append, List.mem_cons, not_or]
      refine ⟨⟨by decide, na _ (by decide)⟩, by decide, ?_, ?_⟩
      · rintro rfl; exact absurd hd (by decide)
      · intro hm; exact absurd (hds _ hm) (by decide)

theorem kw_len {p x : Bytes} (h : matchPrefix p (matchBlanks1 matchQuoted) x = true) : p.length + 3 ≤ x.length := by
  obtain ⟨r, rfl, h5⟩ := matchPrefix_spec h
  obtain ⟨b, a, r, rfl, _, _, h6⟩ := matchBlanks1_spec h5
  have := (matchQuoted_len h6).1
  simp; omega

theorem prev_len {p x : Bytes} (h : matchPrefix b!"#|" (matchBlanks1 (matchPrefix p fun _ => true)) x = true) :
    3 + p.length ≤ x.length := by
  obtain ⟨r, rfl, h7⟩ := matchPrefix_spec h
  obtain ⟨b, a, r, rfl, _, _, h8⟩ := matchBlanks1_spec h7
  obtain ⟨r, rfl, h9⟩ := matchPrefix_spec h8
  simp; omega

theorem lineToken_litOk {ignore : Bool} {last t : Token} {x : Bytes} (h : lineToken ignore last x = some t) :
    LitOk (t, x) := by
  unfold lineToken at h
  split at h
  · rename_i hh
    match x, hh, h with
    | [c], _, h =>
      simp only [scanComment] at h
      split at h
      · cases h
      · cases h; simp [LitOk]
    | c :: c2 :: rest, _, h =>
      simp only [scanComment] at h
      split at h
      · cases h
      · split at h
        · cases h
        · cases h
          unfold commentToken
          split
          · simp [LitOk]
          · split
            · simp [LitOk]
            · split
              · simp [LitOk]
              · split
                · split
                  · rename_i hp
                    exact prev_len hp
                  · split
                    · rename_i hp
                      exact prev_len hp
                    · split
                      · unfold prevContinuation
                        split <;> simp [LitOk]
                      · trivial
                · simp [LitOk]
  · have hm : LitOk (scanMessage last x, x) := by
      unfold scanMessage
      split
      · rename_i hp; have := kw_len hp.2; simp [LitOk] at this ⊢; omega
      · split
        · split
          · rename_i hp
            rcases hp with rfl | hp
            · show 7 ≤ _; decide
            · obtain ⟨r, rfl, hp10⟩ := matchPrefix_spec hp
              obtain ⟨a, r, rfl, _, hp11⟩ := matchBlanks_spec hp10
              have := (matchQuoted_len hp11).1
              simp [LitOk]; omega
          · split
            · rename_i hp; exact reMsgStrPlural_ok hp
            · trivial
        · split
          · rename_i hp; have := kw_len hp.2; simp [LitOk] at this ⊢; omega
          · split
            · rename_i hp; have := kw_len hp.2; simp [LitOk] at this ⊢; omega
            · split
              · cases last <;> trivial
              · trivial
    split at h
    · cases h; trivial
    · cases h; exact hm

theorem mem_tokensFrom {ignore : Bool} {t : Tok} : ∀ {ls : List Bytes} {w : Bool} {last : Token},
    t ∈ tokensFrom ignore w last ls → t = ws ∨
      ∃ l ∈ ls, ∃ last', trimSpace l = t.2 ∧ lineToken ignore last' t.2 = some t.1 := by
  intro ls
  induction ls with
  | nil => intro w last h; cases h
  | cons l ls ih =>
    intro w last h
    have lift : (t = ws ∨ ∃ l ∈ ls, ∃ last', trimSpace l = t.2 ∧ lineToken ignore last' t.2 = some t.1) →
        (t = ws ∨ ∃ l' ∈ l :: ls, ∃ last', trimSpace l' = t.2 ∧ lineToken ignore last' t.2 = some t.1) := by
      rintro (h | ⟨l', h1, h2⟩)
      · exact .inl h
      · exact .inr ⟨l', List.mem_cons_of_mem _ h1, h2⟩
    rw [tokensFrom] at h
    split at h
    · split at h
      · exact lift (ih h)
      · rcases List.mem_cons.1 h with h | h
        · exact .inl h
        · exact lift (ih h)
    · split at h
      · exact lift (ih h)
      · rename_i t' ht
        rcases List.mem_cons.1 h with rfl | h
        · exact .inr ⟨l, List.mem_cons_self, last, rfl, ht⟩
        · exact lift (ih h)

/-! ## Hanging -/

theorem trailing_append (a b : Bytes) : trailingBackslashes (a ++ [0x22] ++ b) = trailingBackslashes b := by
  unfold trailingBackslashes
  rw [List.reverse_append, List.reverse_append]
  congr 1
  generalize b.reverse = r
  induction r with
  | nil => rfl
  | cons x r ih => rw [List.cons_append, List.takeWhile_cons, List.takeWhile_cons, ih]

theorem dangling_infix {s : Bytes} (h : Dangling s) (a : Bytes) {b : Bytes} (hb : 0x22 ∉ b) : Dangling (a ++ s ++ b) := by
  obtain ⟨pre, body, post, rfl, h1, h2, h3⟩ := h
  have hpost : 0x22 ∉ post ++ b := by simp [h2, hb]
  by_cases ha : 0x22 ∈ a
  · obtain ⟨a1, a2, rfl, hn⟩ : ∃ a1 a2, a = a1 ++ [0x22] ++ a2 ∧ (0x22 : UInt8) ∉ a1 := by
      clear h1 h2 h3 hb hpost
      induction a with
      | nil => cases ha
      | cons x a ih =>
        by_cases hx : x = 0x22
        · exact ⟨[], a, by simp [hx], by simp⟩
        · rcases List.mem_cons.1 ha with e | ha
          · exact absurd e.symm hx
          · obtain ⟨a1, a2, e, hn⟩ := ih ha
            exact ⟨x :: a1, a2, by rw [e]; rfl, by simp only [List.mem_cons, not_or]; exact ⟨fun e => hx e.symm, hn⟩⟩
    exact ⟨a1, a2 ++ pre ++ [0x22] ++ body, post ++ b, by simp, hn, hpost, by rw [trailing_append]; exact h3⟩
  · exact ⟨a ++ pre, body, post ++ b, by simp, by simp [ha, h1], hpost, h3⟩

theorem spaces_no_quote {s : Bytes} (h : Spaces s) : (0x22 : UInt8) ∉ s := by
  obtain ⟨xs, hx, rfl⟩ := h
  intro hm
  obtain ⟨x, h1, h2⟩ := List.mem_flatten.1 hm
  have : ∀ e ∈ spaceEncodings, (0x22 : UInt8) ∉ e := by decide
  exact this x (hx x h1) h2

theorem trimSpace_split (l : Bytes) : ∃ a b, l = a ++ trimSpace l ++ b ∧ Spaces a ∧ Spaces b := by
  obtain ⟨a, ha, e1, _⟩ := trimLeft_spec l
  obtain ⟨b, hb, e2, _⟩ := trimRight_spec (trimLeft l)
  refine ⟨a, b, ?_, ha, hb⟩
  unfold trimSpace
  rw [List.append_assoc, ← e2, ← e1]

theorem dangling_trim {l : Bytes} (h : Dangling (trimSpace l)) : Dangling l := by
  obtain ⟨a, b, e, _, hb⟩ := trimSpace_split l
  rw [e]
  exact dangling_infix h a (spaces_no_quote hb)

theorem dangling_drop {k : Nat} {l : Bytes} (h : Dangling (l.drop k)) : Dangling l := by
  have := dangling_infix h (l.take k) (b := []) (by simp)
  rw [List.append_nil, List.take_append_drop] at this
  exact this

theorem decode_hang_dangling {l : Bytes} (ho : OneLine l) (h : decode l = .hang) : Dangling l := by
  obtain ⟨line, ⟨h1, pre, post, e, h2, h3⟩, hd⟩ := (Verif.Props.PoString.C03_hangs_iff l).1 ((decode_hang l).1 h)
  have hp : pre = [] := by
    rcases h2 with h2 | h2
    · exact h2
    · obtain ⟨ys, hy⟩ := List.getLast?_eq_some_iff.1 h2
      exact absurd (by rw [e, hy]; simp) ho
  have hq : post = [] := by
    cases post with
    | nil => rfl
    | cons x post =>
      rcases h3 with h3 | h3
      · cases h3
      · simp only [List.head?_cons, Option.some.injEq] at h3
        exact absurd (by rw [e, h3]; simp) ho
  rw [e, hp, hq]
  simpa using hd

theorem oneLine_drop {l : Bytes} (h : OneLine l) (k : Nat) : OneLine (l.drop k) := fun hm => h (List.mem_of_mem_drop hm)

theorem oneLine_trim {l : Bytes} (h : OneLine l) : OneLine (trimSpace l) := by
  intro hm
  obtain ⟨a, b, e, _⟩ := trimSpace_split l
  apply h
  rw [e]; simp [hm]

theorem tokFails_hang {t : Tok} (ho : OneLine t.2) (h : TokFails .hang t) : Dangling t.2 := by
  have key : ∀ {α} (r : Res α), Fails .hang r → r = .hang := by
    intro α r h; cases r <;> first | rfl | exact h.elim
  have hfrom : ∀ {k : Nat} {s l : Bytes}, from? k s = .ok l → l = s.drop k := by
    intro k s l h; unfold from? at h; split at h
    · cases h; rfl
    · cases h
  have hfrom' : ∀ {k : Nat} {s : Bytes}, from? k s ≠ .hang := by
    intro k s h; unfold from? at h; split at h <;> cases h
  have hdec : ∀ {k : Nat}, decode (t.2.drop k) = .hang → Dangling t.2 := fun h =>
    dangling_drop (decode_hang_dangling (oneLine_drop ho _) h)
  have hdect : ∀ {k : Nat}, decode (trimSpace (t.2.drop k)) = .hang → Dangling t.2 := fun h =>
    dangling_drop (dangling_trim (decode_hang_dangling (oneLine_trim (oneLine_drop ho _)) h))
  have hdec0 : decode t.2 = .hang → Dangling t.2 := decode_hang_dangling ho
  have kw : ∀ {α} {k : Nat} {g : Bytes → α}, ((from? k t.2).bind fun l => (decode l).bind fun r => Res.ok (g r)) = .hang →
      Dangling t.2 := by
    intro α k g h
    rcases bind_eq_hang.1 h with h | ⟨l, h1, h⟩
    · exact absurd h hfrom'
    · rcases bind_eq_hang.1 h with h | ⟨r, _, h⟩
      · rw [hfrom h1] at h; exact hdec h
      · cases h
  have kwt : ∀ {α} {k : Nat} {g : Bytes → α}, ((from? k t.2).bind fun l => (decode (trimSpace l)).bind fun r => Res.ok (g r)) = .hang →
      Dangling t.2 := by
    intro α k g h
    rcases bind_eq_hang.1 h with h | ⟨l, h1, h⟩
    · exact absurd h hfrom'
    · rcases bind_eq_hang.1 h with h | ⟨r, _, h⟩
      · rw [hfrom h1] at h; exact hdect h
      · cases h
  have kwp : ∀ {α} {k : Nat} {o : Bytes} {g : Bytes → α}, ((from? k t.2).bind fun l => (decodePrev o l).bind fun r => Res.ok (g r)) = .hang →
      Dangling t.2 := by
    intro α k o g h
    rcases bind_eq_hang.1 h with h | ⟨l, h1, h⟩
    · exact absurd h hfrom'
    · rcases bind_eq_hang.1 h with h | ⟨r, _, h⟩
      · unfold decodePrev at h
        split at h
        · cases h
        · rcases bind_eq_hang.1 h with h | ⟨r, _, h⟩
          · rw [hfrom h1] at h; exact hdect h
          · cases h
      · cases h
  have kw0 : ∀ {α} {g : Bytes → α}, ((decode t.2).bind fun r => Res.ok (g r)) = .hang → Dangling t.2 := by
    intro α g h
    rcases bind_eq_hang.1 h with h | ⟨r, _, h⟩
    · exact hdec0 h
    · cases h
  have kwx : ∀ {α} {k : Nat} {g : Bytes → α}, ((from? k t.2).bind fun l => Res.ok (g l)) ≠ .hang := by
    intro α k g h
    rcases bind_eq_hang.1 h with h | ⟨l, h1, h⟩
    · exact absurd h hfrom'
    · cases h
  obtain ⟨tok, lit⟩ := t
  simp only at *
  rcases h with ⟨m, hm⟩ | ⟨_, c, hc⟩
  · have hm := key _ hm
    cases tok <;> simp only [messageStep] at hm
    case msgStrPlural =>
      unfold pluralStep at hm
      split at hm
      · split at hm
        · split at hm
          · cases hm
          · exact kw hm
        · cases hm
      · cases hm
    case msgStrPluralLine =>
      split at hm
      · cases hm
      · exact kw0 hm
    all_goals first
      | exact kw hm
      | exact kw0 hm
      | cases hm
  · have hc := key _ hc
    cases tok <;> simp only [commentStep] at hc
    all_goals first
      | exact kwp hc
      | exact kwt hc
      | exact absurd hc kwx
      | cases hc

/-! ## The parser -/

theorem run_not_panic (u : Unicode) (ignore : Bool) (st : PState) (ls : List Bytes) : run u ignore st ls ≠ .panic := by
  intro h
  obtain ⟨t, ht, hf⟩ := fileLoop_fails (k := .panic) _ (show Fails .panic (run u ignore st ls) by rw [h]; trivial)
  refine litOk_not_panic ?_ hf
  rcases mem_tokensFrom ht with rfl | ⟨l, _, last, e, hl⟩
  · trivial
  · exact lineToken_litOk hl

theorem run_hang {u : Unicode} {ignore : Bool} {st : PState} {ls : List Bytes} (ho : ∀ l ∈ ls, OneLine l)
    (h : run u ignore st ls = .hang) : ∃ l ∈ ls, Dangling l := by
  obtain ⟨t, ht, hf⟩ := fileLoop_fails (k := .hang) _ (show Fails .hang (run u ignore st ls) by rw [h]; trivial)
  rcases mem_tokensFrom ht with rfl | ⟨l, hm, last, e, hl⟩
  · have : Dangling [] := tokFails_hang (t := ws) (by simp [OneLine]) hf
    obtain ⟨_, _, _, e, _⟩ := this
    simp at e
  · refine ⟨l, hm, ?_⟩
    have := tokFails_hang (by rw [← e]; exact oneLine_trim (ho l hm)) hf
    rw [← e] at this
    exact dangling_trim this

theorem run_no_failure {u : Unicode} {ignore : Bool} {st st' : PState} {ls : List Bytes}
    (h : run u ignore st ls = .ok st') : ∀ t ∈ tokens ignore ls, t.1 ≠ .failure :=
  fileLoop_no_failure _ (Nat.lt_succ_self _) h

theorem trim_getLast {x : Bytes} (hx : trimSpace x = x) : ∀ b ∈ x.getLast?, isBlankByte b = false := by
  intro b hb
  obtain ⟨ys, e⟩ := List.getLast?_eq_some_iff.1 hb
  cases hbb : isBlankByte b with
  | false => rfl
  | true =>
    have hmem : [b] ∈ spaceEncodings := by
      unfold isBlankByte at hbb
      simp only [Bool.or_eq_true, decide_eq_true_eq] at hbb
      rcases hbb with (((rfl | rfl) | rfl) | rfl) | rfl <;> decide
    have : trimRight (trimLeft x) = x := hx
    obtain ⟨_, _, _, hn⟩ := trimRight_spec (trimLeft x)
    rw [this] at hn
    exact absurd ⟨ys, e.symm⟩ (hn _ hmem)

theorem trimSpace_idem (l : Bytes) : trimSpace (trimSpace l) = trimSpace l := by
  unfold trimSpace
  obtain ⟨b, hb, e, hs⟩ := trimRight_spec (trimLeft l)
  obtain ⟨a, ha, e2, hp⟩ := trimLeft_spec l
  generalize hy : trimLeft l = y at *
  have h1 : trimLeft (trimRight y) = trimRight y := by
    obtain ⟨a', ⟨xs, hx1, rfl⟩, h2, _⟩ := trimLeft_spec (trimRight y)
    cases xs with
    | nil => exact h2.symm
    | cons z xs =>
      exfalso
      rw [List.flatten_cons] at h2
      exact hp z (hx1 z List.mem_cons_self) ⟨xs.flatten ++ trimLeft (trimRight y) ++ b, by
        rw [← List.append_assoc, ← List.append_assoc, ← h2, ← e]⟩
  rw [h1]
  have := trimRight_spaces hb (trimRight y)
  rw [← e] at this
  exact this.symm

theorem endsQuote_of_match {pre r : Bytes} (hx : trimSpace (pre ++ r) = pre ++ r) (h : matchQuoted r = true) :
    (pre ++ r).getLast? = some 0x22 := by
  match r, h with
  | [], h => cases h
  | c :: t, h =>
    have hc : c = 0x22 := by
      by_cases e : c = 0x22
      · exact e
      · exfalso
        simp only [matchQuoted] at h
        split at h
        · rename_i e'; exact e (List.cons.inj e').1
        · cases h
    subst hc
    simp only [matchQuoted, decide_eq_true_eq] at h
    cases ht : t.getLast? with
    | none => rw [List.getLast?_eq_none_iff.1 ht] at h; cases h
    | some b =>
      have hl : (pre ++ 0x22 :: t).getLast? = some b := by
        rw [List.getLast?_append]
        have : (0x22 :: t).getLast? = some b := by rw [List.getLast?_cons, ht]; rfl
        rw [this]; rfl
      have hb := trim_getLast hx b hl
      rw [hl]
      obtain ⟨ys, e⟩ := List.getLast?_eq_some_iff.1 ht
      rw [e, List.reverse_append, List.reverse_singleton, List.singleton_append,
        List.dropWhile_cons_of_neg (by simp [hb])] at h
      simpa using h

theorem scanMessage_recognised {last : Token} {x : Bytes} (hx : trimSpace x = x)
    (h : scanMessage last x ≠ .none) (h' : scanMessage last x ≠ .failure) :
    x.getLast? = some 0x22 ∧ ∃ kw ∈ [b!"msgid ", b!"msgid_plural ", b!"msgctxt ", b!"msgstr", b!"\""], kw <+: x := by
  have kwq : ∀ {p : Bytes}, matchPrefix p (matchBlanks1 matchQuoted) x = true → x.getLast? = some 0x22 := by
    intro p hp
    obtain ⟨r, rfl, hp12⟩ := matchPrefix_spec hp
    obtain ⟨b, a, r, rfl, _, _, hp13⟩ := matchBlanks1_spec hp12
    have e : p ++ b :: (a ++ r) = (p ++ b :: a) ++ r := by simp
    rw [e] at hx ⊢
    exact endsQuote_of_match hx hp13
  unfold scanMessage at h h'
  split at h
  · rename_i hp
    exact ⟨kwq hp.2, _, by simp, List.isPrefixOf_iff_prefix.1 hp.1⟩
  · rename_i h0
    rw [if_neg h0] at h'
    split at h
    · rename_i h1
      rw [if_pos h1] at h'
      refine ⟨?_, b!"msgstr", by simp, List.isPrefixOf_iff_prefix.1 h1⟩
      split at h
      · rename_i hp
        rcases hp with rfl | hp
        · rfl
        · obtain ⟨r, rfl, hp14⟩ := matchPrefix_spec hp
          obtain ⟨a, r, rfl, _, hp15⟩ := matchBlanks_spec hp14
          rw [← List.append_assoc] at hx ⊢
          exact endsQuote_of_match hx hp15
      · rename_i h2
        rw [if_neg h2] at h'
        split at h
        · rename_i hp
          obtain ⟨r, rfl, hp16⟩ := matchPrefix_spec hp
          obtain ⟨a, r, rfl, ha, hp17⟩ := matchBlanks_spec hp16
          obtain ⟨d, ds, r, rfl, hd, hds, hp18⟩ := matchIndex_spec hp17
          obtain ⟨b, r, rfl, hb, hp19⟩ := matchBlanks_spec hp18
          have e : b!"msgstr" ++ (a ++ 0x5b :: d :: (ds ++ 0x5d :: (b ++ r))) =
            (b!"msgstr" ++ a ++ 0x5b :: d :: (ds ++ 0x5d :: b)) ++ r := by simp
          rw [e] at hx ⊢
          exact endsQuote_of_match hx hp19
        · rename_i h3
          rw [if_neg h3] at h'
          exact absurd rfl h'
    · split at h
      · rename_i hp
        exact ⟨kwq hp.2, _, by simp, List.isPrefixOf_iff_prefix.1 hp.1⟩
      · split at h
        · rename_i hp
          exact ⟨kwq hp.2, _, by simp, List.isPrefixOf_iff_prefix.1 hp.1⟩
        · split at h
          · rename_i hp
            exact ⟨hp.2.1, _, by simp, List.isPrefixOf_iff_prefix.1 hp.1⟩
          · exact absurd rfl h

theorem tokens_recognised {ignore : Bool} {ls : List Bytes} : ∀ {w : Bool} {last : Token},
    (∀ t ∈ tokensFrom ignore w last ls, t.1 ≠ .failure) → ∀ l ∈ ls, Recognised l := by
  induction ls with
  | nil => intro w last _ l hl; cases hl
  | cons l ls ih =>
    intro w last h
    have hrest : (∀ x ∈ ls, Recognised x) ∧ Recognised l := by
      rw [tokensFrom] at h
      split at h
      · rename_i hb
        have hb : trimSpace l = [] := by simpa [isBlankLine] using hb
        split at h
        · exact ⟨ih h, .inl hb⟩
        · exact ⟨ih fun t ht => h t (List.mem_cons_of_mem _ ht), .inl hb⟩
      · split at h
        · rename_i hn
          refine ⟨ih h, ?_⟩
          unfold lineToken at hn
          split at hn
          · rename_i hh; exact .inr (.inl hh)
          · split at hn <;> cases hn
        · rename_i t ht
          refine ⟨ih fun t ht => h t (List.mem_cons_of_mem _ ht), ?_⟩
          have hf := h _ List.mem_cons_self
          simp only at hf
          unfold lineToken at ht
          split at ht
          · rename_i hh; exact .inr (.inl hh)
          · split at ht
            · cases ht; exact absurd rfl hf
            · rename_i h1 h2
              cases ht
              exact .inr (.inr (scanMessage_recognised (trimSpace_idem l) h2 hf))
    intro x hx
    rcases List.mem_cons.1 hx with rfl | hx
    · exact hrest.2
    · exact hrest.1 x hx

end Verif.Proofs.Po
