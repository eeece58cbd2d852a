import Verif.Proofs.Po.Safe
import Verif.Proofs.Po.EncodeComment
import Verif.Spec.PoReread
/-!
# What is known of everything the parser returns
-/
namespace Verif.Proofs.Po
open Verif.Go Verif.Model.PoString Verif.Spec.PoString Verif.Spec.PoEntry Verif.Spec.PoFile Verif.Spec.PoReread
open Verif.Model.Po hiding Field

/-! ## Valid UTF-8 -/

theorem valid_nil : ValidUtf8 [] := ⟨[], rfl⟩

theorem valid_ascii_cons {b : UInt8} (hb : b.toNat < 0x80) {s : Bytes} (h : ValidUtf8 (b :: s)) : ValidUtf8 s := by
  obtain ⟨cs, e⟩ := h
  match cs, e with
  | [], e => cases e
  | c :: cs, e =>
    rw [utf8_cons] at e
    by_cases hc : c.toNat < 0x80
    · have : ∃ x, encodeRune c = [x] := by
        unfold encodeRune
        simp only [hc, if_true]
        exact ⟨_, rfl⟩
      obtain ⟨x, hx⟩ := this
      rw [hx] at e
      exact ⟨cs, (List.cons.inj e).2⟩
    · obtain ⟨x, t, hx⟩ := List.exists_cons_of_ne_nil (show encodeRune c ≠ [] from List.ne_nil_of_length_pos (encodeRune_length_pos c))
      have := encodeRune_multi c (by omega) b (by
        rw [hx] at e ⊢
        rw [(List.cons.inj e).1]
        exact List.mem_cons_self)
      omega

theorem valid_trim {s : Bytes} (h : ValidUtf8 s) : ValidUtf8 (trimSpace s) := by
  obtain ⟨cs, rfl⟩ := h
  obtain ⟨_, m, _, _, _, _, e⟩ := trimSpace_chars cs
  exact ⟨m, e⟩

theorem valid_line {s l : Bytes} (h : ValidUtf8 s) (hl : l ∈ splitByte 0x0a s) : ValidUtf8 l := by
  obtain ⟨cs, rfl⟩ := h
  rw [splitByte_utf8] at hl
  obtain ⟨p, _, rfl⟩ := List.mem_map.1 hl
  exact ⟨p, rfl⟩

theorem valid_dropCR {l : Bytes} (h : ValidUtf8 l) : ValidUtf8 (dropCR l) := by
  unfold dropCR
  split
  · rename_i hl
    obtain ⟨cs, rfl⟩ := h
    rcases List.eq_nil_or_concat cs with rfl | ⟨ds, c, rfl⟩
    · exact ⟨[], rfl⟩
    · rw [List.concat_eq_append] at *
      have he : utf8 (ds ++ [c]) = utf8 ds ++ encodeRune c := by simp
      rw [he] at hl ⊢
      by_cases hc : c.toNat < 0x80
      · have : ∃ x, encodeRune c = [x] := by
          unfold encodeRune
          simp only [hc, if_true]
          exact ⟨_, rfl⟩
        obtain ⟨x, hx⟩ := this
        rw [hx, List.dropLast_concat]
        exact ⟨ds, rfl⟩
      · exfalso
        have hne : encodeRune c ≠ [] := List.ne_nil_of_length_pos (encodeRune_length_pos c)
        rw [List.getLast?_append, List.getLast?_eq_some_getLast hne, Option.some_or] at hl
        have := encodeRune_multi c (by omega) 0x0d (by rw [← Option.some.inj hl]; exact List.getLast_mem hne)
        simp at this
  · exact h

theorem mem_scanLines {data l : Bytes} (h : l ∈ scanLines data) : ∃ x ∈ splitByte 0x0a data, l = dropCR x := by
  unfold scanLines at h
  obtain ⟨x, hx, rfl⟩ := List.mem_map.1 h
  have hx := (List.takeWhile_sublist _).mem hx
  refine ⟨x, ?_, rfl⟩
  unfold rawLines at hx
  split at hx
  · exact List.dropLast_subset _ hx
  · exact hx

theorem scanLines_oneLine {data l : Bytes} (h : l ∈ scanLines data) : OneLine l := by
  obtain ⟨x, hx, rfl⟩ := mem_scanLines h
  intro hm
  refine not_mem_of_mem_splitByte 0x0a data x hx ?_
  unfold dropCR at hm
  split at hm
  · exact List.dropLast_subset _ hm
  · exact hm

theorem scanLines_valid {data l : Bytes} (hv : ValidUtf8 data) (h : l ∈ scanLines data) : ValidUtf8 l := by
  obtain ⟨x, hx, rfl⟩ := mem_scanLines h
  exact valid_dropCR (valid_line hv hx)

/-! ## Tokens -/

/-- What is known of a token of a valid file. -/
structure GoodTok (t : Tok) : Prop where
  valid : ValidUtf8 t.2
  one : OneLine t.2
  trimmed : trimSpace t.2 = t.2
  translator : t.1 = .commentTranslator → ∃ r, t.2 = 0x23 :: r
  extracted : t.1 = .commentExtracted → ∃ r, r ≠ [] ∧ t.2 = 0x23 :: 0x2e :: r
  flags : t.1 = .commentFlags → ∃ r, t.2 = 0x23 :: 0x2c :: r

theorem scanMessage_not_comment (last : Token) (x : Bytes) :
    scanMessage last x ≠ .commentTranslator ∧ scanMessage last x ≠ .commentExtracted ∧ scanMessage last x ≠ .commentFlags := by
  have hc : continuation last ≠ .commentTranslator ∧ continuation last ≠ .commentExtracted ∧ continuation last ≠ .commentFlags := by
    cases last <;> decide
  unfold scanMessage
  split
  · decide
  · split
    · split
      · decide
      · split <;> decide
    · split
      · decide
      · split
        · decide
        · split
          · exact hc
          · decide

theorem commentToken_kind {last : Token} {c : UInt8} {x : Bytes} :
    (commentToken last c x = .commentExtracted → c = 0x2e) ∧ (commentToken last c x = .commentFlags → c = 0x2c) := by
  have hp : prevContinuation last ≠ .commentExtracted ∧ prevContinuation last ≠ .commentFlags := by cases last <;> decide
  unfold commentToken
  split
  · exact ⟨fun _ => by assumption, nofun⟩
  · split
    · exact ⟨nofun, nofun⟩
    · split
      · exact ⟨nofun, fun _ => by assumption⟩
      · split
        · split
          · exact ⟨nofun, nofun⟩
          · split
            · exact ⟨nofun, nofun⟩
            · split
              · exact ⟨fun h => absurd h hp.1, fun h => absurd h hp.2⟩
              · exact ⟨nofun, nofun⟩
        · exact ⟨nofun, nofun⟩

theorem lineToken_shape {ignore : Bool} {last t : Token} {x : Bytes} (h : lineToken ignore last x = some t) :
    (t = .commentTranslator → ∃ r, x = 0x23 :: r) ∧ (t = .commentExtracted → ∃ r, r ≠ [] ∧ x = 0x23 :: 0x2e :: r) ∧
    (t = .commentFlags → ∃ r, x = 0x23 :: 0x2c :: r) := by
  unfold lineToken at h
  split at h
  · rename_i hh
    match x, hh with
    | a :: r, hh =>
      cases hh
      refine ⟨fun _ => ⟨r, rfl⟩, ?_, ?_⟩
      · rintro rfl
        match r with
        | [] =>
          simp only [scanComment] at h
          split at h <;> cases h
        | c :: rest =>
          simp only [scanComment] at h
          split at h
          · cases h
          · rename_i hne
            split at h
            · cases h
            · have := (commentToken_kind (last := last) (c := c) (x := 0x23 :: c :: rest)).1 (Option.some.inj h)
              subst this
              exact ⟨rest, fun e => hne ⟨e, .inl rfl⟩, rfl⟩
      · rintro rfl
        match r with
        | [] =>
          simp only [scanComment] at h
          split at h <;> cases h
        | c :: rest =>
          simp only [scanComment] at h
          split at h
          · cases h
          · split at h
            · cases h
            · have := (commentToken_kind (last := last) (c := c) (x := 0x23 :: c :: rest)).2 (Option.some.inj h)
              subst this
              exact ⟨rest, rfl⟩
  · have hs := scanMessage_not_comment last x
    split at h
    · cases h; exact ⟨nofun, nofun, nofun⟩
    · cases h
      exact ⟨fun e => absurd e hs.1, fun e => absurd e hs.2.1, fun e => absurd e hs.2.2⟩

theorem goodTok {data : Bytes} (hv : ValidUtf8 data) {ignore : Bool} : ∀ t ∈ tokens ignore (scanLines data), GoodTok t := by
  intro t ht
  rcases mem_tokensFrom ht with rfl | ⟨l, hl, last, e, h⟩
  · exact ⟨valid_nil, nofun, rfl, nofun, nofun, nofun⟩
  · obtain ⟨s1, s2, s3⟩ := lineToken_shape h
    refine ⟨?_, ?_, ?_, s1, s2, s3⟩
    · rw [← e]; exact valid_trim (scanLines_valid hv hl)
    · rw [← e]; exact oneLine_trim (scanLines_oneLine hl)
    · rw [← e]; exact trimSpace_idem l

/-! ## Comments -/

/-- What is known of a comment that was read. -/
structure TidyComment (c : Comment) : Prop where
  translator : ValidUtf8 c.translator ∧ TidyTranslator c.translator
  extracted : ValidUtf8 c.extracted ∧ TidyExtracted c.extracted
  references : ∀ r ∈ c.references, r.column = 0 ∧ r.line < 9223372036854775808
  flags : ∀ f ∈ c.flags, FlagOk f

theorem tidy_new : TidyComment .new := ⟨⟨valid_nil, .inl rfl⟩, ⟨valid_nil, .inl rfl⟩, nofun, nofun⟩

theorem addLine_nil (l : Bytes) : addLine [] l = l := rfl

theorem addLine_of_ne {s : Bytes} (h : s ≠ []) (l : Bytes) : addLine s l = s ++ 0x0a :: l := by
  unfold addLine; rw [if_pos h]; simp

theorem valid_addLine {s l : Bytes} (hs : ValidUtf8 s) (hl : ValidUtf8 l) : ValidUtf8 (addLine s l) := by
  by_cases h : s = []
  · subst h; exact hl
  · unfold addLine; rw [if_pos h]
    exact validUtf8_append (validUtf8_append hs (validUtf8_byte _ (by decide))) hl

theorem tidyTranslator_addLine {s l : Bytes} (hs : TidyTranslator s) (ho : OneLine l) (ht : trimSpace l = l) :
    TidyTranslator (addLine s l) := by
  by_cases h : s = []
  · subst h
    rw [addLine_nil]
    by_cases hl : l = []
    · exact .inl hl
    · refine .inr ?_
      rw [splitByte_none ho]
      exact ⟨by simpa using hl, by simpa using ht⟩
  · rw [addLine_of_ne h]
    rcases hs with hs | ⟨h1, h2⟩
    · exact absurd hs h
    · refine .inr ?_
      rw [splitByte_append_sep, splitByte_none ho]
      obtain ⟨a, as, e⟩ := List.exists_cons_of_ne_nil (Verif.Proofs.Po.splitByte_ne_nil 0x0a s)
      refine ⟨by rw [e] at h1 ⊢; exact h1, fun x hx => ?_⟩
      rcases List.mem_append.1 hx with hx | hx
      · exact h2 x hx
      · rw [List.mem_singleton.1 hx]; exact ht

theorem tidyExtracted_addLine {s l : Bytes} (hs : TidyExtracted s) (ho : OneLine l) (ht : trimSpace l = l) (hne : l ≠ []) :
    TidyExtracted (addLine s l) := by
  by_cases h : s = []
  · subst h
    refine .inr ?_
    rw [addLine_nil, splitByte_none ho]
    intro x hx
    rw [List.mem_singleton.1 hx]
    exact ⟨hne, ht⟩
  · rw [addLine_of_ne h]
    rcases hs with hs | h2
    · exact absurd hs h
    · refine .inr ?_
      rw [splitByte_append_sep, splitByte_none ho]
      intro x hx
      rcases List.mem_append.1 hx with hx | hx
      · exact h2 x hx
      · rw [List.mem_singleton.1 hx]; exact ⟨hne, ht⟩

theorem atoi_lt {s : Bytes} {n : Int} (h : atoi s = some n) : n < 9223372036854775808 := by
  have hd : ∀ neg ds, atoiDigits neg ds = some n → n < 9223372036854775808 := by
    intro neg ds h
    unfold atoiDigits at h
    split at h
    · dsimp only at h
      split at h <;> split at h <;> first | (have := Option.some.inj h; omega) | cases h
    · cases h
  unfold atoi at h
  split at h <;> exact hd _ _ h

theorem parseReference_tidy (raw : Bytes) : (parseReference raw).column = 0 ∧ (parseReference raw).line < 9223372036854775808 := by
  unfold parseReference
  dsimp only
  split
  · exact ⟨rfl, by show (-1 : Int) < _; decide⟩
  · exact ⟨rfl, by show (-1 : Int) < _; decide⟩
  · refine ⟨rfl, ?_⟩
    dsimp only
    cases h : atoi _ with
    | none => decide
    | some n => exact atoi_lt h

theorem fieldsFrom_words {sep : Char → Bool} (cs : List Char) : ∀ cur : List Char, (∀ c ∈ cur, sep c = false) →
    ∀ w ∈ fieldsFrom sep cur cs, w ≠ [] ∧ ∀ c ∈ w, sep c = false := by
  have base : ∀ cur : List Char, (∀ c ∈ cur, sep c = false) → ∀ w ∈ (if cur = [] then [] else [cur] : List (List Char)),
      w ≠ [] ∧ ∀ c ∈ w, sep c = false := by
    intro cur hc w hw
    split at hw
    · cases hw
    · rename_i hne
      rw [List.mem_singleton.1 hw]
      exact ⟨hne, hc⟩
  induction cs with
  | nil => intro cur hc w hw; exact base cur hc w hw
  | cons c cs ih =>
    intro cur hc w hw
    rw [fieldsFrom] at hw
    split at hw
    · rcases List.mem_append.1 hw with hw | hw
      · exact base cur hc w hw
      · exact ih [] nofun w hw
    · rename_i hcc
      refine ih (cur ++ [c]) ?_ w hw
      intro x hx
      rcases List.mem_append.1 hx with hx | hx
      · exact hc x hx
      · rw [List.mem_singleton.1 hx]; simpa using hcc

theorem flags_ok {s : Bytes} (h : ValidUtf8 s) : ∀ f ∈ fieldsFunc isFlagSep s, FlagOk f := by
  obtain ⟨cs, rfl⟩ := h
  rw [fieldsFunc_utf8]
  intro f hf
  obtain ⟨w, hw, rfl⟩ := List.mem_map.1 hf
  obtain ⟨h1, h2⟩ := fieldsFrom_words cs [] nofun w hw
  exact ⟨w, rfl, h1, h2⟩

theorem from?_ok {k : Nat} {s r : Bytes} (h : from? k s = .ok r) : r = s.drop k := by
  unfold from? at h
  split at h
  · cases h; rfl
  · cases h

theorem trim_ne_nil {a b : UInt8} {r : Bytes} (ht : trimSpace (a :: b :: r) = a :: b :: r) (ha : Solid a) (hb : Solid b) (hne : r ≠ []) :
    trimSpace r ≠ [] := by
  intro h
  have hsp := (trimSpace_nil_iff r).1 h
  rw [trimSpace_solid ha] at ht
  have e : trimRight ([] ++ b :: r) = [] ++ b :: trimRight r := trimRight_solid hb [] r
  rw [List.nil_append, List.nil_append] at e
  rw [e, trimRight_all hsp] at ht
  exact hne (List.cons.inj (List.cons.inj ht).2).2.symm

theorem commentStep_tidy {c c' : Comment} {t : Tok} (hg : GoodTok t) (hc : TidyComment c) (h : commentStep c t.1 t.2 = .ok c') :
    TidyComment c' := by
  obtain ⟨h1, h2, h3, h4⟩ := hc
  obtain ⟨tok, lit⟩ := t
  have keep : ∀ {x y : Bytes}, TidyComment { c with prevMsgContext := x, prevMsgID := y } := ⟨h1, h2, h3, h4⟩
  cases tok with
  | commentTranslator =>
    obtain ⟨l, hl, hk⟩ := bind_eq_ok.1 h
    cases hk
    have hl := from?_ok hl
    subst hl
    obtain ⟨r, e⟩ := hg.translator rfl
    have e : lit = 0x23 :: r := e
    have hv : ValidUtf8 (lit.drop 1) := by
      rw [e]; exact valid_ascii_cons (b := 0x23) (by decide) (e ▸ hg.valid)
    exact ⟨⟨valid_addLine h1.1 (valid_trim hv), tidyTranslator_addLine h1.2 (oneLine_trim (oneLine_drop hg.one 1)) (trimSpace_idem _)⟩, h2, h3, h4⟩
  | commentExtracted =>
    obtain ⟨l, hl, hk⟩ := bind_eq_ok.1 h
    cases hk
    have hl := from?_ok hl
    subst hl
    obtain ⟨r, hne, e⟩ := hg.extracted rfl
    have e : lit = 0x23 :: 0x2e :: r := e
    have hv : ValidUtf8 (lit.drop 2) := by
      rw [e]; exact valid_ascii_cons (b := 0x2e) (by decide) (valid_ascii_cons (b := 0x23) (by decide) (e ▸ hg.valid))
    have hn : trimSpace (lit.drop 2) ≠ [] := by
      have := hg.trimmed
      rw [e] at this ⊢
      exact trim_ne_nil this (by decide) (by decide) hne
    exact ⟨h1, ⟨valid_addLine h2.1 (valid_trim hv),
      tidyExtracted_addLine h2.2 (oneLine_trim (oneLine_drop hg.one 2)) (trimSpace_idem _) hn⟩, h3, h4⟩
  | commentFlags =>
    obtain ⟨l, hl, hk⟩ := bind_eq_ok.1 h
    cases hk
    have hl := from?_ok hl
    subst hl
    obtain ⟨r, e⟩ := hg.flags rfl
    have e : lit = 0x23 :: 0x2c :: r := e
    have hv : ValidUtf8 (lit.drop 2) := by
      rw [e]; exact valid_ascii_cons (b := 0x2c) (by decide) (valid_ascii_cons (b := 0x23) (by decide) (e ▸ hg.valid))
    refine ⟨h1, h2, h3, fun f hf => ?_⟩
    rcases List.mem_append.1 hf with hf | hf
    · exact h4 f hf
    · exact flags_ok (valid_trim hv) f hf
  | commentReference =>
    obtain ⟨l, hl, hk⟩ := bind_eq_ok.1 h
    cases hk
    refine ⟨h1, h2, fun r hr => ?_, h4⟩
    rcases List.mem_append.1 hr with hr | hr
    · exact h3 r hr
    · obtain ⟨raw, _, rfl⟩ := List.mem_map.1 hr
      exact parseReference_tidy raw
  | commentPrevContext =>
    obtain ⟨l, hl, hk⟩ := bind_eq_ok.1 h
    obtain ⟨r, _, hk⟩ := bind_eq_ok.1 hk
    cases hk; exact ⟨h1, h2, h3, h4⟩
  | commentPrevContextLine =>
    obtain ⟨l, hl, hk⟩ := bind_eq_ok.1 h
    obtain ⟨r, _, hk⟩ := bind_eq_ok.1 hk
    cases hk; exact ⟨h1, h2, h3, h4⟩
  | commentPrevMsgID =>
    obtain ⟨l, hl, hk⟩ := bind_eq_ok.1 h
    obtain ⟨r, _, hk⟩ := bind_eq_ok.1 hk
    cases hk; exact ⟨h1, h2, h3, h4⟩
  | commentPrevMsgIDLine =>
    obtain ⟨l, hl, hk⟩ := bind_eq_ok.1 h
    obtain ⟨r, _, hk⟩ := bind_eq_ok.1 hk
    cases hk; exact ⟨h1, h2, h3, h4⟩
  | _ => cases h; exact ⟨h1, h2, h3, h4⟩

theorem parseComment_tidy {ts : List Tok} (hg : ∀ t ∈ ts, GoodTok t) : ∀ {c c' : Comment} {r : List Tok}, TidyComment c →
    parseComment c ts = .ok (c', r) → TidyComment c' := by
  induction ts with
  | nil => intro c c' r _ h; cases h
  | cons t ts ih =>
    intro c c' r hc h
    obtain ⟨tok, lit⟩ := t
    rw [parseComment] at h
    split at h
    · cases h
    · split at h
      · obtain ⟨c1, h1, h2⟩ := bind_eq_ok.1 h
        exact ih (fun t ht => hg t (List.mem_cons_of_mem _ ht)) (commentStep_tidy (t := (tok, lit)) (hg _ List.mem_cons_self) hc h1) h2
      · cases h; exact hc

/-! ## Messages -/

/-- What is known of a message that was read. -/
structure TidyMessage (m : Message) : Prop where
  comment : ∃ c, m.comment = some c ∧ TidyComment c
  context : ValidUtf8 m.context
  id : ValidUtf8 m.id
  idPlural : ValidUtf8 m.idPlural
  wf : m.str.WF
  str : ∀ i v, m.str.get? i = some v → ValidUtf8 v

theorem decode_valid {t r : Bytes} (h : decode t = .ok r) : ValidUtf8 r :=
  Verif.Props.PoString.C05_valid_utf8 t r ((decode_ok t r).1 h)

theorem strAt_valid {str : GoMap Int Bytes} (h : ∀ i v, str.get? i = some v → ValidUtf8 v) (i : Int) : ValidUtf8 (strAt str i) := by
  unfold strAt
  cases hg : str.get? i with
  | none => exact valid_nil
  | some v => exact h i v hg

theorem set_valid {str : GoMap Int Bytes} (h : ∀ i v, str.get? i = some v → ValidUtf8 v) {k : Int} {x : Bytes} (hx : ValidUtf8 x) :
    ∀ i v, (str.set k x).get? i = some v → ValidUtf8 v := by
  intro i v hv
  rw [GoMap.get?_set] at hv
  split at hv
  · cases hv; exact hx
  · exact h i v hv

theorem messageStep_tidy {m m' : Message} {t : Token} {lit : Bytes} (hm : TidyMessage m) (h : messageStep m t lit = .ok m') :
    TidyMessage m' := by
  obtain ⟨h1, h2, h3, h4, h5, h6⟩ := hm
  cases t with
  | msgContext =>
    obtain ⟨l, _, h⟩ := bind_eq_ok.1 h
    obtain ⟨r, hd, h⟩ := bind_eq_ok.1 h
    cases h; exact ⟨h1, decode_valid hd, h3, h4, h5, h6⟩
  | msgContextLine =>
    obtain ⟨r, hd, h⟩ := bind_eq_ok.1 h
    cases h; exact ⟨h1, validUtf8_append h2 (decode_valid hd), h3, h4, h5, h6⟩
  | msgID =>
    obtain ⟨l, _, h⟩ := bind_eq_ok.1 h
    obtain ⟨r, hd, h⟩ := bind_eq_ok.1 h
    cases h; exact ⟨h1, h2, decode_valid hd, h4, h5, h6⟩
  | msgIDLine =>
    obtain ⟨r, hd, h⟩ := bind_eq_ok.1 h
    cases h; exact ⟨h1, h2, validUtf8_append h3 (decode_valid hd), h4, h5, h6⟩
  | msgIDPlural =>
    obtain ⟨l, _, h⟩ := bind_eq_ok.1 h
    obtain ⟨r, hd, h⟩ := bind_eq_ok.1 h
    cases h; exact ⟨h1, h2, h3, decode_valid hd, h5, h6⟩
  | msgIDPluralLine =>
    obtain ⟨r, hd, h⟩ := bind_eq_ok.1 h
    cases h; exact ⟨h1, h2, h3, validUtf8_append h4 (decode_valid hd), h5, h6⟩
  | msgStr =>
    obtain ⟨l, _, h⟩ := bind_eq_ok.1 h
    obtain ⟨r, hd, h⟩ := bind_eq_ok.1 h
    cases h; exact ⟨h1, h2, h3, h4, h5.set _ _, set_valid h6 (decode_valid hd)⟩
  | msgStrLine =>
    obtain ⟨r, hd, h⟩ := bind_eq_ok.1 h
    cases h; exact ⟨h1, h2, h3, h4, h5.set _ _, set_valid h6 (validUtf8_append (strAt_valid h6 0) (decode_valid hd))⟩
  | msgStrPlural =>
    have h : pluralStep m lit = .ok m' := h
    unfold pluralStep at h
    split at h
    · split at h
      · split at h
        · cases h
        · obtain ⟨l, _, h⟩ := bind_eq_ok.1 h
          obtain ⟨r, hd, h⟩ := bind_eq_ok.1 h
          cases h; exact ⟨h1, h2, h3, h4, h5.set _ _, set_valid h6 (decode_valid hd)⟩
      · cases h
    · cases h
  | msgStrPluralLine =>
    have h : (if m.str.length = 0 then Res.error ParseError.position
      else (decode lit).bind fun r =>
        .ok { m with str := m.str.set (m.str.length - 1 : Int) (strAt m.str (m.str.length - 1 : Int) ++ r) }) = .ok m' := h
    split at h
    · cases h
    · obtain ⟨r, hd, h⟩ := bind_eq_ok.1 h
      cases h; exact ⟨h1, h2, h3, h4, h5.set _ _, set_valid h6 (validUtf8_append (strAt_valid h6 _) (decode_valid hd))⟩
  | _ => cases h

theorem messageLoop_tidy {ts : List Tok} : ∀ {m m' : Message} {r : List Tok}, TidyMessage m →
    messageLoop m ts = .ok (m', r) → TidyMessage m' := by
  induction ts with
  | nil => intro m m' r hm h; cases h; exact hm
  | cons t ts ih =>
    intro m m' r hm h
    obtain ⟨tok, lit⟩ := t
    rw [messageLoop] at h
    split at h
    · cases h; exact hm
    · obtain ⟨m1, h1, h2⟩ := bind_eq_ok.1 h
      exact ih (messageStep_tidy hm h1) h2

theorem parseMessage_tidy {ts r : List Tok} {m : Message} (hg : ∀ t ∈ ts, GoodTok t) (h : parseMessage ts = .ok (m, r)) : TidyMessage m := by
  have new : ∀ c, TidyComment c → TidyMessage { Message.new with comment := some c } := fun c hc =>
    ⟨⟨c, rfl, hc⟩, valid_nil, valid_nil, valid_nil, GoMap.WF.nil, nofun⟩
  match ts, h with
  | (tok, lit) :: ts, h =>
    rw [parseMessage] at h
    split at h
    · obtain ⟨⟨c, ts'⟩, h1, h2⟩ := bind_eq_ok.1 h
      exact messageLoop_tidy (new c (parseComment_tidy hg tidy_new h1)) h2
    · exact messageLoop_tidy (new .new tidy_new) h

/-! ## Headers -/

/-- What is known of a header that was read. -/
structure TidyHeader (u : Unicode) (h : Header) : Prop where
  fields : ∀ f, ValidUtf8 (h.getField f) ∧ OneLine (h.getField f) ∧ trimSpace (h.getField f) = h.getField f
  wf : h.unknownFields.WF
  unknown : ∀ p ∈ h.unknownFields, ValidUtf8 p.1 ∧ OneLine p.1 ∧ trimSpace p.1 = p.1 ∧ (0x3a : UInt8) ∉ p.1 ∧ fieldOf u p.1 = none ∧
    ValidUtf8 p.2 ∧ OneLine p.2 ∧ trimSpace p.2 = p.2

theorem tidyHeader_empty (u : Unicode) : TidyHeader u {} :=
  ⟨fun f => by cases f <;> exact ⟨valid_nil, nofun, rfl⟩, GoMap.WF.nil, nofun⟩

theorem indexByte_split {c : UInt8} {s : Bytes} : ∀ {i : Nat}, indexByte? c s = some i → c ∉ s.take i ∧ s = s.take i ++ c :: s.drop (i + 1) := by
  induction s with
  | nil => intro i h; cases h
  | cons x s ih =>
    intro i h
    unfold indexByte? at h
    split at h
    · cases h
      rename_i hx
      subst hx
      exact ⟨by simp, by simp⟩
    · rename_i hx
      cases hi : indexByte? c s with
      | none => rw [hi] at h; cases h
      | some j =>
        rw [hi] at h
        cases h
        obtain ⟨h1, h2⟩ := ih hi
        refine ⟨?_, ?_⟩
        · rw [List.take_succ_cons]
          simp only [List.mem_cons, not_or]
          exact ⟨fun e => hx e.symm, h1⟩
        · rw [List.take_succ_cons, List.drop_succ_cons, List.cons_append]
          congr 1

theorem valid_around {a b : Bytes} {x : UInt8} (hx : x.toNat < 0x80) (h : ValidUtf8 (a ++ x :: b)) : ValidUtf8 a ∧ ValidUtf8 b := by
  obtain ⟨cs, e⟩ := h
  induction cs generalizing a with
  | nil => simp at e
  | cons c cs ih =>
    rw [utf8_cons] at e
    rcases List.append_eq_append_iff.1 e with ⟨t, h1, h2⟩ | ⟨t, h1, h2⟩
    · -- encodeRune c = a ++ t
      cases t with
      | nil =>
        rw [List.append_nil] at h1
        rw [List.nil_append] at h2
        refine ⟨⟨[c], by simp [h1]⟩, valid_ascii_cons hx ⟨cs, h2⟩⟩
      | cons y t =>
        obtain ⟨rfl, h3⟩ := List.cons.inj h2
        have hm : x ∈ encodeRune c := by rw [h1]; simp
        by_cases hc : c.toNat < 0x80
        · have : ∃ x, encodeRune c = [x] := by
            unfold encodeRune
            simp only [hc, if_true]
            exact ⟨_, rfl⟩
          obtain ⟨z, hz⟩ := this
          rw [hz] at h1
          match a, h1 with
          | [], h1 =>
            have : t = [] := (List.cons.inj h1).2.symm
            subst this
            exact ⟨valid_nil, ⟨cs, by simpa using h3⟩⟩
          | _ :: a, h1 => simp at h1
        · have := encodeRune_multi c (by omega) x hm
          omega
    · obtain ⟨h3, h4⟩ := ih h2.symm
      refine ⟨?_, h4⟩
      rw [h1]
      exact validUtf8_append ⟨[c], by simp⟩ h3

theorem header_set_tidy {u : Unicode} {h : Header} (ht : TidyHeader u h) {k v : Bytes}
    (hk : ValidUtf8 k ∧ OneLine k ∧ trimSpace k = k ∧ (0x3a : UInt8) ∉ k) (hv : ValidUtf8 v ∧ OneLine v ∧ trimSpace v = v) :
    TidyHeader u (h.set u k v) := by
  obtain ⟨h1, h2, h3⟩ := ht
  unfold Header.set
  cases hf : fieldOf u k with
  | some f =>
    refine ⟨fun g => ?_, ?_, ?_⟩
    · rw [Verif.Props.PoFile.getField_setField]
      split
      · exact hv
      · exact h1 g
    · simp only [Verif.Props.PoFile.setField_unknown]; exact h2
    · simp only [Verif.Props.PoFile.setField_unknown]; exact h3
  | none =>
    refine ⟨fun g => ?_, h2.set _ _, ?_⟩
    · have := h1 g
      cases g <;> exact this
    · intro p hp
      have hg := (GoMap.mem_iff (h2.set k v)).1 hp
      rw [GoMap.get?_set] at hg
      split at hg
      · rename_i e
        cases hg
        rw [← e]
        exact ⟨hk.1, hk.2.1, hk.2.2.1, hk.2.2.2, hf, hv⟩
      · exact h3 p (GoMap.mem_of_get? hg)

theorem headerLoop_tidy {u : Unicode} {ls : List Bytes} (hl : ∀ l ∈ ls, ValidUtf8 l ∧ OneLine l) : ∀ {h h' : Header}, TidyHeader u h →
    headerLoop u h ls = some h' → TidyHeader u h' := by
  induction ls with
  | nil => intro h h' ht he; cases he; exact ht
  | cons l ls ih =>
    intro h h' ht he
    have ih := fun {h h'} => @ih (fun x hx => hl x (List.mem_cons_of_mem _ hx)) h h'
    obtain ⟨hv, ho⟩ := hl l List.mem_cons_self
    rw [headerLoop] at he
    cases hi : indexByte? 0x3a l with
    | none =>
      rw [hi] at he
      simp only at he
      split at he
      · exact ih ht he
      · cases he
    | some i =>
      rw [hi] at he
      obtain ⟨hn, e⟩ := indexByte_split hi
      have hv' := valid_around (x := 0x3a) (by decide) (e ▸ hv)
      have ho1 : OneLine (l.take i) := fun hm => ho (List.mem_of_mem_take hm)
      refine ih (header_set_tidy ht ⟨valid_trim hv'.1, oneLine_trim ho1, trimSpace_idem _, ?_⟩
        ⟨valid_trim hv'.2, oneLine_trim (oneLine_drop ho _), trimSpace_idem _⟩) he
      obtain ⟨a, b, e2, _⟩ := trimSpace_split (l.take i)
      intro hm
      apply hn
      rw [e2]
      simp [hm]

/-- What is known of a header and its comment. -/
def TidyHead (u : Unicode) (h : Header) : Prop := TidyHeader u h ∧ ∀ c ∈ h.comment, TidyComment c

theorem parseHeader_tidy {u : Unicode} {m : Message} {h : Header} (hm : TidyMessage m) (hp : parseHeader u m = some h) : TidyHead u h := by
  unfold parseHeader at hp
  obtain ⟨h0, h1, rfl⟩ := Option.map_eq_some_iff.1 hp
  have := headerLoop_tidy (u := u) (fun l hl => ⟨valid_line (strAt_valid hm.str 0) hl, not_mem_of_mem_splitByte _ _ l hl⟩)
    (tidyHeader_empty u) h1
  refine ⟨⟨fun f => ?_, this.wf, this.unknown⟩, ?_⟩
  · have := this.fields f
    cases f <;> exact this
  · intro c hc
    obtain ⟨c', e, ht⟩ := hm.comment
    have hc : m.comment = some c := hc
    rw [e] at hc
    cases hc
    exact ht

/-! ## Files -/

/-- What is known of the state of the parser. -/
structure TidyState (u : Unicode) (st : PState) : Prop where
  header : ∀ h ∈ st.header, TidyHead u h
  messages : ∀ c i m, PState.find st c i = some m → m.id ≠ [] ∧ TidyMessage m

theorem store_tidy {u : Unicode} {st st' : PState} {m : Message} (hs : TidyState u st) (hm : TidyMessage m) (h : store u st m = .ok st') :
    TidyState u st' := by
  by_cases hid : m.id = []
  · rcases store_header (u := u) (st := st) hid with ⟨_, _, he⟩ | ⟨s, he, h1, _, h3, h4⟩
    · rw [he] at h; cases h
    · rw [he] at h; cases h
      refine ⟨?_, ?_⟩
      · by_cases hstr : m.str = []
        · rw [h3 hstr]; exact hs.header
        · rw [(h4 hstr).2]
          intro x hx
          exact parseHeader_tidy hm hx
      · intro c i m' hf
        refine hs.messages c i m' ?_
        unfold PState.find at hf ⊢
        rw [h1] at hf
        exact hf
  · rcases store_message (u := u) (st := st) hid with ⟨_, he⟩ | ⟨_, s, he, h1, _, h3⟩
    · rw [he] at h; cases h
    · rw [he] at h; cases h
      refine ⟨by rw [h1]; exact hs.header, fun c i m' hf => ?_⟩
      rw [h3] at hf
      split at hf
      · cases hf; exact ⟨hid, hm⟩
      · exact hs.messages c i m' hf

theorem fileLoop_tidy {u : Unicode} : ∀ (f : Nat) {st st' : PState} {ts : List Tok}, (∀ t ∈ ts, GoodTok t) → TidyState u st →
    fileLoop u f st ts = .ok st' → TidyState u st' := by
  intro f
  induction f with
  | zero => intro st st' ts _ hs h; cases h; exact hs
  | succ f ih =>
    intro st st' ts hg hs h
    rw [fileLoop] at h
    cases hp : parseMessage ts with
    | ok p =>
      obtain ⟨m, rest⟩ := p
      rw [hp] at h
      obtain ⟨s, h1, h2⟩ := bind_eq_ok.1 h
      exact ih (fun t ht => hg t ((parseMessage_suffix hp).1.subset ht)) (store_tidy hs (parseMessage_tidy hg hp) h1) h2
    | eof => rw [hp] at h; cases h; exact hs
    | error e => rw [hp] at h; cases h
    | panic => rw [hp] at h; cases h
    | hang => rw [hp] at h; cases h

/-- What is known of a file that was read. -/
structure TidyFile (u : Unicode) (f : File) : Prop where
  keyed : Keyed f
  header : ∃ h, f.header = some h ∧ TidyHead u h
  messages : ∀ c i m, f.getMessage c i = some m → m.id ≠ [] ∧ TidyMessage m

theorem parse_tidy {u : Unicode} {ignore : Bool} {data : Bytes} (hv : ValidUtf8 data) {f : File} (h : parse u ignore data = .ok f) :
    TidyFile u f := by
  obtain ⟨_, hcon, _⟩ := parse_ok h
  unfold parse at h
  rw [parseLines_run] at h
  obtain ⟨st, h1, h2⟩ := bind_eq_ok.1 h
  have h0 : TidyState u ⟨none, []⟩ := ⟨by (intro x hx; cases hx), by (intro c i m hx; cases hx)⟩
  have ht : TidyState u st := fileLoop_tidy _ (goodTok hv) h0 h1
  have hmsg : f.messages = st.messages ∧ ∃ hd, f.header = some hd ∧ TidyHead u hd := by
    unfold finish at h2
    split at h2
    · split at h2
      · cases h2
      · cases h2
        exact ⟨rfl, _, rfl, tidyHeader_empty u, nofun⟩
    · rename_i hd e
      cases h2
      exact ⟨rfl, hd, rfl, ht.header hd e⟩
  refine ⟨⟨hcon.wf, fun p hp => (hcon.inner p.1 p.2 hp).1, fun p hp q hq => (hcon.inner p.1 p.2 hp).2 q.1 q.2 hq⟩, hmsg.2, fun c i m hm => ?_⟩
  refine ht.messages c i m ?_
  unfold File.getMessage at hm
  unfold PState.find
  rw [hmsg.1] at hm
  cases hg : GoMap.get? st.messages c with
  | none => rw [hg] at hm; cases hm
  | some x => rw [hg] at hm; exact hm

end Verif.Proofs.Po
