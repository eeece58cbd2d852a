import Verif.Proofs.Po.EncodeWrap
import Verif.Proofs.Po.EncodeText
/-! Helper lemmas for writing PO files: comments. -/
namespace Verif.Proofs.Po
open Verif.Go Verif.Model.Wrap Verif.Model.PoString Verif.Spec.PoEntry Verif.Spec.PoFile Verif.Spec.Wrap
open Verif.Model.Po hiding Field
open Verif.Spec.PoString (ValidUtf8)

/-- The comment lines that are written. -/
def commentEntry (enc : Encoder) (c : Comment) : List CommentLine :=
  (if c.translator ≠ [] then (wrapString c.translator enc.wrapWidth).map fun l => .translator [] (b!" " ++ l) else []) ++
  (if c.extracted ≠ [] then (wrapString c.extracted enc.wrapWidth).map fun l => .extracted [] (b!" " ++ l) else []) ++
  (if c.references ≠ [] ∧ enc.writeReferences then
    (wrapString (join b!" " (c.references.map referenceText)) enc.wrapWidth).map fun l => .reference [] (b!" " ++ l) else []) ++
  (if c.flags ≠ [] then [.flags [] (b!" " ++ join b!", " c.flags)] else [])

theorem commentLines_text (start : Bytes) (mk : Bytes → CommentLine) (ls : List Bytes)
    (h : ∀ l, (mk l).line = start ++ l) : commentLines start ls = textOf ((ls.map mk).map CommentLine.line) := by
  unfold commentLines textOf
  rw [List.map_map, List.flatMap_map]
  refine flatMap_congr fun l _ => ?_
  rw [Function.comp_apply, h]

theorem encodeComment_text (enc : Encoder) (c : Comment) :
    enc.encodeComment (some c) = textOf ((commentEntry enc c).map CommentLine.line) := by
  unfold Encoder.encodeComment commentEntry
  simp only [List.map_append, textOf_append]
  refine congr (congrArg _ (congr (congrArg _ (congr (congrArg _ ?_) ?_)) ?_)) ?_
  · split
    · exact commentLines_text _ _ _ fun l => by simp [CommentLine.line]
    · rfl
  · split
    · exact commentLines_text _ _ _ fun l => by simp [CommentLine.line]
    · rfl
  · split
    · exact commentLines_text _ _ _ fun l => by simp [CommentLine.line]
    · rfl
  · split
    · simp [textOf, CommentLine.line]
    · rfl

/-! ## Words on lines -/

theorem joinC_head {sep : List Char} {vs : List (List Char)} {bad : Char → Bool} (h : ∀ v ∈ vs, v ≠ [] ∧ ∀ c ∈ v, bad c = false) :
    ∀ c ∈ (joinC sep vs).head?, bad c = false := by
  match vs, h with
  | [], _ => nofun
  | [v], h => intro c hc; exact (h v List.mem_cons_self).2 c (List.mem_of_mem_head? hc)
  | v :: w :: r, h =>
    intro c hc
    obtain ⟨h1, h2⟩ := h v List.mem_cons_self
    rw [joinC_cons (by simp), List.append_assoc] at hc
    obtain ⟨x, v', rfl⟩ := List.exists_cons_of_ne_nil h1
    exact h2 c (List.mem_of_mem_head? (by simpa using hc))

theorem joinC_last {sep : List Char} {vs : List (List Char)} {bad : Char → Bool} (h : ∀ v ∈ vs, v ≠ [] ∧ ∀ c ∈ v, bad c = false) :
    ∀ c ∈ (joinC sep vs).getLast?, bad c = false := by
  rcases List.eq_nil_or_concat vs with rfl | ⟨ws, w, rfl⟩
  · nofun
  · rw [List.concat_eq_append] at *
    obtain ⟨h1, h2⟩ := h w (by simp)
    intro c hc
    by_cases hw : ws = []
    · subst hw; exact h2 c (List.mem_of_mem_getLast? hc)
    · rw [joinC_snoc hw, List.getLast?_append] at hc
      cases hl : w.getLast? with
      | none => exact absurd (List.getLast?_eq_none_iff.1 hl) h1
      | some y =>
        rw [hl] at hc
        simp at hc
        subst hc
        exact h2 _ (List.mem_of_mem_getLast? hl)

theorem joinC_ne_nil {sep : List Char} {vs : List (List Char)} (hne : vs ≠ []) (h : ∀ v ∈ vs, v ≠ []) : joinC sep vs ≠ [] := by
  match vs, h with
  | [], _ => exact absurd rfl hne
  | [v], h => exact h v List.mem_cons_self
  | v :: w :: r, h => rw [joinC_cons (by simp)]; simp [h v List.mem_cons_self]

theorem trim_joinC {sep : List Char} {vs : List (List Char)} (h : ∀ v ∈ vs, v ≠ [] ∧ ∀ c ∈ v, isSpace c = false) :
    trimSpace (b!" " ++ utf8 (joinC sep vs)) = utf8 (joinC sep vs) := by
  exact (trimSpace_spaces_left (a := b!" ") (s := _) ⟨[b!" "], by decide, rfl⟩).trans
    (trimSpace_utf8 (joinC_head h) (joinC_last h))

theorem ascii_not_mem {x : List Char} {b : UInt8} (hb : b.toNat < 0x80) (h : Char.ofNat b.toNat ∉ x) : b ∉ utf8 x := by
  intro hm
  unfold utf8 at hm
  obtain ⟨c, hc, hb'⟩ := List.mem_flatMap.1 hm
  by_cases h8 : c.toNat < 0x80
  · rw [encodeRune_ascii c h8, List.mem_singleton] at hb'
    have : c.toNat = b.toNat := by rw [hb', toNat_ofNat_small (by omega)]
    have e : c = Char.ofNat b.toNat := by rw [← this, ofNat_toNat]
    exact h (e ▸ hc)
  · have := encodeRune_multi c (by omega) _ hb'
    omega

theorem ascii_utf8 {bs : Bytes} (h : ∀ b ∈ bs, b.toNat < 0x80) : utf8 (bs.map fun b => Char.ofNat b.toNat) = bs := by
  induction bs with
  | nil => rfl
  | cons b bs ih =>
    have hb := h b List.mem_cons_self
    have : (Char.ofNat b.toNat).toNat = b.toNat := toNat_ofNat_of_valid (.inl (by omega))
    rw [List.map_cons, utf8_cons, encodeRune_ascii _ (by omega), this, ih fun x hx => h x (List.mem_cons_of_mem _ hx)]
    simp

/-! ## References -/

theorem isSpace_digit {b : UInt8} (h1 : 48 ≤ b.toNat) (h2 : b.toNat ≤ 57) : isSpace (Char.ofNat b.toNat) = false := by
  have : (Char.ofNat b.toNat).toNat = b.toNat := toNat_ofNat_of_valid (.inl (by omega))
  unfold isSpace
  simp only [this, Bool.or_eq_false_iff, Bool.and_eq_false_iff, decide_eq_false_iff_not]
  omega

theorem reference_chars {r : Reference} (h : ReferenceOk r) : ∃ v : List Char, referenceText r = utf8 v ∧ v ≠ [] ∧
    (∀ c ∈ v, isSpace c = false) ∧ referenceOf (utf8 v) = asRead r := by
  obtain ⟨⟨cs, hp, hne, hcs⟩, hl⟩ := h
  have hsp : ∀ c ∈ cs, isSpace c = false := fun c hc => by have := hcs c hc; simp at this; exact this.1
  have hcol : (0x3a : UInt8) ∉ utf8 cs := by
    refine ascii_not_mem (by decide) fun hm => ?_
    have := hcs _ hm
    simp at this
  have hne' : utf8 cs ≠ [] := fun e => hne (utf8_eq_nil.1 e)
  unfold referenceText asRead
  by_cases hpos : r.line > 0
  · rw [if_pos hpos, if_pos hpos]
    have e : r.line = ((r.line.toNat : Nat) : Int) := by omega
    obtain ⟨h1, h2⟩ := itoa_index (i := r.line.toNat) (by omega)
    rw [← e] at h1 h2
    obtain ⟨g1, g2, g3⟩ := h1
    have hd : ∀ b ∈ itoa r.line, 48 ≤ b.toNat ∧ b.toNat ≤ 57 := by
      intro b hb
      have := g2 b hb
      unfold isDigit at this
      simpa using this
    refine ⟨cs ++ ':' :: (itoa r.line).map fun b => Char.ofNat b.toNat, ?_, by simp, ?_, ?_⟩
    · rw [hp, utf8_append, utf8_cons, ascii_utf8 fun b hb => by have := hd b hb; omega]
      rfl
    · intro c hc
      rcases List.mem_append.1 hc with hc | hc
      · exact hsp c hc
      · rcases List.mem_cons.1 hc with rfl | hc
        · decide
        · obtain ⟨b, hb, rfl⟩ := List.mem_map.1 hc
          have := hd b hb
          exact isSpace_digit this.1 this.2
    · have hb : utf8 (cs ++ ':' :: (itoa r.line).map fun b => Char.ofNat b.toNat) = utf8 cs ++ 0x3a :: itoa r.line := by
        rw [utf8_append, utf8_cons, ascii_utf8 fun b hb => by have := hd b hb; omega]
        rfl
      have hn : (0x3a : UInt8) ∉ itoa r.line := by
        intro hm
        have := (hd _ hm).2
        revert this; decide
      unfold referenceOf
      rw [hb, Verif.Go.splitByte_line _ _ _ hcol, Verif.Go.splitByte_of_not_mem _ _ hn]
      simp only [if_neg hne', join, atoi_index ⟨g1, g2, g3⟩, Option.getD_some, h2]
      rw [hp]
      congr 1
      omega
  · rw [if_neg hpos, if_neg hpos]
    refine ⟨cs, by rw [hp]; simp, hne, hsp, ?_⟩
    unfold referenceOf
    rw [Verif.Go.splitByte_of_not_mem _ _ hcol, hp]

theorem references_chars {rs : List Reference} (h : ∀ r ∈ rs, ReferenceOk r) : ∃ vs : List (List Char),
    rs.map referenceText = vs.map utf8 ∧ (∀ v ∈ vs, v ≠ [] ∧ ∀ c ∈ v, isSpace c = false) ∧
    vs.map (fun v => referenceOf (utf8 v)) = rs.map asRead := by
  induction rs with
  | nil => exact ⟨[], rfl, nofun, rfl⟩
  | cons r rs ih =>
    obtain ⟨v, h1, h2, h3, h4⟩ := reference_chars (h r List.mem_cons_self)
    obtain ⟨vs, k1, k2, k3⟩ := ih fun x hx => h x (List.mem_cons_of_mem _ hx)
    refine ⟨v :: vs, by simp [h1, k1], ?_, by rw [List.map_cons, List.map_cons, h4, k3]⟩
    intro x hx
    rcases List.mem_cons.1 hx with rfl | hx
    · exact ⟨h2, h3⟩
    · exact k2 x hx

theorem words_chars {bad : Char → Bool} {fs : List Bytes} (h : ∀ f ∈ fs, WordOf bad f) : ∃ vs : List (List Char),
    fs = vs.map utf8 ∧ ∀ v ∈ vs, v ≠ [] ∧ ∀ c ∈ v, bad c = false := by
  induction fs with
  | nil => exact ⟨[], rfl, nofun⟩
  | cons f fs ih =>
    obtain ⟨v, h1, h2, h3⟩ := h f List.mem_cons_self
    obtain ⟨vs, k1, k2⟩ := ih fun x hx => h x (List.mem_cons_of_mem _ hx)
    refine ⟨v :: vs, by simp [h1, k1], ?_⟩
    intro x hx
    rcases List.mem_cons.1 hx with rfl | hx
    · exact ⟨h2, h3⟩
    · exact k2 x hx

theorem read_references {rs : List Reference} (h : ∀ r ∈ rs, ReferenceOk r) (hne : rs ≠ []) (width : Int) :
    ∃ ls : List Bytes, wrapString (join b!" " (rs.map referenceText)) width = ls ∧ (∀ l ∈ ls, OneLine l) ∧
      (((ls.map fun l => trimSpace (b!" " ++ l)).filter (· ≠ [])).flatMap fun t =>
        (splitByte 0x20 t).map fun r => referenceOf (trimSpace r)) = rs.map asRead := by
  obtain ⟨vs, h1, h2, h3⟩ := references_chars h
  have hvs : vs ≠ [] := by
    rintro rfl
    rw [List.map_nil, List.map_eq_nil_iff] at h1
    exact hne h1
  have hb : ∀ v ∈ vs, v ≠ [] ∧ ∀ c ∈ v, isBreak c = false := by
    intro v hv
    refine ⟨(h2 v hv).1, fun c hc => ?_⟩
    have := (h2 v hv).2 c hc
    unfold isBreak
    rw [this]; rfl
  obtain ⟨gs, g1, g2, g3⟩ := wrap_groups width vs hvs hb
  have hj : join b!" " (rs.map referenceText) = utf8 (joinC [' '] vs) := by
    rw [h1, utf8_joinC]; rfl
  refine ⟨_, rfl, ?_, ?_⟩
  · rw [hj]
    obtain ⟨css, c1, _, c2⟩ := wrap_chars (joinC [' '] vs) width
    rw [c1]
    intro l hl
    obtain ⟨x, hx, rfl⟩ := List.mem_map.1 hl
    exact newline_utf8 (c2 x hx)
  · rw [hj, g1]
    have hg : ∀ g ∈ gs, ∀ v ∈ g, v ≠ [] ∧ ∀ c ∈ v, isSpace c = false := by
      intro g hg v hv
      exact h2 v (by rw [← g2]; exact List.mem_flatten.2 ⟨g, hg, hv⟩)
    have e1 : (((gs.map fun x => utf8 (joinC [' '] x)).map fun l => trimSpace (b!" " ++ l)).filter (· ≠ [])) =
        gs.map fun x => utf8 (joinC [' '] x) := by
      rw [List.map_map]
      have : gs.map ((fun l => trimSpace (b!" " ++ l)) ∘ fun x => utf8 (joinC [' '] x)) = gs.map fun x => utf8 (joinC [' '] x) :=
        List.map_congr_left fun g h => trim_joinC (hg g h)
      rw [this, List.filter_eq_self]
      intro l hl
      obtain ⟨g, h, rfl⟩ := List.mem_map.1 hl
      simp only [ne_eq, decide_eq_true_eq]
      intro e
      exact joinC_ne_nil (g3 g h) (fun v hv => (hg g h v hv).1) (utf8_eq_nil.1 e)
    rw [e1, List.flatMap_map, ← h3, ← g2, List.map_flatten, List.flatMap_def]
    congr 1
    refine List.map_congr_left fun g h => ?_
    rw [utf8_joinC]
    have hs : splitByte 0x20 (join (utf8 [' ']) (g.map utf8)) = g.map utf8 := by
      refine splitByte_join 0x20 (g.map utf8) (by simpa using g3 g h) ?_
      intro l hl
      obtain ⟨v, hv, rfl⟩ := List.mem_map.1 hl
      refine ascii_not_mem (by decide) fun hm => ?_
      have := (hg g h v hv).2 _ hm
      revert this; decide
    rw [hs, List.map_map]
    refine List.map_congr_left fun v hv => ?_
    obtain ⟨_, k⟩ := hg g h v hv
    simp only [Function.comp_apply]
    rw [trimSpace_utf8 (fun c hc => k c (List.mem_of_mem_head? hc)) (fun c hc => k c (List.mem_of_mem_getLast? hc))]

/-! ## Flags -/

theorem read_flags {fs : List Bytes} (h : ∀ f ∈ fs, FlagOk f) :
    OneLine (b!" " ++ join b!", " fs) ∧
    fieldsFunc (fun c => isSpace c || c = ',') (trimSpace (b!" " ++ join b!", " fs)) = fs := by
  obtain ⟨vs, h1, h2⟩ := words_chars h
  have hj : join b!", " fs = utf8 (joinC [',', ' '] vs) := by rw [h1, utf8_joinC]; rfl
  have hs : ∀ v ∈ vs, v ≠ [] ∧ ∀ c ∈ v, isSpace c = false := by
    intro v hv
    refine ⟨(h2 v hv).1, fun c hc => ?_⟩
    have := (h2 v hv).2 c hc
    simp at this; exact this.1
  have hfields : fieldsFrom (fun c => isSpace c || c = ',') [] (joinC [',', ' '] vs) = vs := by
    rw [fieldsFrom_joinC (by decide) (by decide)]
    clear hj h1 hs
    induction vs with
    | nil => rfl
    | cons v vs ih =>
      obtain ⟨k1, k2⟩ := h2 v List.mem_cons_self
      rw [List.flatMap_cons, fieldsFrom_word k2, ih fun x hx => h2 x (List.mem_cons_of_mem _ hx)]
      simp [k1]
  constructor
  · rw [hj]
    have : b!" " ++ utf8 (joinC [',', ' '] vs) = utf8 (' ' :: joinC [',', ' '] vs) := rfl
    rw [this]
    clear this
    refine newline_utf8 ?_
    intro hm
    rcases List.mem_cons.1 hm with h | hm
    · cases h
    · clear hj h1 hfields
      induction vs with
      | nil => cases hm
      | cons v vs ih =>
        have hvn : '\n' ∉ v := by
          intro h
          have := (hs v List.mem_cons_self).2 _ h
          revert this; decide
        cases vs with
        | nil => exact hvn hm
        | cons v' vs =>
          rw [joinC_cons (by simp)] at hm
          rcases List.mem_append.1 hm with hm | hm
          · rcases List.mem_append.1 hm with hm | hm
            · exact hvn hm
            · simp at hm
          · exact ih (fun x hx => h2 x (List.mem_cons_of_mem _ hx)) (fun x hx => hs x (List.mem_cons_of_mem _ hx)) (List.mem_cons_of_mem _ hm) hm
  · rw [hj, trim_joinC hs, fieldsFunc_utf8, hfields, h1]

/-! ## Texts -/

/-- What is left of a line after white space was cut off. -/
theorem trim_fields (x : List Char) : ∃ m, trimSpace (utf8 x) = utf8 m ∧ fieldsFrom isSpace [] m = fieldsFrom isSpace [] x := by
  obtain ⟨a, m, b, h1, h2, h3, h4⟩ := trimSpace_chars x
  exact ⟨m, h4, by rw [h1, List.append_assoc, fieldsFrom_left h2, fieldsFrom_right h3]⟩

theorem trims (css : List (List Char)) : ∃ ms : List (List Char), (css.map utf8).map trimSpace = ms.map utf8 ∧
    ms.flatMap (fieldsFrom isSpace []) = css.flatMap (fieldsFrom isSpace []) := by
  induction css with
  | nil => exact ⟨[], rfl, rfl⟩
  | cons x css ih =>
    obtain ⟨ms, h1, h2⟩ := ih
    obtain ⟨m, k1, k2⟩ := trim_fields x
    exact ⟨m :: ms, by simp only [List.map_cons, h1, k1], by simp only [List.flatMap_cons, h2, k2]⟩

/-- The words of the lines are the words of the text. -/
theorem wrapped_fields (cs : List Char) (width : Int) (h : 0 < width → ∀ p ∈ paragraphs cs, GoodStart width p)
    (css : List (List Char)) (hc : wrapString (utf8 cs) width = css.map utf8) :
    css.flatMap (fieldsFrom isSpace []) = fieldsFrom isSpace [] cs := by
  have := Verif.Props.Wrap.C06_words_kept_partial (utf8 cs) width (by rwa [runes_utf8])
  unfold Verif.Props.Wrap.wrappedWords at this
  rw [hc, List.flatMap_map, runes_utf8] at this
  simp only [runes_utf8] at this
  rw [← words_fields cs, ← this, List.flatMap_assoc]
  exact flatMap_congr fun x _ => (words_fields x).symm

theorem dropWhile_fields (ms : List (List Char)) :
    ((ms.map utf8).dropWhile (· = [])) = (ms.dropWhile (· = [])).map utf8 ∧
    (ms.dropWhile (· = [])).flatMap (fieldsFrom isSpace []) = ms.flatMap (fieldsFrom isSpace []) := by
  induction ms with
  | nil => exact ⟨rfl, rfl⟩
  | cons m ms ih =>
    cases m with
    | nil => exact ih
    | cons c m =>
      have : utf8 (c :: m) ≠ [] := fun e => by cases utf8_eq_nil.1 e
      rw [List.map_cons, List.dropWhile_cons_of_neg (by simp only [decide_eq_true_eq]; exact this), List.dropWhile_cons_of_neg (by simp)]
      exact ⟨rfl, rfl⟩

theorem filter_fields (ms : List (List Char)) :
    ((ms.map utf8).filter (· ≠ [])) = (ms.filter (· ≠ [])).map utf8 ∧
    (ms.filter (· ≠ [])).flatMap (fieldsFrom isSpace []) = ms.flatMap (fieldsFrom isSpace []) := by
  induction ms with
  | nil => exact ⟨rfl, rfl⟩
  | cons m ms ih =>
    cases m with
    | nil => exact ih
    | cons c m =>
      have : utf8 (c :: m) ≠ [] := fun e => by cases utf8_eq_nil.1 e
      rw [List.map_cons, List.filter_cons_of_pos (by simp only [ne_eq, decide_eq_true_eq]; exact this), List.filter_cons_of_pos (by simp), List.map_cons,
        List.flatMap_cons, List.flatMap_cons, ih.1, ih.2]
      exact ⟨rfl, rfl⟩

theorem words_joined (ms : List (List Char)) :
    commentWords (join [0x0a] (ms.map utf8)) = ms.flatMap (fieldsFrom isSpace []) := by
  have : join [0x0a] (ms.map utf8) = utf8 (joinC ['\n'] ms) := by rw [utf8_joinC]; rfl
  rw [commentWords, this, runes_utf8, fieldsFrom_joinC (by decide) (by simp)]

theorem spaced (l : Bytes) : trimSpace (b!" " ++ l) = trimSpace l :=
  trimSpace_spaces_left (a := b!" ") (s := _) ⟨[b!" "], by decide, rfl⟩

theorem last_tidy {p : List Char} (h : trimSpace (utf8 p) = utf8 p) : ∀ c ∈ p.getLast?, isBreak c = false := by
  intro c hc
  by_contra hb
  have hb : isBreak c = true := by simpa using hb
  have hs : isSpace c = true := by unfold isBreak at hb; rw [Bool.and_eq_true] at hb; exact hb.1
  obtain ⟨q, rfl⟩ : ∃ q, p = q ++ [c] := ⟨p.dropLast, by
    obtain ⟨h0, h1⟩ := List.getLast?_eq_some_iff.1 hc
    simp [h1]⟩
  rw [utf8_append] at h
  have hsp : Spaces (utf8 [c]) := spaces_utf8 (by simpa using hs)
  rw [trimSpace_spaces_right hsp] at h
  obtain ⟨a, m, b, h1, _, _, h4⟩ := trimSpace_chars q
  have e1 : (utf8 m).length = (utf8 q).length + (utf8 [c]).length := by rw [← h4, h, List.length_append]
  have e2 : (utf8 q).length = (utf8 a).length + (utf8 m).length + (utf8 b).length := by
    conv => lhs; rw [h1]
    rw [utf8_append, utf8_append, List.length_append, List.length_append]
  have e3 : (utf8 [c]).length ≠ 0 := by
    intro e
    cases utf8_eq_nil.1 (List.length_eq_zero_iff.1 e)
  omega

theorem wrap_tidy {s : Bytes} (hv : ValidUtf8 s) {width : Int} (hn : Narrow width s)
    (ht : ∀ l ∈ splitByte 0x0a s, trimSpace l = l) : wrapString s width = splitByte 0x0a s := by
  obtain ⟨cs, rfl⟩ := hv
  rw [splitByte_utf8] at ht ⊢
  refine wrap_same cs width fun hw p hp => ⟨?_, ?_⟩
  · unfold Narrow at hn
    rw [runes_utf8] at hn
    exact (hn.resolve_left (by omega)) p hp
  · exact last_tidy (ht _ (List.mem_map.2 ⟨p, hp, rfl⟩))

theorem translator_kept {s : Bytes} (hv : ValidUtf8 s) (width : Int) :
    TextKept width TidyTranslator s
      (join [0x0a] ((if s ≠ [] then (wrapString s width).map fun l => trimSpace (b!" " ++ l) else []).dropWhile (· = []))) := by
  by_cases hs : s = []
  · subst hs
    exact ⟨fun _ => rfl, fun _ _ => rfl⟩
  rw [if_pos hs]
  simp only [spaced]
  constructor
  · intro h
    obtain ⟨cs, rfl⟩ := hv
    rw [runes_utf8] at h
    obtain ⟨css, h1, _, _⟩ := wrap_chars cs width
    obtain ⟨ms, k1, k2⟩ := trims css
    rw [h1, k1, (dropWhile_fields ms).1, words_joined, (dropWhile_fields ms).2, k2, wrapped_fields cs width h css h1,
      commentWords, runes_utf8]
  · intro hn ht
    obtain ⟨hh, ht⟩ := ht.resolve_left hs
    rw [wrap_tidy hv hn ht]
    have : (splitByte 0x0a s).map (fun l => trimSpace l) = splitByte 0x0a s := by
      conv => rhs; rw [← List.map_id (splitByte 0x0a s)]
      exact List.map_congr_left ht
    rw [this]
    have hd : (splitByte 0x0a s).dropWhile (· = []) = splitByte 0x0a s := by
      revert hh
      cases splitByte 0x0a s with
      | nil => intro _; rfl
      | cons a l =>
        intro hh
        exact List.dropWhile_cons_of_neg (by simpa using hh)
    rw [hd, join_splitByte]

theorem extracted_kept {s : Bytes} (hv : ValidUtf8 s) (width : Int) :
    TextKept width TidyExtracted s
      (join [0x0a] ((if s ≠ [] then (wrapString s width).map fun l => trimSpace (b!" " ++ l) else []).filter (· ≠ []))) := by
  by_cases hs : s = []
  · subst hs
    exact ⟨fun _ => rfl, fun _ _ => rfl⟩
  rw [if_pos hs]
  simp only [spaced]
  constructor
  · intro h
    obtain ⟨cs, rfl⟩ := hv
    rw [runes_utf8] at h
    obtain ⟨css, h1, _, _⟩ := wrap_chars cs width
    obtain ⟨ms, k1, k2⟩ := trims css
    rw [h1, k1, (filter_fields ms).1, words_joined, (filter_fields ms).2, k2, wrapped_fields cs width h css h1,
      commentWords, runes_utf8]
  · intro hn ht
    have ht := ht.resolve_left hs
    rw [wrap_tidy hv hn fun l hl => (ht l hl).2]
    have : (splitByte 0x0a s).map (fun l => trimSpace l) = splitByte 0x0a s := by
      conv => rhs; rw [← List.map_id (splitByte 0x0a s)]
      exact List.map_congr_left fun l hl => (ht l hl).2
    rw [this]
    have hd : (splitByte 0x0a s).filter (· ≠ []) = splitByte 0x0a s :=
      List.filter_eq_self.2 fun l hl => by simpa using (ht l hl).1
    rw [hd, join_splitByte]

/-! ## Comments -/

/-- The comment as it is read. -/
def readComment (enc : Encoder) (c : Comment) : Comment := commentOf false (commentEntry enc c)

theorem filterMap_none {α β : Type} (l : List α) : l.filterMap (fun _ => (none : Option β)) = [] := by
  induction l with
  | nil => rfl
  | cons a l ih => simpa using ih

theorem flatMap_none {α β : Type} (l : List α) : l.flatMap (fun _ => ([] : List β)) = [] := by
  induction l with
  | nil => rfl
  | cons a l ih => simpa using ih

theorem translatorTexts_entry (enc : Encoder) (c : Comment) : translatorTexts (commentEntry enc c) =
    if c.translator ≠ [] then (wrapString c.translator enc.wrapWidth).map fun l => trimSpace (b!" " ++ l) else [] := by
  unfold translatorTexts commentEntry
  simp only [List.filterMap_append]
  by_cases h1 : c.translator = [] <;> by_cases h2 : c.extracted = [] <;>
    by_cases h3 : c.references ≠ [] ∧ enc.writeReferences = true <;> by_cases h4 : c.flags = [] <;>
    simp [h1, h2, h3, h4, Function.comp_def, List.filterMap_map, List.flatMap_map, filterMap_none, flatMap_none]

theorem extractedTexts_entry (enc : Encoder) (c : Comment) : extractedTexts (commentEntry enc c) =
    (if c.extracted ≠ [] then (wrapString c.extracted enc.wrapWidth).map fun l => trimSpace (b!" " ++ l) else []).filter (· ≠ []) := by
  unfold extractedTexts commentEntry
  congr 1
  simp only [List.filterMap_append]
  by_cases h1 : c.translator = [] <;> by_cases h2 : c.extracted = [] <;>
    by_cases h3 : c.references ≠ [] ∧ enc.writeReferences = true <;> by_cases h4 : c.flags = [] <;>
    simp [h1, h2, h3, h4, Function.comp_def, List.filterMap_map, List.flatMap_map, filterMap_none, flatMap_none]

theorem referenceTexts_entry (enc : Encoder) (c : Comment) : referenceTexts (commentEntry enc c) =
    (if c.references ≠ [] ∧ enc.writeReferences then
      (wrapString (join b!" " (c.references.map referenceText)) enc.wrapWidth).map fun l => trimSpace (b!" " ++ l) else []).filter (· ≠ []) := by
  unfold referenceTexts commentEntry
  congr 1
  simp only [List.filterMap_append]
  by_cases h1 : c.translator = [] <;> by_cases h2 : c.extracted = [] <;>
    by_cases h3 : c.references ≠ [] ∧ enc.writeReferences = true <;> by_cases h4 : c.flags = [] <;>
    simp [h1, h2, h3, h4, Function.comp_def, List.filterMap_map, List.flatMap_map, filterMap_none, flatMap_none]

theorem flagsOf_entry (enc : Encoder) (c : Comment) : flagsOf (commentEntry enc c) =
    if c.flags ≠ [] then fieldsFunc (fun c => isSpace c || c = ',') (trimSpace (b!" " ++ join b!", " c.flags)) else [] := by
  unfold flagsOf commentEntry
  simp only [List.flatMap_append]
  by_cases h1 : c.translator = [] <;> by_cases h2 : c.extracted = [] <;>
    by_cases h3 : c.references ≠ [] ∧ enc.writeReferences = true <;> by_cases h4 : c.flags = [] <;>
    simp [h1, h2, h3, h4, Function.comp_def, List.filterMap_map, List.flatMap_map, filterMap_none, flatMap_none]

theorem comment_read (enc : Encoder) {c : Comment} (h : CommentOk c) :
    CommentRead enc.wrapWidth enc.writeReferences c (readComment enc c) := by
  constructor
  · show TextKept _ _ _ (join [0x0a] ((translatorTexts (commentEntry enc c)).dropWhile (· = [])))
    rw [translatorTexts_entry]
    exact translator_kept h.translator _
  · show TextKept _ _ _ (join [0x0a] (extractedTexts (commentEntry enc c)))
    rw [extractedTexts_entry]
    exact extracted_kept h.extracted _
  · show (referenceTexts (commentEntry enc c)).flatMap _ = _
    rw [referenceTexts_entry]
    by_cases hr : enc.writeReferences
    · by_cases hn : c.references = []
      · simp [hn]
      · obtain ⟨ls, h1, _, h3⟩ := read_references h.references hn enc.wrapWidth
        rw [if_pos ⟨hn, hr⟩, if_pos hr, h1]
        exact h3
    · rw [if_neg (fun e => hr e.2), if_neg hr]
      rfl
  · show flagsOf (commentEntry enc c) = _
    rw [flagsOf_entry]
    split
    · exact (read_flags h.flags).2
    · rename_i h'
      exact (not_not.1 h').symm
  · rfl
  · rfl

theorem oneLine_wrap {s : Bytes} (hv : ValidUtf8 s) (width : Int) : ∀ l ∈ wrapString s width, OneLine (b!" " ++ l) := by
  obtain ⟨cs, rfl⟩ := hv
  obtain ⟨css, h1, _, h3⟩ := wrap_chars cs width
  rw [h1]
  intro l hl
  obtain ⟨x, hx, rfl⟩ := List.mem_map.1 hl
  intro hm
  rcases List.mem_cons.1 hm with hm | hm
  · revert hm; decide
  · exact newline_utf8 (h3 x hx) hm

theorem commentEntry_wf (enc : Encoder) {c : Comment} (h : CommentOk c) : ∀ l ∈ commentEntry enc c, l.WF := by
  have hb : Blank [] := by decide
  intro l hl
  unfold commentEntry at hl
  simp only [List.mem_append] at hl
  rcases hl with ((hl | hl) | hl) | hl
  · split at hl
    · obtain ⟨x, hx, rfl⟩ := List.mem_map.1 hl
      refine ⟨hb, oneLine_wrap h.translator _ x hx, ?_⟩
      intro b hb'
      simp at hb'
      subst hb'
      decide
    · cases hl
  · split at hl
    · obtain ⟨x, hx, rfl⟩ := List.mem_map.1 hl
      exact ⟨hb, oneLine_wrap h.extracted _ x hx⟩
    · cases hl
  · split at hl
    · rename_i hr
      obtain ⟨x, hx, rfl⟩ := List.mem_map.1 hl
      obtain ⟨ls, h1, h2, _⟩ := read_references h.references hr.1 enc.wrapWidth
      rw [h1] at hx
      refine ⟨hb, fun hm => ?_⟩
      rcases List.mem_cons.1 hm with hm | hm
      · revert hm; decide
      · exact h2 x hx hm
    · cases hl
  · split at hl
    · rw [List.mem_singleton] at hl
      subst hl
      exact ⟨hb, (read_flags h.flags).1⟩
    · cases hl

end Verif.Proofs.Po
