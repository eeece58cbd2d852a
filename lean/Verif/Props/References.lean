import Verif.Spec.Reference
import Verif.Model.Po.Reference
import Verif.Proofs.Po.EntryRead
import Verif.Proofs.Po.TrimText
import Verif.Proofs.Po.Entry
import Verif.Proofs.PoString
import Verif.Proofs.Go.Digits
import Verif.Props.PoParser
/-!
# C103: references
-/
namespace Verif.Props.References
open Verif.Go Verif.Model.Po Verif.Spec.Reference Verif.Proofs.Po

theorem digit_char {d : UInt8} (h : isDigit d = true) : ∃ c : Char, encodeRune c = [d] ∧ isSpace c = false ∧ c ≠ ':' ∧ c ≠ ' ' := by
  have hb := digit_bounds h
  have : ∀ n : Fin 58, 48 ≤ n.val → encodeRune (Char.ofNat n.val) = [UInt8.ofNat n.val] ∧ isSpace (Char.ofNat n.val) = false ∧
      Char.ofNat n.val ≠ ':' ∧ Char.ofNat n.val ≠ ' ' := by decide
  have := this ⟨d.toNat, by omega⟩ hb.1
  refine ⟨_, ?_, this.2⟩
  rw [this.1]; simp

theorem digits_chars : ∀ {ds : Bytes}, (∀ d ∈ ds, isDigit d = true) → ∃ cs : List Char, utf8 cs = ds ∧ ∀ c ∈ cs, isSpace c = false
  | [], _ => ⟨[], rfl, by simp⟩
  | d :: ds, h => by
    obtain ⟨c, h1, h2, _⟩ := digit_char (h d List.mem_cons_self)
    obtain ⟨cs, h3, h4⟩ := digits_chars fun x hx => h x (List.mem_cons_of_mem _ hx)
    refine ⟨c :: cs, by simp [utf8, h1] at *; exact h3, ?_⟩
    intro x hx
    rcases List.mem_cons.1 hx with rfl | hx
    · exact h2
    · exact h4 x hx

theorem solid {w : Written} (h : w.Plain) : w.Solid := ⟨h.1, fun c hc => (h.2.1 c hc).1, h.2.2⟩

/-- The text of a reference is a text without white space. -/
theorem text_chars {w : Written} (h : w.Solid) : ∃ cs : List Char, w.text = utf8 cs ∧ cs ≠ [] ∧ ∀ c ∈ cs, isSpace c = false := by
  obtain ⟨hne, hp, hl⟩ := h
  unfold Written.text
  cases hw : w.line with
  | none => exact ⟨w.path, by simp, hne, hp⟩
  | some ds =>
    obtain ⟨cs, h1, h2⟩ := digits_chars (hl ds hw).2.1
    refine ⟨w.path ++ ':' :: cs, ?_, by simp, ?_⟩
    · simp only [utf8, List.flatMap_append, List.flatMap_cons] at *
      rw [h1]; rfl
    · intro c hc
      rcases List.mem_append.1 hc with hc | hc
      · exact hp c hc
      · rcases List.mem_cons.1 hc with rfl | hc
        · decide
        · exact h2 c hc

theorem ascii_not_mem {cs : List Char} {b : Char} (hb : b.toNat < 0x80) (h : b ∉ cs) : UInt8.ofNat b.toNat ∉ utf8 cs := by
  intro hm
  unfold utf8 at hm
  obtain ⟨c, h1, h2⟩ := List.mem_flatMap.1 hm
  have hbn : (UInt8.ofNat b.toNat).toNat = b.toNat := by simp; omega
  by_cases hlt : c.toNat < 0x80
  · rw [Model.PoString.encodeRune_ascii c hlt, List.mem_singleton] at h2
    have := congrArg UInt8.toNat h2
    rw [hbn] at this
    have e : (UInt8.ofNat c.toNat).toNat = c.toNat := by simp; omega
    rw [e] at this
    have : b = c := by rw [← Char.ofNat_toNat b, ← Char.ofNat_toNat c, this]
    exact h (this ▸ h1)
  · have := Model.PoString.encodeRune_multi c (by omega) _ h2
    omega

/-- The line is a number that fits into an `int`. -/
def LineOk (w : Written) : Prop := ∀ ds, w.line = some ds → ds ≠ [] ∧ (∀ d ∈ ds, isDigit d = true) ∧ digitsValue ds < 2 ^ 63

/-- A reference without white space at its ends and without a colon in its path. -/
theorem read_plain {w : Written} (hne : w.path ≠ []) (hcol : ':' ∉ w.path) (hline : LineOk w) (ht : trimSpace w.text = w.text) :
    parseReference w.text = ⟨utf8 w.path, w.number, 0⟩ := by
  have hc : (0x3a : UInt8) ∉ utf8 w.path := ascii_not_mem (b := ':') (by decide) hcol
  have hp : utf8 w.path ≠ [] := by
    cases hw : w.path with
    | nil => exact absurd hw hne
    | cons c cs => simp [utf8, encodeRune_ne_nil]
  unfold parseReference
  simp only [ht]
  unfold Written.text Written.number
  cases hw : w.line with
  | none =>
    simp only [List.append_nil]
    rw [(indexByte?_none _ _).2 hc]
  | some ds =>
    have hi : indexByte? 0x3a (utf8 w.path ++ (b!":" ++ ds)) = some (utf8 w.path).length := by
      simpa using indexByte?_first 0x3a (utf8 w.path) ds hc
    have hat : atoi ds = some (digitsValue ds : Int) := atoi_index (hline ds hw)
    simp only [hi]
    cases hl : (utf8 w.path).length with
    | zero => exact absurd (List.eq_nil_of_length_eq_zero hl) hp
    | succ n =>
      have h1 : (utf8 w.path ++ (b!":" ++ ds)).take (utf8 w.path).length = utf8 w.path := by simp
      have h2 : (utf8 w.path ++ (b!":" ++ ds)).drop ((utf8 w.path).length + 1) = ds := by
        rw [List.drop_append]; simp
      rw [hl] at h1 h2
      simp only [h1, h2, hat, Option.getD_some]

theorem trim_text {w : Written} (h : w.Solid) : trimSpace w.text = w.text := by
  obtain ⟨cs, h1, h2, h3⟩ := text_chars h
  rw [h1]
  exact trimSpace_utf8 (fun c hc => h3 c (List.mem_of_mem_head? hc)) (fun c hc => h3 c (List.mem_of_mem_getLast? hc))

/-- One reference is read with its path and its line. -/
theorem read_one {w : Written} (h : w.Plain) : parseReference w.text = ⟨utf8 w.path, w.number, 0⟩ :=
  read_plain h.1 (fun hm => (h.2.1 _ hm).2 rfl) h.2.2 (trim_text (solid h))

/-- The references of a line can be told apart. -/
theorem joined {ws : List Written} (hne : ws ≠ []) (h : ∀ w ∈ ws, w.Solid) {a b : Bytes} (ha : Spaces a) (hb : Spaces b) :
    trimSpace (a ++ join b!" " (ws.map Written.text) ++ b) = join b!" " (ws.map Written.text) ∧
    splitByte 0x20 (join b!" " (ws.map Written.text)) = ws.map Written.text ∧ join b!" " (ws.map Written.text) ≠ [] := by
  have hsp : ∀ w ∈ ws, (0x20 : UInt8) ∉ w.text := by
    intro w hw
    obtain ⟨cs, h1, _, h3⟩ := text_chars (h w hw)
    rw [h1]
    exact ascii_not_mem (b := ' ') (by decide) fun hm => by have := h3 _ hm; revert this; decide
  -- the joined text has no white space at its ends
  have hj : ∀ ws : List Written, ws ≠ [] → (∀ w ∈ ws, w.Solid) → ∃ cs : List Char, join b!" " (ws.map Written.text) = utf8 cs ∧ cs ≠ [] ∧
      (∀ c ∈ cs.head?, isSpace c = false) ∧ ∀ c ∈ cs.getLast?, isSpace c = false := by
    intro ws
    induction ws with
    | nil => intro h; exact absurd rfl h
    | cons w ws ih =>
      intro _ h
      obtain ⟨cs, h1, h2, h3⟩ := text_chars (h w List.mem_cons_self)
      cases ws with
      | nil =>
        exact ⟨cs, by simp [join, h1], h2, fun c hc => h3 c (List.mem_of_mem_head? hc), fun c hc => h3 c (List.mem_of_mem_getLast? hc)⟩
      | cons w' ws =>
        obtain ⟨ds, h4, h5, h6, h7⟩ := ih (by simp) fun x hx => h x (List.mem_cons_of_mem _ hx)
        refine ⟨cs ++ ' ' :: ds, ?_, by simp, ?_, ?_⟩
        · simp only [List.map_cons, join] at h4 ⊢
          rw [h4, h1]
          simp only [utf8, List.flatMap_append, List.flatMap_cons]
          simp [encodeRune]
        · cases cs with
          | nil => exact absurd rfl h2
          | cons x xs => intro c hc; exact h3 c (by simp at hc; simp [hc])
        · intro c hc
          apply h7
          rw [List.getLast?_append, List.getLast?_cons] at hc
          cases hd : ds.getLast? with
          | none => exact absurd (List.getLast?_eq_none_iff.1 hd) h5
          | some x => rw [hd] at hc; simpa using hc
  obtain ⟨cs, h1, h2, h3, h4⟩ := hj ws hne h
  have ht : trimSpace (a ++ join b!" " (ws.map Written.text) ++ b) = join b!" " (ws.map Written.text) := by
    rw [trimSpace_spaces_right hb, trimSpace_spaces_left ha, h1]
    exact trimSpace_utf8 h3 h4
  have hs : splitByte 0x20 (join b!" " (ws.map Written.text)) = ws.map Written.text :=
    splitByte_join 0x20 _ (by simpa using hne) (by simpa using hsp)
  refine ⟨ht, hs, ?_⟩
  rw [h1]
  cases cs with
  | nil => exact absurd rfl h2
  | cons c cs => simp [utf8, encodeRune_ne_nil]

/-- A line `#:` with references separated by a blank, also with white space at the ends: the references are read one by
one, with path and line. -/
theorem C103_read_partial (c : Comment) (ws : List Written) (hne : ws ≠ []) (h : ∀ w ∈ ws, w.Plain) (a b : Bytes) (ha : Spaces a) (hb : Spaces b) :
    commentStep c .commentReference (b!"#:" ++ (a ++ join b!" " (ws.map Written.text) ++ b)) =
      .ok { c with references := c.references ++ ws.map fun w => ⟨utf8 w.path, w.number, 0⟩ } := by
  obtain ⟨ht, hs, _⟩ := joined hne (fun w hw => solid (h w hw)) ha hb
  unfold commentStep from?
  simp only [List.length_append, List.length_cons, List.length_nil]
  rw [if_pos (by omega)]
  simp only [Res.bind, List.cons_append, List.nil_append, List.drop_succ_cons, List.drop_zero]
  rw [ht, hs, List.map_map]
  congr 3
  apply List.map_congr_left
  intro w hw
  exact read_one (h w hw)

theorem utf8_colon (a b : List Char) : utf8 (a ++ ':' :: b) = utf8 a ++ 0x3a :: utf8 b := by
  simp only [utf8, List.flatMap_append, List.flatMap_cons]
  rfl

theorem first_colon : ∀ {p : List Char}, ':' ∈ p → ∃ a b, p = a ++ ':' :: b ∧ ':' ∉ a := by
  intro p hc
  induction p with
  | nil => cases hc
  | cons x xs ih =>
    by_cases hx : x = ':'
    · exact ⟨[], xs, by rw [hx]; rfl, List.not_mem_nil⟩
    · rcases List.mem_cons.1 hc with e | hc
      · exact absurd e.symm hx
      · obtain ⟨a, b, h1, h2⟩ := ih hc
        refine ⟨x :: a, b, by rw [h1]; rfl, fun hm => ?_⟩
        rcases List.mem_cons.1 hm with e | hm
        · exact hx e.symm
        · exact h2 hm

/-- What is read for one reference without white space at its ends. -/
theorem read_trim {w : Written} (hne : w.path ≠ []) (hline : LineOk w) (ht' : trimSpace w.text = w.text) :
    parseReference w.text = ⟨utf8 w.path, w.number, 0⟩ ↔ w.Clear := by
  by_cases hc : ':' ∈ w.path
  · obtain ⟨a, b, hab, hna⟩ := first_colon hc
    have hbytes : (0x3a : UInt8) ∉ utf8 a := ascii_not_mem (b := ':') (by decide) hna
    have htext : ∃ t, w.text = utf8 a ++ 0x3a :: t := by
      refine ⟨utf8 b ++ match w.line with | some ds => b!":" ++ ds | none => [], ?_⟩
      unfold Written.text
      rw [hab, utf8_colon, List.append_assoc]
      rfl
    obtain ⟨t, ht⟩ := htext
    have hi : indexByte? 0x3a w.text = some (utf8 a).length := by rw [ht]; exact indexByte?_first _ _ _ hbytes
    unfold parseReference
    simp only [ht', hi]
    cases hl : (utf8 a).length with
    | zero =>
      have ha : a = [] := by
        cases a with
        | nil => rfl
        | cons x xs =>
          have := List.eq_nil_of_length_eq_zero hl
          simp [utf8, encodeRune_ne_nil] at this
      subst ha
      simp only []
      constructor
      · intro e
        refine .inr ⟨by rw [hab]; rfl, ?_⟩
        injection e with e1
        unfold Written.text at e1
        cases hw : w.line with
        | none => rfl
        | some ds =>
          rw [hw] at e1
          have := congrArg List.length e1
          simp at this
      · rintro (hn | ⟨_, hw⟩)
        · exact absurd hc hn
        · unfold Written.text Written.number
          rw [hw]
          simp
    | succ n =>
      simp only []
      constructor
      · intro e
        injection e with e1
        rw [ht, ← hl, List.take_left, hab, utf8_colon] at e1
        have := congrArg List.length e1
        simp at this
      · rintro (hn | ⟨hh, _⟩)
        · exact absurd hc hn
        · cases a with
          | nil => simp [utf8] at hl
          | cons x xs =>
            rw [hab] at hh
            simp only [List.cons_append, List.head?_cons, Option.some.injEq] at hh
            exact absurd (by rw [hh]; exact List.mem_cons_self) hna
  · refine ⟨fun _ => .inl hc, fun _ => read_plain hne hc hline ht'⟩

/-- What is read for one reference without white space. -/
theorem read_solid {w : Written} (h : w.Solid) : parseReference w.text = ⟨utf8 w.path, w.number, 0⟩ ↔ w.Clear :=
  read_trim h.1 h.2.2 (trim_text h)

/-- A line of references whose paths have no white space is read right exactly if no path has a colon, except for one at its beginning if
there is no line. -/
theorem C103_read_iff (c : Comment) (ws : List Written) (hne : ws ≠ []) (h : ∀ w ∈ ws, w.Solid) (a b : Bytes) (ha : Spaces a) (hb : Spaces b) :
    commentStep c .commentReference (b!"#:" ++ (a ++ join b!" " (ws.map Written.text) ++ b)) =
      .ok { c with references := c.references ++ ws.map fun w => ⟨utf8 w.path, w.number, 0⟩ } ↔ ∀ w ∈ ws, w.Clear := by
  obtain ⟨ht, hs, _⟩ := joined hne h ha hb
  unfold commentStep from?
  simp only [List.length_append, List.length_cons, List.length_nil]
  rw [if_pos (by omega)]
  simp only [Res.bind, List.cons_append, List.nil_append, List.drop_succ_cons, List.drop_zero]
  rw [ht, hs, List.map_map]
  constructor
  · intro e w hw
    injection e with e
    have e := List.append_cancel_left (congrArg Comment.references e)
    exact (read_solid (h w hw)).1 (List.map_inj_left.1 e w hw)
  · intro hcl
    congr 3
    apply List.map_congr_left
    intro w hw
    exact (read_solid (h w hw)).2 (hcl w hw)

/-- The path of `C103_windows_negation` is one of these. -/
example : (⟨"C:\\src\\a.go".toList, some b!"10"⟩ : Written).Solid ∧ ¬ (⟨"C:\\src\\a.go".toList, some b!"10"⟩ : Written).Clear := by
  refine ⟨⟨by decide, by decide, by rintro ds ⟨⟩; decide⟩, ?_⟩
  rintro (h | ⟨_, h⟩)
  · exact h (by decide)
  · cases h

open Verif.Spec.PoEntry in
/-- An entry between blank lines, in arbitrary surroundings: in an accepted file its message has the references of the
`#:` lines of the entry, in their order.  `W` says which references a line is written with. -/
theorem C103_file_partial (u : Unicode) (A B : List Bytes) (b1 b2 content : Bytes) (e : Entry)
    (h1 : BlankLine b1) (h2 : BlankLine b2) (he : e.WF) (hid : e.id.value ≠ [])
    (h : HasLines content (A ++ b1 :: (e.lines ++ b2 :: B))) (hs : Short (A ++ b1 :: (e.lines ++ b2 :: B))) (f : File)
    (hf : parse u false content = .ok f) (W : Bytes → List Written)
    (hW : ∀ i t, CommentLine.reference i t ∈ e.comments → W t ≠ [] ∧ (∀ w ∈ W t, w.Plain) ∧
      ∃ a b, Spaces a ∧ Spaces b ∧ t = a ++ join b!" " ((W t).map Written.text) ++ b) :
    ∃ m c, f.getMessage ((e.context.map Field.value).getD []) e.id.value = some m ∧ m.comment = some c ∧
      c.references = e.comments.flatMap fun
        | .reference _ t => (W t).map fun w => ⟨utf8 w.path, w.number, 0⟩
        | _ => [] := by
  have hg : ∃ content', HasLines content' (A ++ b1 :: B) := by
    refine ⟨textOf (A ++ b1 :: B), ?_, .inl rfl⟩
    intro l hl
    apply h.1
    simp only [List.mem_append, List.mem_cons] at hl ⊢
    rcases hl with h | h | h
    · exact .inl h
    · exact .inr (.inl h)
    · exact .inr (.inr (.inr (.inr h)))
  obtain ⟨content', h'⟩ := hg
  have := (PoParser.C08_local u false A B b1 b2 content content' e h1 h2 he hid h hs h' f hf).1
  refine ⟨_, _, this, rfl, ?_⟩
  simp only [commentOf, Bool.false_eq_true, if_false]
  clear this h' content' hf hs h he
  generalize e.comments = cs at hW
  induction cs with
  | nil => rfl
  | cons c cs ih =>
    have ih := ih fun i t hm => hW i t (List.mem_cons_of_mem _ hm)
    unfold referenceTexts at ih ⊢
    cases c with
    | reference i t =>
      obtain ⟨k1, k2, a, b, ka, kb, kt⟩ := hW i t List.mem_cons_self
      obtain ⟨ht, hsp, hne⟩ := joined k1 (fun w hw => solid (k2 w hw)) ka kb
      rw [← kt] at ht
      simp only [List.filterMap_cons, List.flatMap_cons, List.filter_cons]
      rw [if_pos (by rw [ht]; simpa using hne), List.flatMap_cons, ih, ht, hsp, List.map_map]
      congr 1
      apply List.map_congr_left
      intro w hw
      rw [← read_one (k2 w hw), parseReference_eq]; rfl
    | translator i t => simpa [List.filterMap_cons] using ih
    | extracted i t => simpa [List.filterMap_cons] using ih
    | flags i t => simpa [List.filterMap_cons] using ih

open Verif.Spec.PoEntry in
/-- An accepted file with two lines of references. -/
example (u : Unicode) : ∃ (e : Entry) (f : File) (W : Bytes → List Written), e.WF ∧ e.id.value ≠ [] ∧
    parse u false (textOf ([] ++ [] :: (e.lines ++ [] :: []))) = .ok f ∧ HasLines (textOf ([] ++ [] :: (e.lines ++ [] :: []))) ([] ++ [] :: (e.lines ++ [] :: [])) ∧
    Short ([] ++ [] :: (e.lines ++ [] :: [])) ∧
    (∀ i t, CommentLine.reference i t ∈ e.comments → W t ≠ [] ∧ (∀ w ∈ W t, w.Plain) ∧
      ∃ a b, Spaces a ∧ Spaces b ∧ t = a ++ join b!" " ((W t).map Written.text) ++ b) ∧
    e.lines.take 3 = [b!"#: a.go:1 b.go", b!"#. note", b!"#:b.go "] := by
  let q (s : List Char) : Spec.PoEntry.Field := ⟨[], ⟨[], s, [], s⟩, []⟩
  have hq : ∀ c : Char, c ≠ '"' → c ≠ '\\' → c ≠ '\n' → (q [c]).WF := fun c h1 h2 h3 =>
    ⟨by simp [q, Blank], ⟨by simp [q, Blank], by simp [q, Blank], .plain h1 h2 h3 .nil⟩, by simp [q]⟩
  have hf : ∃ f, parse u false (textOf ([] ++ [] :: ((Entry.mk [.reference [] b!" a.go:1 b.go", .extracted [] b!" note", .reference [] b!"b.go "] none (q ['x']) none (.single (q ['y']))).lines ++ [] :: []))) = .ok f := ⟨_, rfl⟩
  obtain ⟨f, hf⟩ := hf
  refine ⟨⟨[.reference [] b!" a.go:1 b.go", .extracted [] b!" note", .reference [] b!"b.go "], none, q ['x'], none, .single (q ['y'])⟩, f,
    fun t => if t = b!"b.go " then [⟨"b.go".toList, none⟩] else [⟨"a.go".toList, some b!"1"⟩, ⟨"b.go".toList, none⟩], ?_, by decide, hf,
    ⟨by decide, .inl rfl⟩, by decide, ?_, by decide⟩
  · refine ⟨?_, (by intro f hf; cases hf), hq _ (by decide) (by decide) (by decide), (by intro f hf; cases hf), hq _ (by decide) (by decide) (by decide)⟩
    intro c hc
    simp only [List.mem_cons, List.not_mem_nil, or_false] at hc
    rcases hc with rfl | rfl | rfl <;> exact ⟨by decide, by decide⟩
  · intro i t ht
    simp only [List.mem_cons, List.not_mem_nil, or_false, CommentLine.reference.injEq, reduceCtorEq, false_or] at ht
    have he : Spaces [] := ⟨[], by simp, rfl⟩
    have hb : Spaces b!" " := ⟨[b!" "], by decide, rfl⟩
    have p1 : Written.Plain ⟨"b.go".toList, none⟩ := ⟨by decide, by decide, by rintro ds ⟨⟩⟩
    have p2 : Written.Plain ⟨"a.go".toList, some b!"1"⟩ := ⟨by decide, by decide, by rintro ds ⟨⟩; decide⟩
    rcases ht with ⟨rfl, rfl⟩ | ⟨rfl, rfl⟩
    · refine ⟨by decide, ?_, b!" ", [], hb, he, by decide⟩
      intro w hw
      simp only [] at hw
      rw [if_neg (by decide)] at hw
      simp only [List.mem_cons, List.not_mem_nil, or_false] at hw
      rcases hw with rfl | rfl
      · exact p2
      · exact p1
    · refine ⟨by decide, ?_, [], b!" ", he, hb, by decide⟩
      intro w hw
      simp only [if_true] at hw
      simp only [List.mem_cons, List.not_mem_nil, or_false] at hw
      rw [hw]; exact p1

/-- `#: lib/größe.go:012 main.go` -/
example : (∀ w ∈ [⟨"lib/größe.go".toList, some b!"012"⟩, ⟨"main.go".toList, none⟩], Written.Plain w) ∧
    join b!" " ([⟨"lib/größe.go".toList, some b!"012"⟩, ⟨"main.go".toList, none⟩].map Written.text) = b!"lib/größe.go:012 main.go" ∧
    Written.number ⟨"lib/größe.go".toList, some b!"012"⟩ = 12 := by
  refine ⟨?_, by decide, by decide⟩
  intro w hw
  simp only [List.mem_cons, List.not_mem_nil, or_false] at hw
  rcases hw with rfl | rfl
  · refine ⟨by decide, by decide, ?_⟩
    rintro ds ⟨⟩; decide
  · refine ⟨by decide, by decide, ?_⟩
    rintro ds ⟨⟩

/-- A path with a colon, as in Windows, is cut at the colon, and the line is lost. -/
theorem C103_windows_negation : parseReference b!"C:\\src\\a.go:10" = ⟨b!"C", -1, 0⟩ := by decide

/-- A path with blanks is taken for several references, also between U+2068 and U+2069. -/
theorem C103_blank_negation :
    commentStep Comment.new .commentReference b!"#: ⁨my file.go⁩:3" =
      .ok { Comment.new with references := [⟨b!"⁨my", -1, 0⟩, ⟨b!"file.go⁩", 3, 0⟩] } := by decide

/-- Two blanks between references give a reference without a path. -/
theorem C103_two_blanks_negation :
    commentStep Comment.new .commentReference b!"#: a.go:1  b.go:2" =
      .ok { Comment.new with references := [⟨b!"a.go", 1, 0⟩, ⟨[], -1, 0⟩, ⟨b!"b.go", 2, 0⟩] } := by decide

/-! ## `String` and `Equal` -/

/-- `Equal` compares all parts. -/
theorem C103_equal (r o : Reference) : r.equal o = true ↔ r = o := by
  cases r; cases o
  simp [Reference.equal, and_assoc]

theorem itoa_colon (n : Int) : (0x3a : UInt8) ∉ itoa n := by
  have hd : ∀ n, (∀ x ∈ natDigits 0 n, 48 ≤ x.toNat ∧ x.toNat ≤ 57) := fun n => (Proofs.Go.natDigits_spec 0 n).2.1
  intro h
  unfold itoa at h
  split at h
  · rcases List.mem_cons.1 h with h | h
    · revert h; decide
    · have := hd _ _ h; revert this; decide
  · have := hd _ _ h; revert this; decide

theorem itoa_inj {a b : Int} (h : itoa a = itoa b) : a = b := by
  have ha := Proofs.Go.itoa_plain a
  have hb := Proofs.Go.itoa_plain b
  rw [h] at ha
  have neg : ∀ {s r : Bytes} {n : Nat}, Spec.Decimal.Digits s n → s ≠ 0x2d :: r := by
    rintro s r n ⟨_, hd, _⟩ rfl
    have := hd 0x2d List.mem_cons_self
    revert this; decide
  rcases ha with ⟨h0, h1, _⟩ | ⟨h0, r, h1, h2, _⟩ <;> rcases hb with ⟨g0, g1, _⟩ | ⟨g0, r', g1, g2, _⟩
  · have := h1.2.2.symm.trans g1.2.2; omega
  · exact absurd g1 (neg h1)
  · exact absurd h1 (neg g1)
  · rw [g1] at h1
    cases h1
    have := h2.2.2.symm.trans g2.2.2; omega

theorem last_colon : ∀ {a b x y : Bytes}, (0x3a : UInt8) ∉ x → (0x3a : UInt8) ∉ y → a ++ 0x3a :: x = b ++ 0x3a :: y → a = b ∧ x = y := by
  intro a b x y hx hy h
  have h' := congrArg List.reverse h
  simp only [List.reverse_append, List.reverse_cons, List.append_assoc, List.singleton_append] at h'
  have key : ∀ {p q s t : Bytes}, (0x3a : UInt8) ∉ p → (0x3a : UInt8) ∉ q → p ++ 0x3a :: s = q ++ 0x3a :: t → p = q ∧ s = t := by
    intro p
    induction p with
    | nil =>
      intro q s t _ hq h
      cases q with
      | nil => exact ⟨rfl, (List.cons.inj h).2⟩
      | cons z zs => exact absurd (by rw [(List.cons.inj h).1]; exact List.mem_cons_self) hq
    | cons z zs ih =>
      intro q s t hp hq h
      cases q with
      | nil => exact absurd (by rw [← (List.cons.inj h).1]; exact List.mem_cons_self) hp
      | cons w ws =>
        obtain ⟨h1, h2⟩ := List.cons.inj h
        obtain ⟨h3, h4⟩ := ih (fun hm => hp (List.mem_cons_of_mem _ hm)) (fun hm => hq (List.mem_cons_of_mem _ hm)) h2
        exact ⟨by rw [h1, h3], h4⟩
  obtain ⟨h1, h2⟩ := key (by simpa using hx) (by simpa using hy) h'
  exact ⟨List.reverse_inj.1 h2, List.reverse_inj.1 h1⟩

/-- References with a line and the same text are equal. -/
theorem C103_string_partial (r o : Reference) (hr : 0 < r.line) (ho : 0 < o.line) (h : r.string = o.string) : r = o := by
  unfold Reference.string at h
  rw [if_pos hr, if_pos ho] at h
  simp only [List.append_assoc, List.singleton_append] at h
  have e : ∀ p l c : Bytes, p ++ 0x3a :: (l ++ 0x3a :: c) = (p ++ 0x3a :: l) ++ 0x3a :: c := by simp
  simp only [List.cons_append, e] at h
  obtain ⟨h1, h2⟩ := last_colon (itoa_colon _) (itoa_colon _) h
  obtain ⟨h3, h4⟩ := last_colon (itoa_colon _) (itoa_colon _) h1
  cases r; cases o
  simp only at *
  rw [h3, itoa_inj h4, itoa_inj h2]

example : (⟨b!"C:\\a.go", 3, 1⟩ : Reference).string = b!"C:\\a.go:3:1" := by decide

/-- Without a line the text is the path alone, which may look like a reference with a line. -/
theorem C103_string_negation : ∃ r o : Reference, r ≠ o ∧ r.string = o.string :=
  ⟨⟨b!"a.go:3:1", 0, 0⟩, ⟨b!"a.go", 3, 1⟩, by decide, by decide⟩

theorem itoa_chars (n : Int) : ∃ cs : List Char, utf8 cs = itoa n ∧ ∀ c ∈ cs, isSpace c = false := by
  have hd : ∀ n, ∀ x ∈ natDigits 0 n, isDigit x = true := by
    intro n x hx
    have := (Proofs.Go.natDigits_spec 0 n).2.1 x hx
    unfold isDigit; simpa using this
  unfold itoa
  split
  · obtain ⟨cs, h1, h2⟩ := digits_chars (hd n.natAbs)
    refine ⟨'-' :: cs, ?_, ?_⟩
    · simp only [utf8, List.flatMap_cons] at *
      rw [h1]; rfl
    · intro c hc
      rcases List.mem_cons.1 hc with rfl | hc
      · decide
      · exact h2 c hc
  · exact digits_chars (hd n.natAbs)

/-- What `String` prints for a reference with a line is not read back: the parser drops the line. -/
theorem C103_string_read_negation (path : List Char) (hne : path ≠ []) (hp : ∀ c ∈ path, isSpace c = false ∧ c ≠ ':') (line column : Int)
    (hl : 0 < line) : parseReference (Reference.string ⟨utf8 path, line, column⟩) = ⟨utf8 path, -1, 0⟩ := by
  have hc : (0x3a : UInt8) ∉ utf8 path := ascii_not_mem (b := ':') (by decide) fun hm => (hp _ hm).2 rfl
  obtain ⟨ls, hls, hls'⟩ := itoa_chars line
  obtain ⟨ks, hks, hks'⟩ := itoa_chars column
  have hs : Reference.string ⟨utf8 path, line, column⟩ = utf8 (path ++ ':' :: (ls ++ ':' :: ks)) := by
    unfold Reference.string
    rw [if_pos hl]
    simp only [← hls, ← hks, utf8, List.flatMap_append, List.flatMap_cons, List.append_assoc]
    rfl
  have ht : trimSpace (Reference.string ⟨utf8 path, line, column⟩) = Reference.string ⟨utf8 path, line, column⟩ := by
    rw [hs]
    have : ∀ c ∈ path ++ ':' :: (ls ++ ':' :: ks), isSpace c = false := by
      intro c hc
      simp only [List.mem_append, List.mem_cons] at hc
      rcases hc with hc | rfl | hc | rfl | hc
      · exact (hp c hc).1
      · decide
      · exact hls' c hc
      · decide
      · exact hks' c hc
    exact trimSpace_utf8 (fun c hc => this c (List.mem_of_mem_head? hc)) (fun c hc => this c (List.mem_of_mem_getLast? hc))
  unfold parseReference
  simp only [ht]
  have hstr : Reference.string ⟨utf8 path, line, column⟩ = utf8 path ++ 0x3a :: (itoa line ++ 0x3a :: itoa column) := by
    unfold Reference.string; rw [if_pos hl]; simp
  rw [hstr, indexByte?_first _ _ _ hc]
  cases hlen : (utf8 path).length with
  | zero =>
    exfalso
    cases path with
    | nil => exact hne rfl
    | cons c cs =>
      have := List.eq_nil_of_length_eq_zero hlen
      simp [utf8, encodeRune_ne_nil] at this
  | succ n =>
    have h1 : (utf8 path ++ 0x3a :: (itoa line ++ 0x3a :: itoa column)).take (utf8 path).length = utf8 path := by simp
    have h2 : (utf8 path ++ 0x3a :: (itoa line ++ 0x3a :: itoa column)).drop ((utf8 path).length + 1) = itoa line ++ 0x3a :: itoa column := by
      rw [List.drop_append]; simp
    have hbad : ∀ (neg : Bool) (ds : Bytes), (0x3a : UInt8) ∈ ds → atoiDigits neg ds = none := by
      intro neg ds hm
      unfold atoiDigits
      rw [if_neg]
      rintro ⟨_, hall⟩
      have := List.all_eq_true.1 hall _ hm
      revert this; decide
    have h3 : atoi (itoa line ++ 0x3a :: itoa column) = none := by
      unfold atoi
      split
      · rename_i ds h
        apply hbad
        have : (0x3a : UInt8) ∈ (0x2d : UInt8) :: ds := by rw [← h]; simp
        simpa using this
      · rename_i ds h
        apply hbad
        have : (0x3a : UInt8) ∈ (0x2b : UInt8) :: ds := by rw [← h]; simp
        simpa using this
      · apply hbad; simp
    rw [hlen] at h1 h2
    simp only [h1, h2, h3, Option.getD_none]

example : ("lib/a.go".toList ≠ []) ∧ ∀ c ∈ "lib/a.go".toList, isSpace c = false ∧ c ≠ ':' := by decide

/-- A text that has a colon, but not at its beginning, is read with the path in front of the first one. -/
theorem parse_cut {a b : List Char} (hne : a ≠ []) (ha : ':' ∉ a) (h : ∀ c ∈ a ++ ':' :: b, isSpace c = false) :
    (parseReference (utf8 (a ++ ':' :: b))).path = utf8 a := by
  have ht : trimSpace (utf8 (a ++ ':' :: b)) = utf8 (a ++ ':' :: b) :=
    trimSpace_utf8 (fun c hc => h c (List.mem_of_mem_head? hc)) (fun c hc => h c (List.mem_of_mem_getLast? hc))
  have hb : (0x3a : UInt8) ∉ utf8 a := ascii_not_mem (b := ':') (by decide) ha
  have hi : indexByte? 0x3a (utf8 (a ++ ':' :: b)) = some (utf8 a).length := by rw [utf8_colon]; exact indexByte?_first _ _ _ hb
  unfold parseReference
  simp only [ht, hi]
  cases hl : (utf8 a).length with
  | zero =>
    cases a with
    | nil => exact absurd rfl hne
    | cons x xs =>
      have := List.eq_nil_of_length_eq_zero hl
      simp [utf8, encodeRune_ne_nil] at this
  | succ n =>
    simp only []
    rw [← hl, utf8_colon, List.take_left]

/-- A text that begins with a colon or has none is read as a path. -/
theorem parse_whole {cs : List Char} (hc : ':' ∉ cs ∨ cs.head? = some ':') (h : ∀ c ∈ cs, isSpace c = false) :
    parseReference (utf8 cs) = ⟨utf8 cs, -1, 0⟩ := by
  have ht : trimSpace (utf8 cs) = utf8 cs :=
    trimSpace_utf8 (fun c hc => h c (List.mem_of_mem_head? hc)) (fun c hc => h c (List.mem_of_mem_getLast? hc))
  unfold parseReference
  simp only [ht]
  rcases hc with hc | hc
  · have : indexByte? 0x3a (utf8 cs) = none := (indexByte?_none _ _).2 (ascii_not_mem (b := ':') (by decide) hc)
    rw [this]
  · cases cs with
    | nil => cases hc
    | cons x xs =>
      cases hc
      have e : utf8 (':' :: xs) = [] ++ 0x3a :: utf8 xs := utf8_colon [] xs
      have : indexByte? 0x3a (utf8 (':' :: xs)) = some 0 := by rw [e]; exact indexByte?_first _ _ _ List.not_mem_nil
      simp only [this]

/-- What `String` prints for a path without white space is read back exactly if the reference has line -1 and column 0, as one read without a
line, and the path has no colon or begins with one. -/
theorem C103_string_read_iff (path : List Char) (hne : path ≠ []) (hp : ∀ c ∈ path, isSpace c = false) (line column : Int) :
    parseReference (Reference.string ⟨utf8 path, line, column⟩) = ⟨utf8 path, line, column⟩ ↔
      line = -1 ∧ column = 0 ∧ (':' ∉ path ∨ path.head? = some ':') := by
  by_cases hl : 0 < line
  · constructor
    · intro e
      exfalso
      by_cases hc : ':' ∈ path
      · obtain ⟨ls, hls, hls'⟩ := itoa_chars line
        obtain ⟨ks, hks, hks'⟩ := itoa_chars column
        have hs : Reference.string ⟨utf8 path, line, column⟩ = utf8 (path ++ ':' :: (ls ++ ':' :: ks)) := by
          unfold Reference.string
          rw [if_pos hl]
          simp only [← hls, ← hks, utf8, List.flatMap_append, List.flatMap_cons, List.append_assoc]
          rfl
        have hsp : ∀ c ∈ path ++ ':' :: (ls ++ ':' :: ks), isSpace c = false := by
          intro c hc
          simp only [List.mem_append, List.mem_cons] at hc
          rcases hc with hc | rfl | hc | rfl | hc
          · exact hp c hc
          · decide
          · exact hls' c hc
          · decide
          · exact hks' c hc
        rw [hs] at e
        obtain ⟨a, b, hab, hna⟩ := first_colon hc
        by_cases ha : a = []
        · rw [parse_whole (.inr (by rw [hab, ha]; rfl)) hsp] at e
          injection e with _ e2
          omega
        · have e1 := congrArg Reference.path e
          have hcs : path ++ ':' :: (ls ++ ':' :: ks) = a ++ ':' :: (b ++ ':' :: (ls ++ ':' :: ks)) := by rw [hab]; simp
          rw [hcs] at e1 hsp
          rw [parse_cut ha hna hsp] at e1
          have := congrArg List.length (utf8_injective e1)
          rw [hab] at this
          simp at this
      · rw [C103_string_read_negation path hne (fun c hm => ⟨hp c hm, fun h => hc (h ▸ hm)⟩) line column hl] at e
        injection e with _ e2
        omega
    · rintro ⟨h, _⟩
      omega
  · have hs : Reference.string ⟨utf8 path, line, column⟩ = utf8 path := by
      unfold Reference.string
      rw [if_neg hl]
    rw [hs]
    by_cases hc : ':' ∉ path ∨ path.head? = some ':'
    · rw [parse_whole hc hp]
      constructor
      · intro e
        injection e with _ e2 e3
        exact ⟨e2.symm, e3.symm, hc⟩
      · rintro ⟨rfl, rfl, _⟩
        rfl
    · refine ⟨fun e => ?_, fun h => absurd h.2.2 hc⟩
      exfalso
      rw [not_or, not_not] at hc
      obtain ⟨a, b, hab, hna⟩ := first_colon hc.1
      have ha : a ≠ [] := fun h => hc.2 (by rw [hab, h]; rfl)
      have e1 := congrArg Reference.path e
      rw [hab] at e1 hp
      rw [parse_cut ha hna hp] at e1
      have := congrArg List.length (utf8_injective e1)
      simp at this

/-- Both kinds of reference exist. -/
example : parseReference (Reference.string ⟨b!"a.go", -1, 0⟩) = ⟨b!"a.go", -1, 0⟩ ∧
    parseReference (Reference.string ⟨b!"a.go", 0, 0⟩) ≠ ⟨b!"a.go", 0, 0⟩ := by decide

/-- Two references have the same text exactly if they are equal, or neither has a line and the paths are the same, or one has no line
and its path is what is printed for the other. -/
theorem C103_string_iff (r o : Reference) : r.string = o.string ↔ r = o ∨ (r.line ≤ 0 ∧ o.line ≤ 0 ∧ r.path = o.path) ∨
    (r.line ≤ 0 ∧ 0 < o.line ∧ r.path = o.path ++ b!":" ++ itoa o.line ++ b!":" ++ itoa o.column) ∨
    (0 < r.line ∧ o.line ≤ 0 ∧ o.path = r.path ++ b!":" ++ itoa r.line ++ b!":" ++ itoa r.column) := by
  constructor
  · intro h
    by_cases hr : 0 < r.line <;> by_cases ho : 0 < o.line
    · exact .inl (C103_string_partial r o hr ho h)
    · unfold Reference.string at h
      rw [if_pos hr, if_neg ho] at h
      exact .inr (.inr (.inr ⟨hr, by omega, h.symm⟩))
    · unfold Reference.string at h
      rw [if_neg hr, if_pos ho] at h
      exact .inr (.inr (.inl ⟨by omega, ho, h⟩))
    · unfold Reference.string at h
      rw [if_neg hr, if_neg ho] at h
      exact .inr (.inl ⟨by omega, by omega, h⟩)
  · unfold Reference.string
    rintro (rfl | ⟨hr, ho, h⟩ | ⟨hr, ho, h⟩ | ⟨hr, ho, h⟩)
    · rfl
    · rw [if_neg (by omega), if_neg (by omega), h]
    · rw [if_neg (by omega), if_pos ho, h]
    · rw [if_pos hr, if_neg (by omega), h]

/-- Each of the four cases occurs. -/
example : (⟨b!"a", 0, 0⟩ : Reference).string = (⟨b!"a", -1, 5⟩ : Reference).string ∧
    (⟨b!"a:3:1", 0, 0⟩ : Reference).string = (⟨b!"a", 3, 1⟩ : Reference).string := by decide

end Verif.Props.References
