import Verif.Proofs.PoPlural.Accepted
import Verif.Props.PoPlural
import Verif.Model.Must
import Verif.Go.Chars
/-!
# C123: which texts are accepted as Plural-Forms

`Formula` (`Spec/PoPlural.lean`) says which texts are Plural-Forms values, `Accepted` (`Spec/PoPluralText.lean`) which texts are
read as such.
-/
namespace Verif.Props.PoPluralText
open Verif.Go Verif.Model.PoPlural Verif.Spec.PoPlural Verif.Proofs.PoPlural Verif.Proofs.PoPlural.Text Verif.Props.PoPlural

theorem rule_iff (text : List Char) : (∃ r, parseRule text = .ok r) ↔ ∃ f, astParse text = .ok f := by
  constructor
  · rintro ⟨r, h⟩
    simp only [parseRule, bind] at h
    obtain ⟨f, hf, _⟩ := bind_ok h
    exact ⟨f, hf⟩
  · rintro ⟨f, h⟩
    cases hb : getBuiltInForRawRule (compileToString f) with
    | some r => exact ⟨r, by simp [parseRule, h, bind, Except.bind, hb]⟩
    | none => exact ⟨_, by simp [parseRule, h, bind, Except.bind, hb]; rfl⟩

theorem rule_congr {a b : List Char} (h : astParse a = astParse b) : parseRule a = parseRule b := by
  simp only [parseRule, h]

/-- Exactly these texts are accepted, for every text. -/
theorem C123_accepted_iff (text : List Char) : (∃ r, parseRule text = .ok r) ↔ ∃ k e, Accepted text k e := by
  rw [rule_iff]
  constructor
  · rintro ⟨f, h⟩; exact accepted_of_parse h
  · rintro ⟨k, e, h⟩
    obtain ⟨_, n, _, h1, _⟩ := parse_of_accepted h
    exact ⟨_, h1⟩

/-- What is accepted is read like a formula of the language, so that all that is proved about formulas (C27, C28, C30) holds of
every accepted text. -/
theorem C123_same {text : List Char} {k : Nat} {e : Expr} (h : Accepted text k e) :
    ∃ clean, Formula clean k e ∧ parseRule text = parseRule clean ∧ astParse text = astParse clean := by
  obtain ⟨clean, n, h1, h2, h3⟩ := parse_of_accepted h
  exact ⟨clean, h1, rule_congr (h2.trans h3.symm), h2.trans h3.symm⟩

/-- Without NUL and underscores the texts are the formulas, with the same expressions. -/
theorem C123_plain_iff {text : List Char} (h0 : '\x00' ∉ text) (h1 : '_' ∉ text) (k : Nat) (e : Expr) :
    Accepted text k e ↔ Formula text k e := by
  have hplain : ∀ ds, '_' ∉ ds → readNum ds = ds := fun ds h => by unfold readNum; rw [if_neg h]
  have hread : ∀ (ts : List T) (s : List Char), Spells ts s → '_' ∉ s → ts.map T.read = ts := by
    intro ts s hs
    induction hs with
    | nil => intro _; rfl
    | cons w t ts s _ _ _ _ ih =>
      intro h
      rw [List.map_cons, ih (fun hm => h (by simp [hm]))]
      cases t with
      | num ds => rw [T.read, hplain ds (fun hm => h (by simp [T.text, hm]))]
      | _ => rfl
  constructor
  · rintro ⟨w₁, ds, w₂, ts, hr, hk, hd⟩
    have hs := spells_of_reads hr h0 h1
    have hm := hread _ _ hs h1
    simp only [List.map_cons, List.map_append, T.read, List.cons.injEq, true_and, T.num.injEq] at hm
    rw [hm.1] at hk
    rw [List.append_cancel_right hm.2] at hd
    exact ⟨w₁, ds, w₂, ts, hs, hk, hd⟩
  · rintro ⟨w₁, ds, w₂, ts, hs, hk, hd⟩
    have hm := hread _ _ hs h1
    simp only [List.map_cons, List.map_append, T.read, List.cons.injEq, true_and, T.num.injEq] at hm
    refine ⟨w₁, ds, w₂, ts, spells_reads hs, ?_, ?_⟩
    · rw [hm.1]; exact hk
    · rw [List.append_cancel_right hm.2]; exact hd

/-- C123 for texts without NUL and underscores: accepted are exactly the formulas.  Missing: texts with NUL or underscores, for
which it is false (`C123_negation`); `C123_accepted_iff` says which of them are accepted. -/
theorem C123_formulas_partial {text : List Char} (h0 : '\x00' ∉ text) (h1 : '_' ∉ text) :
    (∃ r, parseRule text = .ok r) ↔ ∃ k e, Formula text k e := by
  rw [C123_accepted_iff]
  exact ⟨fun ⟨k, e, h⟩ => ⟨k, e, (C123_plain_iff h0 h1 k e).mp h⟩, fun ⟨k, e, h⟩ => ⟨k, e, (C123_plain_iff h0 h1 k e).mpr h⟩⟩

example : '\x00' ∉ lvText ∧ '_' ∉ lvText ∧ Formula lvText 3 lvExpr := ⟨by decide +kernel, by decide +kernel, lv_formula⟩

/-- The two `MustParse` panic for exactly the other texts, and otherwise return what `Parse` returns. -/
theorem C123_must (text : List Char) :
    ((∃ r, mustParse text = .ok r ∧ parseRule text = .ok r) ↔ ∃ k e, Accepted text k e) ∧
    ((∃ f, astMustParse text = .ok f ∧ astParse text = .ok f) ↔ ∃ k e, Accepted text k e) ∧
    ((¬ ∃ k e, Accepted text k e) ↔ mustParse text = .error .explicitPanic) ∧
    ((¬ ∃ k e, Accepted text k e) ↔ astMustParse text = .error .explicitPanic) := by
  have h1 := C123_accepted_iff text
  have h2 := rule_iff text
  have hm : mustParse text = match parseRule text with | .ok r => .ok r | .error _ => .error .explicitPanic := rfl
  have ha : astMustParse text = match astParse text with | .ok r => .ok r | .error _ => .error .explicitPanic := rfl
  rw [← h1]
  cases hp : parseRule text with
  | ok r =>
    rw [hp] at hm h2
    obtain ⟨f, hf⟩ := h2.mp ⟨r, rfl⟩
    rw [hf] at ha
    simp [hm, ha, hf]
  | error x =>
    rw [hp] at hm h2
    cases hf : astParse text with
    | ok f => obtain ⟨r, hr⟩ := h2.mpr ⟨f, hf⟩; cases hr
    | error y => rw [hf] at ha; simp [hm, ha]

/-! ## NUL and underscores -/

theorem reads_junk {ts : List T} {s : List Char} (h : Spells ts s) (hne : ts ≠ []) (hl : s.getLast? = some ';') (junk : List Char) :
    Reads ts (s ++ NUL :: junk) := by
  induction h with
  | nil => exact absurd rfl hne
  | cons w t ts s hw ht hm hs ih =>
    have hwr : t.Written := by
      cases t with
      | num ds =>
        obtain ⟨hne, hd⟩ := ht
        cases ds with
        | nil => exact absurd rfl hne
        | cons c r => exact ⟨c, r, rfl, hd c (by simp), fun d h => .inl (hd d (by simp [h]))⟩
      | word k w => exact ht
      | _ => trivial
    have e : w ++ t.text ++ s ++ NUL :: junk = w ++ (t.text ++ ([] ++ (s ++ NUL :: junk))) := by simp
    rw [e]
    cases ts with
    | nil =>
      -- the last token: nothing but blanks behind it, so nothing
      have hs' : s = [] := by
        cases hs with
        | nil _ hb =>
          rcases List.eq_nil_or_concat s with h | ⟨l, c, h⟩
          · exact h
          · subst h
            have : c = ';' := by
              rw [List.concat_eq_append, ← List.append_assoc, List.getLast?_append] at hl
              simpa using hl
            have hb := hb c (by simp)
            rw [this] at hb
            rcases hb with h | h | h <;> exact absurd h (by decide)
      subst hs'
      have hsemi : ¬ t.Long ∧ ∀ r, NoMerge t (NUL :: r) := by
        have hl' : t.text.getLast? = some ';' := by
          rw [List.append_nil, List.getLast?_append] at hl
          obtain ⟨c, r, ec, _⟩ := text_head t ht
          rw [ec] at hl ⊢
          have hne : (c :: r).getLast? = some ((c :: r).getLast (by simp)) := List.getLast?_eq_some_getLast (by simp)
          rw [hne] at hl ⊢
          simpa using hl
        cases t with
        | word k w =>
          have := word_letters k w ht ';' (List.mem_of_getLast? hl')
          exact absurd this (by decide)
        | num ds => exact absurd (ht.2 ';' (List.mem_of_getLast? hl')) (by decide)
        | bin o => cases o <;> exact ⟨id, fun r => by simp [NoMerge, NUL]⟩
        | assign => exact ⟨id, fun r => by simp [NoMerge, NUL]⟩
        | _ => exact ⟨id, fun r => trivial⟩
      exact .cons w t [] [] _ (.inl hw) hwr (.inl ⟨rfl, hsemi.2 junk, fun h => (hsemi.1 h).elim⟩) (.stop _ (.inr (.inl ⟨junk, rfl⟩)))
    | cons t2 ts =>
      have hsn : s ≠ [] := by
        intro h0
        subst h0
        generalize he : ([] : List Char) = s0 at hs
        cases hs with
        | cons w2 t2 ts2 s2 _ ht2 _ _ =>
          obtain ⟨c, r, ec, _⟩ := text_head t2 ht2
          rw [ec] at he
          simp at he
      obtain ⟨c, r, rfl⟩ : ∃ c r, s = c :: r := by
        cases s with
        | nil => exact absurd rfl hsn
        | cons c r => exact ⟨c, r, rfl⟩
      have hl2 : (c :: r).getLast? = some ';' := by
        rw [List.getLast?_append] at hl
        have hne : (c :: r).getLast? = some ((c :: r).getLast (by simp)) := List.getLast?_eq_some_getLast (by simp)
        rw [hne] at hl ⊢
        simpa using hl
      have hm' : NoMerge t (c :: r ++ NUL :: junk) := by
        cases t with
        | word k w => exact fun x hx => hm x (by simpa using hx)
        | num ds => exact fun x hx => hm x (by simpa using hx)
        | bin o => cases o <;> trivial
        | assign => exact fun hx => hm (by simpa using hx)
        | _ => trivial
      refine .cons w t [] (t2 :: ts) _ (.inl hw) hwr (.inl ⟨rfl, hm', fun _ hx => ?_⟩) (ih (by simp) hl2)
      exact spells_head _ _ hs (by simpa [NUL] using hx)

/-- Behind the last semicolon and a NUL anything may stand: it is not read. -/
theorem C123_junk {text : List Char} {k : Nat} {e : Expr} (h : Formula text k e) (hl : text.getLast? = some ';')
    (junk : List Char) : parseRule (text ++ '\x00' :: junk) = parseRule text ∧ ∃ r, parseRule text = .ok r := by
  obtain ⟨w₁, ds, w₂, ts, hs, hk, hd⟩ := h
  obtain ⟨n, hn, _⟩ := der_to_derP hd (fun t ht => spells_wf hs t (by simp [ht]))
  have e1 := complete (spells_reads hs) hn
  have e2 := complete (reads_junk hs (by simp) hl junk) hn
  exact ⟨rule_congr (e2.trans e1.symm), (rule_iff text).mpr ⟨_, e1⟩⟩

example : Formula lvText 3 lvExpr ∧ lvText.getLast? = some ';' :=
  ⟨lv_formula, by decide +kernel⟩

/-- A numeral with an underscore counts as 0 (as long as what stands in front of it fits in 64 bits). -/
theorem C123_underscore {ds : List Char} (h : Numeral ds) (hu : '_' ∈ ds) :
    parseDigits 0 ds = if 2 ^ 64 ≤ decVal (ds.takeWhile Char.isDigit) then 2 ^ 63 - 1 else 0 := by
  obtain ⟨r, hr⟩ := cut_at ds hu (numeral_all h)
  have := digits_cut (ds.takeWhile Char.isDigit) r (takeWhile_digits ds) 0 (by decide)
  rw [← hr] at this
  exact this

example : Numeral c!"1_0" ∧ '_' ∈ c!"1_0" ∧ parseDigits 0 c!"1_0" = 0 :=
  ⟨⟨'1', ['_', '0'], rfl, by decide, by decide⟩, by decide, by decide⟩

/-- C123 fails: this text is no formula, because a numeral has an underscore and because of what stands behind the semicolon; it is
accepted, and the rule has no plural forms. -/
theorem C123_negation : ∃ (text : List Char) (r : Rule), (∀ k e, ¬ Formula text k e) ∧ parseRule text = .ok r ∧ r.nPlurals = 0 := by
  have hp : ∃ r, parseRule c!"nplurals=1_0;plural=n;\x00plural" = .ok r ∧ r.nPlurals = 0 := by
    have : astParse c!"nplurals=1_0;plural=n;\x00plural" = .ok ⟨0, .operand⟩ := by decide +kernel
    refine ⟨⟨0, fun n => evaluate .operand n⟩, ?_, rfl⟩
    have hb : (getBuiltInForRawRule (compileToString ⟨0, .operand⟩)).isNone = true := by decide +kernel
    have hb' : getBuiltInForRawRule (compileToString ⟨0, .operand⟩) = none := Option.isNone_iff_eq_none.mp hb
    simp only [parseRule, this, bind, Except.bind, hb']
    rfl
  obtain ⟨r, h1, h2⟩ := hp
  refine ⟨_, r, ?_, h1, h2⟩
  rintro k e ⟨w₁, ds, w₂, ts, hs, _, _⟩
  have key : ∀ (ts : List T) (s : List Char), Spells ts s → '\x00' ∉ s := by
    intro ts s hs
    induction hs with
    | nil w hw => intro h; exact blank_ne_nul _ (hw _ h) rfl
    | cons w t ts s hw ht _ _ ih =>
      intro h
      rcases List.mem_append.mp h with h | h
      · rcases List.mem_append.mp h with h | h
        · exact blank_ne_nul _ (hw _ h) rfl
        · cases t with
          | word k w => exact (alpha_facts _ (word_letters k w ht _ h)).1 rfl
          | num ds => exact (digit_facts _ (ht.2 _ h)).1 rfl
          | bin o => cases o <;> exact absurd h (by decide)
          | _ => exact absurd h (by decide)
      · exact ih h
  exact key _ _ hs (by decide)

end Verif.Props.PoPluralText
