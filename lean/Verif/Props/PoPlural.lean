import Verif.Proofs.Go.Held
import Verif.Proofs.PoPlural.Rule
/-!
# C27-C32: gettext plural formulas

Vocabulary: `Formula text k e` (Spec) says that `text` is `nplurals=k; plural=e;` in the C grammar
restricted to the operators spreak knows, with any white space, letter case of the keywords and
redundant parentheses.  `parseRule` models `poplural.Parse`, `astParse` models `ast.Parse`.
-/
namespace Verif.Props.PoPlural
open Verif.Model.PoPlural Verif.Spec.PoPlural Verif.Proofs.PoPlural Verif.Go
open Verif.Spec.Held

/-! ## Concrete formulas used as witnesses -/

/-- Tokens of `nplurals=k; plural=...;` around the expression tokens. -/
def frame (k : Char) (l : List (List Char × T)) : List (List Char × T) :=
  [([], .word .nplurals "nplurals".toList), ([], .assign), ([], .num [k]), ([], .semi),
   ([' '], .word .plural "plural".toList), ([], .assign)] ++ l ++ [([], .semi)]

theorem frame_formula (k : Char) (l : List (List Char × T)) (e : Expr)
    (hc : checkB [] (frame k l) = true) (hd : Der 0 (l.map (·.2)) e) :
    Formula (render [] (frame k l)) (decVal [k]) e := by
  refine ⟨"nplurals".toList, [k], "plural".toList, l.map (·.2), ?_, rfl, hd⟩
  have := spells_render [] _ hc
  simpa [frame] using this

def vN : List Char × T := ([], .word .n ['n'])
def sp (o : BinOp) : List Char × T := ([' '], .bin o)
def spD (ds : List Char) : List Char × T := ([' '], .num ds)

/-- `nplurals=2; plural=n ? 1 : 0;` -/
def truthText : List Char :=
  render [] (frame '2' [vN, ([' '], .quest), spD ['1'], ([' '], .colon), spD ['0']])

def truthExpr : Expr := .cond .n (.num 1) (.num 0)

theorem truth_formula : Formula truthText 2 truthExpr := by
  refine frame_formula '2' _ _ (by decide +kernel) ?_
  exact .cond (der_le (by omega) (.n ['n'])) (der_le (by omega) (.num ['1'])) (der_le (by omega) (.num ['0']))

/-- `nplurals=2; plural=n % (10 == 1) && n % 100 != 11;` -/
def parenText : List Char :=
  render [] (frame '2' [vN, sp .rem, ([' '], .lp), ([], .num ['1', '0']), sp .eq, spD ['1'], ([], .rp),
    sp .and, ([' '], .word .n ['n']), sp .rem, spD ['1', '0', '0'], sp .ne, spD ['1', '1']])

def parenExpr : Expr :=
  .bin .and (.bin .rem .n (.bin .eq (.num 10) (.num 1))) (.bin .ne (.bin .rem .n (.num 100)) (.num 11))

theorem paren_formula : Formula parenText 2 parenExpr := by
  refine frame_formula '2' _ _ (by decide +kernel) ?_
  have a : Der 3 [T.num ['1', '0'], .bin .eq, .num ['1']] (.bin .eq (.num 10) (.num 1)) :=
    .eq (o := .eq) trivial (der_le (by omega) (.num ['1', '0'])) (der_le (by omega) (.num ['1']))
  have b : Der 5 ([T.word .n ['n']] ++ .bin .rem :: (.lp :: [T.num ['1', '0'], .bin .eq, .num ['1']] ++ [.rp])) _ :=
    .rem (.n _) (.paren (der_le (by omega) a))
  have c : Der 5 ([T.word .n ['n']] ++ .bin .rem :: [.num ['1', '0', '0']]) _ := .rem (.n _) (.num ['1', '0', '0'])
  have d : Der 3 (([T.word .n ['n']] ++ .bin .rem :: [.num ['1', '0', '0']]) ++ .bin .ne :: [.num ['1', '1']]) _ :=
    .eq (o := .ne) trivial (der_le (by omega) c) (der_le (by omega) (.num ['1', '1']))
  have := Der.and (der_le (by omega) b) d
  exact der_le (by omega) this

/-- `nplurals=3; plural=n%10==1 && n%100!=11 ? 0 : n != 0 ? 1 : 2;` (Latvian) -/
def lvText : List Char :=
  render [] (frame '3' [vN, ([], .bin .rem), ([], .num ['1', '0']), ([], .bin .eq), ([], .num ['1']),
    sp .and, ([' '], .word .n ['n']), ([], .bin .rem), ([], .num ['1', '0', '0']), ([], .bin .ne),
    ([], .num ['1', '1']), ([' '], .quest), spD ['0'], ([' '], .colon), ([' '], .word .n ['n']), sp .ne,
    spD ['0'], ([' '], .quest), spD ['1'], ([' '], .colon), spD ['2']])

def lvExpr : Expr :=
  .cond (.bin .and (.bin .eq (.bin .rem .n (.num 10)) (.num 1)) (.bin .ne (.bin .rem .n (.num 100)) (.num 11)))
    (.num 0) (.cond (.bin .ne .n (.num 0)) (.num 1) (.num 2))

theorem lv_formula : Formula lvText 3 lvExpr := by
  refine frame_formula '3' _ _ (by decide +kernel) ?_
  have r10 : Der 5 ([T.word .n ['n']] ++ .bin .rem :: [.num ['1', '0']]) _ := .rem (.n _) (.num ['1', '0'])
  have r100 : Der 5 ([T.word .n ['n']] ++ .bin .rem :: [.num ['1', '0', '0']]) _ := .rem (.n _) (.num ['1', '0', '0'])
  have a : Der 3 (([T.word .n ['n']] ++ .bin .rem :: [.num ['1', '0']]) ++ .bin .eq :: [.num ['1']]) _ :=
    .eq (o := .eq) trivial (der_le (by omega) r10) (der_le (by omega) (.num ['1']))
  have b : Der 3 (([T.word .n ['n']] ++ .bin .rem :: [.num ['1', '0', '0']]) ++ .bin .ne :: [.num ['1', '1']]) _ :=
    .eq (o := .ne) trivial (der_le (by omega) r100) (der_le (by omega) (.num ['1', '1']))
  have c : Der 3 ([T.word .n ['n']] ++ .bin .ne :: [.num ['0']]) _ :=
    .eq (o := .ne) trivial (der_le (by omega) (.n _)) (der_le (by omega) (.num ['0']))
  have e := Der.cond (der_le (by omega) c) (der_le (by omega) (.num ['1'])) (der_le (by omega) (.num ['2']))
  exact .cond (der_le (by omega) (Der.and (der_le (by omega) a) b)) (der_le (by omega) (.num ['0'])) e

/-! ## C27 -/

/-- The rule made from a plain formula computes the value of the formula under the reading that only
1 counts as true, whether or not a built-in function replaces the interpreted one. -/
theorem rule_val1 {text : List Char} {k : Nat} {e : Expr} (h : Formula text k e)
    (hk : k < 2 ^ 63) (hs : Small e) (hp : Plain 0 e) :
    ∃ r, parseRule text = .ok r ∧ r.nPlurals = k ∧ ∀ m, r.form m = val1 e m := by
  obtain ⟨n, h1, h2⟩ := astParse_complete h
  have hsat : sat k = k := by simp only [sat, if_pos hk]
  cases hbi : getBuiltInForRawRule (compileToString ⟨sat k, n⟩) with
  | some r =>
    obtain ⟨g1, g2⟩ := builtin_plain h hp h1 hbi
    refine ⟨r, ?_, g1.trans hsat, ?_⟩
    · simp [parseRule, h1, bind, Except.bind, hbi]
    · intro m
      rw [g2 m, ← h2.eval m]
      exact eval_val1 hs m
  | none =>
    refine ⟨⟨sat k, generateFormFunc ⟨sat k, n⟩⟩, ?_, hsat, ?_⟩
    · simp [parseRule, h1, bind, Except.bind, hbi]
    · intro m
      show evaluate n m = _
      rw [← h2.eval m]
      exact eval_val1 hs m

/-- C27 fails: in C the value of `n ? 1 : 0` for n = 2 is 1, spreak computes 0, because only the
value 1 counts as true. -/
theorem C27_negation :
    Formula truthText 2 truthExpr ∧ cval truthExpr 2 = some 1 ∧
      ∃ r, parseRule truthText = .ok r ∧ r.form 2 = 0 := by
  refine ⟨truth_formula, by decide, ?_⟩
  obtain ⟨r, h1, _, h2⟩ := rule_val1 truth_formula (by decide) (by simp [truthExpr, Small])
    (by simp [truthExpr, Plain])
  exact ⟨r, h1, (h2 2).trans (by decide)⟩

/-- C27 for formulas whose conditions are comparisons or logical combinations (`Boolean`), that do
not hide looser operators in the operands of `%`, relations and equalities (`Plain`), and whose
numerals fit an int64: the rule exists, has the declared number of plurals, and computes the C value
for every n for which C defines one.  Missing for the full property: conditions that are plain
numbers (false, `C27_negation`), and operands such as in `n % (10 == 1)` (false, `C28_negation`). -/
theorem C27_c_semantics_partial {text : List Char} {k : Nat} {e : Expr} (h : Formula text k e)
    (hk : k < 2 ^ 63) (hs : Small e) (hb : Boolean e) (hp : Plain 0 e) :
    ∃ r, parseRule text = .ok r ∧ r.nPlurals = k ∧
      ∀ m v, cval e m = some v → r.form m = v := by
  obtain ⟨r, h1, h2, h3⟩ := rule_val1 h hk hs hp
  exact ⟨r, h1, h2, fun m v hv => by rw [h3 m, ← eval_val1 hs m]; exact eval_cval hs hb hv⟩

/-- Every accepted text is a formula of the C grammar, so the theorem above speaks about everything
the parser accepts (texts with NUL or underscore aside, which the scanner treats specially). -/
theorem C27_accepted_is_formula {text : List Char} {r : Rule} (h0 : '\x00' ∉ text) (h1 : '_' ∉ text)
    (h : parseRule text = .ok r) : ∃ k e, Formula text k e := by
  simp only [parseRule, bind] at h
  obtain ⟨f, hf, _⟩ := bind_ok h
  exact astParse_sound ⟨h0, h1⟩ hf

/-- The hypotheses are met by the Latvian rule, and the text is really accepted. -/
example : Formula lvText 3 lvExpr ∧ Small lvExpr ∧ Boolean lvExpr ∧ Plain 0 lvExpr ∧
    cval lvExpr 21 = some 0 ∧ cval lvExpr 11 = some 1 ∧ cval lvExpr 0 = some 2 := by
  refine ⟨lv_formula, ?_, ?_, ?_, by decide, by decide, by decide⟩
  · simp [lvExpr, Small]
  · simp [lvExpr, Boolean, Logical]
  · simp [lvExpr, Plain]

example : '\x00' ∉ lvText ∧ '_' ∉ lvText ∧ ∃ r, parseRule lvText = .ok r :=
  ⟨by decide +kernel, by decide +kernel,
   (rule_val1 lv_formula (by decide) (by simp [lvExpr, Small]) (by simp [lvExpr, Plain])).imp
     fun _ h => h.1⟩

/-! ## C28 -/

/-- C28 fails: the normal form drops the parentheses of `n % (10 == 1) && n % 100 != 11`, so the
built-in function for `n % 10 == 1 && n % 100 != 11` replaces it; for n = 1 they differ. -/
theorem C28_negation :
    ∃ f r, astParse parenText = .ok f ∧ getBuiltInForRawRule (compileToString f) = some r ∧
      r.form 1 ≠ evaluate f.root 1 := by
  have h : (match astParse parenText with
      | .ok f => (match getBuiltInForRawRule (compileToString f) with
        | some r => r.form 1 != evaluate f.root 1
        | none => false)
      | .error _ => false) = true := by decide +kernel
  split at h
  · rename_i f hf
    split at h
    · rename_i r hr; exact ⟨f, r, hf, hr, by simpa using h⟩
    · cases h
  · cases h

/-- C28 for formulas without looser operators hidden in the operands of `%`, relations, equalities
and `&&` (an `||` there is kept by the normal form).  Missing: formulas such as the one of
`C28_negation`, for which it is false. -/
theorem C28_builtin_same_partial {text : List Char} {k : Nat} {e : Expr} (h : Formula text k e)
    (hp : Plain 0 e) {f : Forms} (hf : astParse text = .ok f) {r : Rule}
    (hr : getBuiltInForRawRule (compileToString f) = some r) :
    r.nPlurals = f.nPlurals ∧ ∀ m, r.form m = evaluate f.root m :=
  builtin_plain h hp hf hr

/-- Each key of the table, read as a formula, has the value its function computes. -/
theorem C28_table {key : List Char} {r : Rule} (h : getBuiltInForRawRule key = some r) :
    ∃ f, astParse key = .ok f ∧ f.nPlurals = r.nPlurals ∧ ∀ m, r.form m = evaluate f.root m := by
  unfold getBuiltInForRawRule at h
  obtain ⟨p, hfind, rfl⟩ := Option.map_eq_some_iff.mp h
  have hkey : p.1 = key := by simpa using List.find?_some hfind
  obtain ⟨f, a, b, c⟩ := table_ok p (List.mem_of_find?_eq_some hfind)
  exact ⟨f, by rw [← hkey]; exact a, b, c⟩

/-- `nplurals = 2 ; plural = ( n != 1 ) ;` is plain and is replaced by a built-in. -/
def enText : List Char :=
  render [' '] [([' '], .word .nplurals "nplurals".toList), ([' '], .assign), ([' '], .num ['2']),
    ([' '], .semi), (['\n'], .word .plural "Plural".toList), ([' '], .assign), (['\t'], .lp),
    ([' '], .word .n ['n']), ([], .bin .ne), ([], .num ['1']), ([' '], .rp), ([' '], .semi)]

theorem en_formula : Formula enText 2 (.bin .ne .n (.num 1)) := by
  refine ⟨"nplurals".toList, ['2'], "Plural".toList, [.lp, .word .n ['n'], .bin .ne, .num ['1'], .rp], ?_, by decide, ?_⟩
  · have := spells_render [' '] _ (by decide +kernel : checkB [' '] [([' '], T.word .nplurals "nplurals".toList), ([' '], .assign), ([' '], .num ['2']),
      ([' '], .semi), (['\n'], .word .plural "Plural".toList), ([' '], .assign), (['\t'], .lp),
      ([' '], .word .n ['n']), ([], .bin .ne), ([], .num ['1']), ([' '], .rp), ([' '], .semi)] = true)
    exact this
  · have a : Der 3 ([T.word .n ['n']] ++ .bin .ne :: [.num ['1']]) (.bin .ne .n (.num 1)) :=
      .eq (o := .ne) trivial (der_le (by omega) (.n _)) (der_le (by omega) (.num ['1']))
    exact der_le (by omega) (.paren (der_le (by omega) a))

example : Plain 0 (.bin .ne .n (.num 1)) ∧
    (match astParse enText with
     | .ok f => (getBuiltInForRawRule (compileToString f)).isSome
     | .error _ => false) = true := by
  refine ⟨by simp [Plain], by decide +kernel⟩

/-! ## C29 -/

theorem ite_range {c : Prop} [Decidable c] {a b k : Int} (ha : 0 ≤ a ∧ a < k) (hb : 0 ≤ b ∧ b < k) :
    0 ≤ (if c then a else b) ∧ (if c then a else b) < k := by
  split
  · exact ha
  · exact hb

/-- A rule yields, for every integer, a form in range. -/
def InRange (r : Rule) : Prop := ∀ n : Int, 0 ≤ r.form n ∧ r.form n < r.nPlurals

theorem rawTable_rules :
    rawTable.map (·.2) = [rule_bm, rule_af, rule_ak, rule_ceb, rule_is, rule_tzm, inline1, inline2,
      inline3, inline4, rule_be, rule_blo, rule_ca, rule_cs, rule_fr, rule_he, rule_lt, rule_lv,
      rule_pl, rule_ro, rule_shi, inline5, rule_dsb, rule_gd, rule_gv, inline6, rule_br, rule_ga,
      rule_mt, inline7, rule_ar, rule_cy, rule_kw] := rfl

theorem all_in_range : ∀ r ∈ rawTable.map (·.2) ++ langTable.map (·.2), InRange r := by
  simp only [rawTable_rules, langTable, List.map_cons, List.map_nil, List.cons_append, List.nil_append,
    List.forall_mem_cons]
  refine ⟨?_, ?_, ?_, ?_, ?_, ?_, ?_, ?_, ?_, ?_, ?_, ?_, ?_, ?_, ?_, ?_, ?_, ?_, ?_, ?_, ?_, ?_, ?_, ?_,
    ?_, ?_, ?_, ?_, ?_, ?_, ?_, ?_, ?_, ?_, ?_, ?_, ?_, ?_, ?_, ?_, ?_, ?_, ?_, ?_, ?_, ?_, ?_, ?_, ?_,
    ?_, ?_, ?_, ?_, ?_, ?_, ?_, ?_, ?_, ?_, by simp⟩
  all_goals
    intro n
    first
      | exact (by decide : (0 : Int) ≤ 0 ∧ (0 : Int) < 1)
      | (repeat (refine ite_range (by decide) ?_)
         decide)

/-- Every built-in rule of either table yields, for every integer, a form in range. -/
theorem C29_in_range {r : Rule}
    (h : (∃ key, getBuiltInForRawRule key = some r) ∨ (∃ lang, getBuiltInForLanguage lang = some r)) :
    ∀ n : Int, 0 ≤ r.form n ∧ r.form n < r.nPlurals := by
  have hmem : r ∈ rawTable.map (·.2) ++ langTable.map (·.2) := by
    rcases h with ⟨key, h⟩ | ⟨lang, h⟩
    · unfold getBuiltInForRawRule at h
      obtain ⟨p, hp, rfl⟩ := Option.map_eq_some_iff.mp h
      exact List.mem_append_left _ (List.mem_map_of_mem (List.mem_of_find?_eq_some hp))
    · unfold getBuiltInForLanguage at h
      obtain ⟨p, hp, rfl⟩ := Option.map_eq_some_iff.mp h
      exact List.mem_append_right _ (List.mem_map_of_mem (List.mem_of_find?_eq_some hp))
  exact fun n => all_in_range r hmem n

theorem lang_some : (getBuiltInForLanguage "en").isSome = true := by decide +kernel

/-- Choosing by language always yields a rule, and it is in range. -/
theorem C29_language_rule (tags : List (String × Option String)) :
    ∃ r found, pluralRuleForLanguage tags = (some r, found) ∧ InRange r := by
  induction tags with
  | nil =>
    obtain ⟨r, hr⟩ := Option.isSome_iff_exists.mp lang_some
    exact ⟨r, false, by simp [pluralRuleForLanguage, hr], C29_in_range (.inr ⟨_, hr⟩)⟩
  | cons t ts ih =>
    obtain ⟨tag, base⟩ := t
    simp only [pluralRuleForLanguage]
    cases h : getBuiltInForLanguage tag with
    | some r => exact ⟨r, true, rfl, C29_in_range (.inr ⟨_, h⟩)⟩
    | none =>
      cases h2 : base.bind getBuiltInForLanguage with
      | some r =>
        obtain ⟨b, _, hb⟩ := Option.bind_eq_some_iff.mp h2
        exact ⟨r, true, rfl, C29_in_range (.inr ⟨_, hb⟩)⟩
      | none => exact ih

example : (∃ r, getBuiltInForRawRule "nplurals=2; plural=n > 1;".toList = some r) ∧
    (∃ r, getBuiltInForLanguage "pt-BR" = some r) :=
  ⟨Option.isSome_iff_exists.mp (by decide +kernel), Option.isSome_iff_exists.mp (by decide +kernel)⟩

/-! ## C30 -/

/-- Every formula is accepted, with the number of plurals it states, and the tree computes the value
of the expression for every n (reading: only 1 counts as true, see C27). -/
theorem C30_accepted {text : List Char} {k : Nat} {e : Expr} (h : Formula text k e)
    (hk : k < 2 ^ 63) (hs : Small e) :
    ∃ f, astParse text = .ok f ∧ f.nPlurals = k ∧ ∀ m, evaluate f.root m = val1 e m := by
  obtain ⟨n, h1, h2⟩ := astParse_complete h
  refine ⟨_, h1, by simp only [sat, if_pos hk], fun m => ?_⟩
  rw [← h2.eval m]
  exact eval_val1 hs m

/-- Numerals above int64 are accepted as well; then they stand for the largest int64 (no hypothesis
on the size). -/
theorem C30_accepted_any {text : List Char} {k : Nat} {e : Expr} (h : Formula text k e) :
    ∃ f, astParse text = .ok f := by
  obtain ⟨n, h1, _⟩ := astParse_complete h
  exact ⟨_, h1⟩

/-- Two texts of the same formula (other white space, letter case, redundant parentheses) give the
same plural forms. -/
theorem C30_layout_irrelevant {t₁ t₂ : List Char} {k : Nat} {e : Expr} (h₁ : Formula t₁ k e)
    (h₂ : Formula t₂ k e) : ∃ f₁ f₂, astParse t₁ = .ok f₁ ∧ astParse t₂ = .ok f₂ ∧
      f₁.nPlurals = f₂.nPlurals ∧ ∀ m, evaluate f₁.root m = evaluate f₂.root m := by
  obtain ⟨n₁, a₁, b₁⟩ := astParse_complete h₁
  obtain ⟨n₂, a₂, b₂⟩ := astParse_complete h₂
  exact ⟨_, _, a₁, a₂, rfl, fun m => by rw [← b₁.eval m, ← b₂.eval m]⟩

/-- Every expression has a text. -/
theorem C30_every_expression (k : Nat) (e : Expr) : ∃ text, Formula text k e := formula_exists k e

example : Formula enText 2 (.bin .ne .n (.num 1)) ∧ Small (.bin .ne .n (.num 1)) :=
  ⟨en_formula, by simp [Small]⟩

/-! ## C31 -/

/-- Parsing terminates on every text: the fuel `8 * length + 8` of the model is never used up, the
result is a value or a syntax error. -/
theorem C31_total (text : List Char) :
    (∃ f, astParse text = .ok f) ∨ astParse text = .error .syntax := by
  cases h : astParse text with
  | ok f => exact .inl ⟨f, rfl⟩
  | error e =>
    cases e with
    | «syntax» => exact .inr rfl
    | fuel => exact absurd h (astParse_total text)

theorem C31_parse_total (text : List Char) :
    (∃ r, parseRule text = .ok r) ∨ parseRule text = .error .syntax := by
  rcases C31_total text with ⟨f, h⟩ | h
  · cases hb : getBuiltInForRawRule (compileToString f) with
    | some r => exact .inl ⟨r, by simp [parseRule, h, bind, Except.bind, hb]⟩
    | none => exact .inl ⟨_, by simp [parseRule, h, bind, Except.bind, hb]; rfl⟩
  · exact .inr (by simp [parseRule, h, bind, Except.bind])

/-! ## C32 -/

/-- A float, whatever its sign, is rounded to the nearest integer, ties to even, and the form is the
one of that integer. -/
theorem C32_float {parse : List Char → Option F64} {oor : F64 → Int} (r : Rule) {m e : Int} {k : Nat}
    (h : RoundsTo m e k) (hk : k < 2 ^ 63) :
    r.evaluate parse oor (.float (.fin m e)) = some (r.form k) := by
  simp only [Rule.evaluate, toNumber, indirect, abs_round_int h hk]

/-- The sign of a float makes no difference. -/
theorem C32_float_sign {parse : List Char → Option F64} {oor : F64 → Int} (r : Rule) (m e : Int) :
    r.evaluate parse oor (.float (.fin (-m) e)) = r.evaluate parse oor (.float (.fin m e)) := by
  simp [Rule.evaluate, toNumber, indirect, F64.abs]

theorem rounds_nat (k : Nat) (m : Int) (h : m.natAbs = k) : RoundsTo m 0 k := by simp [RoundsTo, h]

/-- Integers, behind any number of pointers, select the form of their absolute value.
Missing: integers above 2^53, for which it is false (`C32_negation`). -/
theorem C32_int_partial {parse : List Char → Option F64} {oor : F64 → Int} (r : Rule) (x : Int)
    (hx : x.natAbs ≤ 2 ^ 53) (v : Val) (hv : indirect v = .int x) :
    r.evaluate parse oor v = some (r.form x.natAbs) := by
  have hr : RoundsTo (x.sign * (round53 x.natAbs : Nat)) 0 x.natAbs := by
    rw [round53_small _ hx]
    have : (x.sign * (x.natAbs : Int)).natAbs = x.natAbs := by
      rw [Int.sign_mul_natAbs]
    exact rounds_nat _ _ this
  simp only [Rule.evaluate, toNumber, hv, F64.ofInt]
  rw [abs_round_int hr (by omega)]

theorem C32_uint_partial {parse : List Char → Option F64} {oor : F64 → Int} (r : Rule) (x : Nat)
    (hx : x ≤ 2 ^ 53) (v : Val) (hv : indirect v = .uint x) :
    r.evaluate parse oor v = some (r.form x) := by
  have := C32_int_partial (parse := parse) (oor := oor) r x (by simpa using hx) (.int x) rfl
  simpa [Rule.evaluate, toNumber, hv, indirect] using this

/-- Every integer, however large: the form is the one of an integer that a float64 holds and that is not farther from its
absolute value than any other one. -/
theorem C32_int_nearest {parse : List Char → Option F64} {oor : F64 → Int} (r : Rule) (x : Int) (v : Val)
    (hv : indirect v = .int x ∨ 0 ≤ x ∧ indirect v = .uint x.toNat) :
    ∃ k, Nearest x.natAbs k ∧ (k < 2 ^ 63 → r.evaluate parse oor v = some (r.form k)) := by
  obtain ⟨k, ⟨h1, _, _⟩, h2⟩ := Verif.Proofs.Go.ofInt_nearest x
  refine ⟨k.natAbs, h1, fun hk => ?_⟩
  have hn : toNumber parse v = some (.fin k 0) := by
    rcases hv with hv | ⟨h0, hv⟩
    · simp only [toNumber, hv, h2]
    · simp only [toNumber, hv, Int.toNat_of_nonneg h0, h2]
  simp only [Rule.evaluate, hn]
  rw [abs_round_int (rounds_nat _ _ rfl) hk]

/-- An integer that a float64 holds selects its own form, also above 2^53. -/
theorem C32_int_held {parse : List Char → Option F64} {oor : F64 → Int} (r : Rule) (x : Int) (hx : Held x.natAbs)
    (hb : x.natAbs < 2 ^ 63) (v : Val) (hv : indirect v = .int x ∨ 0 ≤ x ∧ indirect v = .uint x.toNat) :
    r.evaluate parse oor v = some (r.form x.natAbs) := by
  obtain ⟨k, h1, h2⟩ := C32_int_nearest (parse := parse) (oor := oor) r x v hv
  rw [Verif.Proofs.Go.nearest_held h1 hx] at h2
  exact h2 hb

/-- -(2^62 + 2^20) is held, 2^53 + 1 is not. -/
example : Held (-(2 ^ 62 + 2 ^ 20) : Int).natAbs ∧ (-(2 ^ 62 + 2 ^ 20) : Int).natAbs < 2 ^ 63 ∧ ¬ Held (2 ^ 53 + 1) := by
  refine ⟨⟨2 ^ 42 + 1, 20, by decide, by decide⟩, by decide, fun h => ?_⟩
  exact absurd ((Verif.Proofs.Go.round53_eq_iff _).mpr h) (by decide +kernel)

/-- Values without a number are an error: nil, and texts that are not numbers. -/
theorem C32_no_number {parse : List Char → Option F64} {oor : F64 → Int} (r : Rule) (v : Val)
    (h : indirect v = .nil ∨ (∃ s, indirect v = .str s ∧ parse s = none) ∨
      (∃ a b, indirect v = .other a b ∧ parse a = none ∧ parse b = none)) :
    r.evaluate parse oor v = none := by
  rcases h with h | ⟨s, h, h'⟩ | ⟨a, b, h, h1, h2⟩
  · simp [Rule.evaluate, toNumber, h]
  · simp [Rule.evaluate, toNumber, h, h']
  · simp [Rule.evaluate, toNumber, h, h1, h2]

/-- And an error arises only then. -/
theorem C32_error_only {parse : List Char → Option F64} {oor : F64 → Int} (r : Rule) (v : Val)
    (h : r.evaluate parse oor v = none) :
    indirect v = .nil ∨ (∃ s, indirect v = .str s ∧ parse s = none) ∨
      (∃ a b, indirect v = .other a b ∧ parse a = none ∧ parse b = none) ∨
      (indirect v = .nilPtr ∧ parse ['0'] = none) := by
  have hind : ∀ v w, indirect v ≠ .ptr w := by
    intro v w
    induction v with
    | ptr v ih => exact ih
    | _ => simp [indirect]
  cases hv : indirect v with
  | nil => exact .inl rfl
  | ptr w => exact absurd hv (hind v w)
  | str s =>
    refine .inr (.inl ⟨s, rfl, ?_⟩)
    cases hp : parse s with
    | none => rfl
    | some x => simp [Rule.evaluate, toNumber, hv, hp] at h
  | nilPtr =>
    refine .inr (.inr (.inr ⟨rfl, ?_⟩))
    cases hp : parse ['0'] with
    | none => rfl
    | some x => simp [Rule.evaluate, toNumber, hv, hp] at h
  | other a b =>
    refine .inr (.inr (.inl ⟨a, b, rfl, ?_⟩))
    cases hp : parse a with
    | some x => simp [Rule.evaluate, toNumber, hv, hp] at h
    | none =>
      cases hq : parse b with
      | none => exact ⟨rfl, rfl⟩
      | some x => simp [Rule.evaluate, toNumber, hv, hp, hq] at h
  | _ => simp [Rule.evaluate, toNumber, hv] at h

/-- C32 fails for large integers: 9007199254741001 becomes 9007199254741000 as a float64, which has
another form in the Belarusian/Russian rule.  And it fails for a typed nil pointer, which is treated
like 0 instead of being an error. -/
theorem C32_negation (oor : F64 → Int) (parse : List Char → Option F64)
    (hp : parse ['0'] = some (.fin 0 0)) :
    (rule_be.evaluate parse oor (.int 9007199254741001) ≠ some (rule_be.form 9007199254741001)) ∧
    (∀ r : Rule, r.evaluate parse oor .nilPtr = some (r.form 0)) := by
  refine ⟨?_, fun r => ?_⟩
  · have h : RoundsTo ((9007199254741001 : Int).sign * (round53 9007199254741001 : Nat)) 0 9007199254741000 := by
      show (if (0 : Int) ≤ 0 then _ else _)
      rw [if_pos (Int.le_refl 0)]
      decide +kernel
    have h' := abs_round_int (oor := oor) h (by decide)
    simp only [Rule.evaluate, toNumber, indirect, F64.ofInt]
    rw [show (9007199254741001 : Int).natAbs = 9007199254741001 from rfl, h']
    decide +kernel
  · simp only [Rule.evaluate, toNumber, indirect, hp]
    rw [abs_round_int (k := 0) (by simp [RoundsTo]) (by decide)]
    rfl

/-- 2.5 is `5 * 2^-1` and rounds to 2; -3.5 rounds to 4. -/
example : RoundsTo 5 (-1) 2 ∧ RoundsTo (-7) (-1) 4 ∧ ¬ RoundsTo 5 (-1) 3 := by
  simp [RoundsTo]

example : indirect (.ptr (.ptr (.int (-5)))) = .int (-5) ∧ (-5 : Int).natAbs ≤ 2 ^ 53 := by decide

example : indirect (.ptr .nil) = .nil := rfl

end Verif.Props.PoPlural
