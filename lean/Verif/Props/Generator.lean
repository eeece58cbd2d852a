import Verif.Proofs.Cldr.GoForms
import Verif.Proofs.PoPlural.GoText
import Verif.Props.PoPlural
import Verif.Props.Cldr
/-!
# C88–C91: the generators of the plural functions, and the generated files

`Condition Γ text b` and `Function Γ text i` (Verif/Spec/GoCode.lean) say what a Go text means: it has
exactly one reading, it compiles, and it has the value.  `goEnv` is what is in scope in the generated
functions.
-/
namespace Verif.Props.Generator
open Verif.Go Verif.Cldr
open Verif.Spec.GoCode (Condition Function Chosen Reads ReadsBody lex)
open Verif.Proofs.GoText Verif.Proofs.GoCode

/-! ## C88 -/

section cldr
open Verif.Spec.Cldr Verif.Proofs.Cldr Verif.Proofs.Cldr.Generator
open Verif.Model.Cldr (Operands RuleSet newOperandsString getBuiltInForLanguage langTable goConds rs_si)
open Verif.Model.Cldr.Generator (convertToGo goEnv)
open Verif.Props.Cldr (noRest noOor)

/-- A relation of an operand other than `n` has at most one range. -/
def FewRanges (c : Cond) : Prop :=
  ∀ conj ∈ c, ∀ r ∈ conj, r.opd ≠ .n → (r.items.filter (fun it => it.2.isSome)).length ≤ 1

theorem ranges_length : ∀ its : List (Nat × Option Nat),
    (ranges its).length = (its.filter (fun it => it.2.isSome)).length
  | [] => rfl
  | (_, none) :: its => by simpa [ranges] using ranges_length its
  | (_, some _) :: its => by simpa [ranges] using ranges_length its

/-- The condition that the generator writes for a rule of the UTS 35 grammar compiles, and it means
what the rule means in UTS 35, for every decimal that a float64 holds exactly enough. -/
theorem C88_generated_condition_partial {c : Cond} (hc : c.WF (2 ^ 53)) (hr : FewRanges c) {d : Decimal} (h : d.WF)
    (hs : Small d) (budget : Nat) (rest : List Char → Option F64) (oor : F64 → Int) :
    ∃ s ops b, convertToGo budget c.text = some s ∧ newOperandsString rest oor d.text = some ops ∧
      Condition (goEnv ops) s b ∧ (b = true ↔ c.Holds (d.ops 0)) := by
  obtain ⟨ops, nv, ho, hm⟩ := match_decimal h hs rest oor 0
  obtain ⟨s, hcs, hM, _⟩ := cond_means hm hc.1 fun conj hconj => ⟨(hc.2 conj hconj).1, fun x hx =>
    ⟨(hc.2 conj hconj).2 x hx, fun hn => by rw [ranges_length]; exact hr conj hconj x hx hn⟩⟩
  obtain ⟨b, hb, hbi⟩ := hM.condition
  refine ⟨s, ops, b, ?_, ?_, hb, hbi⟩
  · unfold convertToGo
    rw [parse_cond_plain (b := 2 ^ 53) (by decide) hc budget]
    exact hcs
  · rw [newOperandsString_plain h]; exact ho

/-- `n % 10 = 2..4,7..9,5 and f % 100 != 12..14,16 or i = 1,2,3 or v != 0` -/
def genCond : Cond := [[⟨.n, some 10, false, [(2, some 4), (7, some 9), (5, none)]⟩,
  ⟨.f, some 100, true, [(12, some 14), (16, none)]⟩], [⟨.i, none, false, [(1, none), (2, none), (3, none)]⟩],
  [⟨.v, none, true, [(0, none)]⟩]]

example : genCond.WF (2 ^ 53) ∧ FewRanges genCond ∧ convertToGo 9 genCond.text = some
    ("( isFloatInRange(math.Mod(ops.N, 10), 2,4,7,9) || math.Mod(ops.N, 10) == 5 )".toList ++
     " && !( (ops.F % 100 >= 12 && ops.F % 100 <= 14) || ops.F % 100 == 16 )".toList ++
     " || ( (ops.I == 1 || ops.I == 2 || ops.I == 3) ) || ops.V != 0".toList) :=
  ⟨condOk_wf (by decide +kernel), by unfold FewRanges genCond; decide, by decide +kernel⟩

example : Small ⟨"12345".toList, ['5', '0']⟩ ∧ (⟨"12345".toList, ['5', '0']⟩ : Decimal).WF :=
  ⟨.inr (by decide +kernel), by simp [Decimal.WF]⟩

/-- `i = 2..4,7..9` -/
def twoRanges : Cond := [[⟨.i, none, false, [(2, some 4), (7, some 9)]⟩]]

/-- In general the condition does not compile: two ranges of an integer operand become a call of
`isIntInRange`, a function that does not exist. -/
theorem C88_negation : ∃ (c : Cond) (s : List Char), c.WF (2 ^ 53) ∧
    (∀ budget, convertToGo budget c.text = some s) ∧ ∀ ops b, ¬ Condition (goEnv ops) s b := by
  refine ⟨twoRanges, c!"isIntInRange(ops.I, 2,4,7,9)", condOk_wf (by decide +kernel), fun budget => ?_, ?_⟩
  · unfold convertToGo
    rw [parse_cond_plain (b := 2 ^ 53) (by decide) (c := twoRanges) (condOk_wf (by decide +kernel)) budget]
    show Model.Cldr.Generator.compileNode _ = _
    decide +kernel
  · rintro ops b ⟨e, hr, ht, -⟩
    have h1 : parseExpr (lex c!"isIntInRange(ops.I, 2,4,7,9)") = some (.call (.name c!"isIntInRange")
        (.bin .comma (.bin .comma (.bin .comma (.bin .comma (.sel c!"ops" c!"I") (.int 2)) (.int 4)) (.int 7)) (.int 9)),
        []) := by decide +kernel
    cases gram_unique hr (parseExpr_iff.mp h1)
    have h2 : (goEnv ops).fnOf (.name c!"isIntInRange") = none := by
      rw [goEnv_fnOf1]; decide +kernel
    simp only [Spec.GoCode.typeOf, Spec.GoCode.tys, h2, Spec.GoCode.one] at ht
    cases ht

/-! ## C90 -/

/-- The conditions in the generated file, read as Go, choose for every decimal that a float64 holds
exactly enough the category of the published rules of the languages, which is also what the built-in
function of the model returns. -/
theorem C90_generated_file_conditions_partial {langs : List String} {p : Published} {g : List (Category × List Char)}
    (hg : ((langs, p), g) ∈ publishedFor.zip goConds) {lang : String} (hl : lang ∈ langs) {d : Decimal} (h : d.WF)
    (hs : Small d) (rest : List Char → Option F64) (oor : F64 → Int) :
    ∃ ops rs c, newOperandsString rest oor d.text = some ops ∧ getBuiltInForLanguage lang = some rs ∧
      Chosen (goEnv ops) .other g c ∧ Selects (d.ops 0) p.rules c ∧ rs.form ops = c := by
  have hpub : (langs, p) ∈ publishedFor := (List.of_mem_zip hg).1
  have hz : (p, g) ∈ published.zip goConds := by
    rw [← publishedFor_eq, List.zip_map_left]
    exact List.mem_map.mpr ⟨_, hg, rfl⟩
  have hp : p ∈ published := (List.of_mem_zip hz).1
  obtain ⟨x, _, _, hf, hgood⟩ := paired.find langTable_nodup _ hpub lang hl
  obtain ⟨ops, nv, ho, hm⟩ := match_decimal h hs rest oor 0
  obtain ⟨c, hc, hsel⟩ := GoText.same_chosen hm (published_wf p hp) (GoText.conds_same.2 _ hz)
  refine ⟨ops, x.2, c, ?_, ?_, hc, hsel, ?_⟩
  · rw [newOperandsString_plain h]; exact ho
  · unfold getBuiltInForLanguage; rw [hf]; rfl
  · exact GoText.selects_unique (hgood.sel ops _ nv hm) hsel

/-- Every language with published rules is covered. -/
theorem C90_all_languages {lp : List String × Published} (h : lp ∈ publishedFor) : ∃ g, (lp, g) ∈ publishedFor.zip goConds := by
  obtain ⟨i, hi, rfl⟩ := List.mem_iff_getElem.mp h
  have hlen : i < goConds.length := by
    rw [GoText.conds_same.1, ← publishedFor_eq, List.length_map]; exact hi
  refine ⟨goConds[i], List.mem_iff_getElem.mpr ⟨i, by rw [List.length_zip]; omega, ?_⟩⟩
  rw [List.getElem_zip]

example : ((["fr"], pub_fr), [(.one, c!"ops.I == 0 || ops.I == 1"),
    (.many, c!"ops.C == 0 && ops.I != 0 && ops.I%1000000 == 0 && ops.V == 0 || !(ops.C >= 0 && ops.C <= 5)")]) ∈
    publishedFor.zip goConds := List.mem_of_getElem? (i := 16) rfl

/-- The model of every built-in function is the text of the file: for all operands, the conditions of
the file choose what the model returns. -/
theorem C90_model_is_the_file {langs : List String} {rs : RuleSet} {g : List (Category × List Char)}
    (h : ((langs, rs), g) ∈ langTable.zip goConds) (ops : Operands) : Chosen (goEnv ops) .other g (rs.form ops) :=
  GoText.texts_forms _ h ops

theorem C90_model_complete : langTable.length = goConds.length := by decide

example : ((["si"], rs_si), [(.one, c!"isFloatOneOf(ops.N, 0, 1) || ops.I == 0 && ops.F == 1")]) ∈
    langTable.zip goConds := List.mem_of_getElem? (i := 10) rfl

/-- In general the text does not choose the category of the published rules: 1.0000001 is not 1, but
counts as 1 in Sinhala, because `isFloatOneOf` compares with a tolerance of 1e-6. -/
theorem C90_negation : ∃ (langs : List String) (p : Published) (g : List (Category × List Char)) (d : Decimal)
    (ops : Operands), ((langs, p), g) ∈ publishedFor.zip goConds ∧ d.WF ∧
    newOperandsString noRest noOor d.text = some ops ∧ Chosen (goEnv ops) .other g .one ∧
    Selects (d.ops 0) p.rules .other := by
  have h : ∃ ops, newOperandsString noRest noOor (⟨['1'], "0000001".toList⟩ : Decimal).text = some ops ∧
      rs_si.form ops = .one := by
    have := (by decide +kernel : rs_si.evaluate (newOperandsString noRest noOor
      (⟨['1'], "0000001".toList⟩ : Decimal).text) = some .one)
    obtain ⟨ops, h1, h2⟩ := Option.map_eq_some_iff.mp this
    exact ⟨ops, h1, h2⟩
  obtain ⟨ops, ho, hf⟩ := h
  refine ⟨["si"], pub_si, _, ⟨['1'], "0000001".toList⟩, ops, List.mem_of_getElem? (i := 10) rfl, by simp [Decimal.WF], ho,
    ?_, Cldr.si_other⟩
  rw [← hf]
  exact GoText.text_si ops

end cldr

/-! ## C89 -/

section po
open Verif.Spec.PoPlural Verif.Proofs.PoPlural
open Verif.Model.PoPlural (goTexts astParse compileToString getBuiltInForRawRule)
open Verif.Model.PoPlural.Generator (compiled goEnv)
open Verif.Props.PoPlural (frame frame_formula vN sp spD)

/-- The function that the generator writes for a formula of the usual shape compiles, and it returns
the value of the formula in C. -/
theorem C89_generated_function_partial {text : List Char} {k : Nat} {e : Expr} (h : Formula text k e)
    (hk : k < 2 ^ 63) (hs : Small e) (hu : Usual k e) {m v : Int} (hv : cval e m = some v) (h0 : k = 1 → v = 0) :
    ∃ s, compiled text = some s ∧ Function (goEnv m) s v :=
  Generator.generated h hk hs hu hv h0

example : Formula Props.PoPlural.enText 2 (.bin .ne .n (.num 1)) ∧ Usual 2 (.bin .ne .n (.num 1)) ∧
    compiled Props.PoPlural.enText = some c!"if n != 1{\nreturn 1\n}\nreturn 0" :=
  ⟨Props.PoPlural.en_formula, .inr (.inl ⟨rfl, trivial, trivial⟩), by decide +kernel⟩

/-- `n % 10 == 1 && n % 100 != 11 ? 0 : n == 0 || n > 4 ? 1 : 2` -/
example : Usual 3 (.cond (.bin .and (.bin .eq (.bin .rem .n (.num 10)) (.num 1)) (.bin .ne (.bin .rem .n (.num 100)) (.num 11)))
    (.num 0) (.cond (.bin .or (.bin .eq .n (.num 0)) (.bin .gt .n (.num 4))) (.num 1) (.num 2))) :=
  .inr (.inr ⟨by decide, by simp [Ladder, Test, Term]⟩)

/-- `nplurals=2; plural=n % (5 % 3) == 1;` -/
def remText : List Char :=
  render [] (frame '2' [vN, sp .rem, ([' '], .lp), ([], .num ['5']), sp .rem, spD ['3'], ([], .rp), sp .eq, spD ['1']])

def remExpr : Expr := .bin .eq (.bin .rem .n (.bin .rem (.num 5) (.num 3))) (.num 1)

theorem rem_formula : Formula remText 2 remExpr := by
  refine frame_formula '2' _ _ (by decide +kernel) ?_
  have a : Der 5 ([T.num ['5']] ++ .bin .rem :: [.num ['3']]) (.bin .rem (.num 5) (.num 3)) := .rem (.num ['5']) (.num ['3'])
  have b : Der 5 ([T.word .n ['n']] ++ .bin .rem :: (.lp :: ([T.num ['5']] ++ .bin .rem :: [.num ['3']]) ++ [.rp]))
      (.bin .rem .n (.bin .rem (.num 5) (.num 3))) := .rem (.n _) (.paren (der_le (by omega) a))
  exact der_le (by omega) (Der.eq (o := .eq) trivial (der_le (by omega) b) (der_le (by omega) (.num ['1'])))

/-- In general the function is wrong: parentheses around the right operand of `%` are lost, so that
`n % (5 % 3) == 1` becomes `n%5%3 == 1`. -/
theorem C89_negation : ∃ (text : List Char) (k : Nat) (e : Expr) (m v i : Int) (s : List Char), Formula text k e ∧
    Small e ∧ 1 < k ∧ cval e m = some v ∧ compiled text = some s ∧ Function (goEnv m) s i ∧ i ≠ v := by
  refine ⟨remText, 2, remExpr, 6, 0, 1, c!"if n%5%3 == 1{\nreturn 1\n}\nreturn 0", rem_formula, by simp [remExpr, Small], by decide,
    by decide, by decide +kernel, ⟨.cond (.bin .eq (.bin .rem (.bin .rem (.name ['n']) (.int 5)) (.int 3)) (.int 1))
      (.ret (.int 1) .done) (.ret (.int 0) .done), parseBody_iff.mp (by decide +kernel), rfl, by decide +kernel, by decide +kernel⟩,
    by decide⟩

/-- `nplurals=2; plural=n == 1 ? 0 : 1;` -/
def condText : List Char :=
  render [] (frame '2' [vN, sp .eq, spD ['1'], ([' '], .quest), spD ['0'], ([' '], .colon), spD ['1']])

theorem cond_formula : Formula condText 2 (.cond (.bin .eq .n (.num 1)) (.num 0) (.num 1)) := by
  refine frame_formula '2' _ _ (by decide +kernel) ?_
  have a : Der 3 ([T.word .n ['n']] ++ .bin .eq :: [.num ['1']]) (.bin .eq .n (.num 1)) :=
    .eq (o := .eq) trivial (der_le (by omega) (.n _)) (der_le (by omega) (.num ['1']))
  exact .cond (der_le (by omega) a) (der_le (by omega) (.num ['0'])) (der_le (by omega) (.num ['1']))

/-- In general the function does not compile: for two plurals `?:` is not written at all, and the text
begins with `if {`. -/
theorem C89_syntax_negation : ∃ (text : List Char) (k : Nat) (e : Expr) (s : List Char), Formula text k e ∧ Small e ∧
    (∀ m, ∃ v, cval e m = some v ∧ 0 ≤ v ∧ v < k) ∧ compiled text = some s ∧ ∀ m i, ¬ Function (goEnv m) s i := by
  refine ⟨condText, 2, _, c!"if {\nreturn 1\n}\nreturn 0", cond_formula, by simp [Small], fun m => ?_, by decide +kernel, ?_⟩
  · by_cases h : m = 1
    · exact ⟨0, by simp [cval, h, ofBool], by decide, by decide⟩
    · exact ⟨1, by simp [cval, h, ofBool], by decide, by decide⟩
  · rintro m i ⟨k, hr, -⟩
    have := parseBody_iff.mpr hr
    rw [show parseBody ((lex c!"if {\nreturn 1\n}\nreturn 0").length + 1) (lex c!"if {\nreturn 1\n}\nreturn 0") = none from
      by decide +kernel] at this
    cases this

/-! ## C91 -/

/-- Every function of the generated file, read as Go, returns for every int64 the value in C of the
formula in its comment; this is also what the built-in rule of the model returns that is used for the
formula. -/
theorem C91_generated_file_functions {p : List Char × List Char} (hp : p ∈ goTexts) :
    ∃ k e f r, Formula p.1 k e ∧ Usual k e ∧ astParse p.1 = .ok f ∧
      getBuiltInForRawRule (compileToString f) = some r ∧ r.nPlurals = k ∧
      ∀ m, ∃ v, cval e m = some v ∧ Function (goEnv m) p.2 v ∧ r.form m = v :=
  GoText.okB_sound (GoText.texts_ok p hp)

/-- Every rule of the model's table is one of the functions. -/
theorem C91_all_rules {key : List Char} {r : Model.PoPlural.Rule} (h : getBuiltInForRawRule key = some r) :
    ∃ p ∈ goTexts, ∀ m, Function (goEnv m) p.2 (r.form m) := by
  unfold getBuiltInForRawRule at h
  obtain ⟨q, hq, rfl⟩ := Option.map_eq_some_iff.mp h
  have hkey : q.1 = key := by simpa using List.find?_some hq
  obtain ⟨p, hp, hf⟩ := GoText.keys_covered q.1 (List.mem_map.mpr ⟨q, List.mem_of_find?_eq_some hq, rfl⟩)
  obtain ⟨k, e, f, r, -, -, h1, h2, -, h4⟩ := C91_generated_file_functions hp
  rw [h1] at hf
  have hc : compileToString f = q.1 := by simpa using hf
  rw [hc, hkey] at h2
  have hr : r = q.2 := by
    unfold getBuiltInForRawRule at h2
    rw [hq] at h2
    cases h2
    rfl
  refine ⟨p, hp, fun m => ?_⟩
  obtain ⟨v, -, hv, hrv⟩ := h4 m
  rw [← hr, hrv]
  exact hv

example : (c!"nplurals=2; plural=n > 1;", c!"\t\t\tif n > 1 {\n\t\t\t\treturn 1\n\t\t\t}\n\t\t\treturn 0\n") ∈ goTexts := by
  decide +kernel

end po

end Verif.Props.Generator
