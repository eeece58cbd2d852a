import Verif.Proofs.Cldr.Final
/-!
# C33-C38, C59-C61: CLDR plural rules

Vocabulary: `Decimal` is a number written with digits before and after the point, `d.text` its
spelling, `d.ops e` the operands that UTS 35 gives it (`e`: compact exponent), `Selects o rules c`
says that `c` is the category of the first published rule that holds (Spec).  `publishedFor` is the
table of the published rules by language.  `parseFloat` outside plain decimals (`rest`) and the
conversion of out-of-range floats (`oor`) are arbitrary.
-/
namespace Verif.Props.Cldr
open Verif.Go Verif.Model.Cldr Verif.Spec.Cldr Verif.Cldr Verif.Proofs.Cldr
open Verif.Model.PoPlural (Val toNumber)

/-- A `ParseFloat` that rejects everything but plain decimals, and a conversion, for the witnesses. -/
def noRest : List Char → Option F64 := fun _ => none
def noOor : F64 → Int := fun _ => -(2 ^ 63)

/-! ## C33 -/

theorem good_of_builtin {lang : String} {rs : RuleSet} (h : getBuiltInForLanguage lang = some rs) :
    ∃ p, Good rs p := by
  unfold getBuiltInForLanguage at h
  obtain ⟨x, hx, rfl⟩ := Option.map_eq_some_iff.mp h
  obtain ⟨y, _, _, hg⟩ := paired.good x (List.mem_of_find?_eq_some hx)
  exact ⟨y.2, hg⟩

theorem builtin_of_forLanguage : ∀ {chain : List (String × Option String)} {rs : RuleSet},
    (forLanguage chain).1 = some rs → ∃ lang, getBuiltInForLanguage lang = some rs
  | [], _, h => ⟨"en", h⟩
  | (tag, base) :: chain, rs, h => by
    unfold forLanguage at h
    split at h
    · rename_i r hr; cases h; exact ⟨tag, hr⟩
    · split at h
      · rename_i r hr
        cases h
        cases base with
        | none => cases hr
        | some b => exact ⟨b, hr⟩
      · exact builtin_of_forLanguage h

/-- For every chain of tags there is a rule set; whatever the operands, it returns one of its
categories, which are strictly ascending and end with Other. -/
theorem C33_category_listed (chain : List (String × Option String)) :
    ∃ rs, (forLanguage chain).1 = some rs ∧ (∀ ops, rs.form ops ∈ rs.categories) ∧
      rs.categories.Pairwise (fun a b => a.toNat < b.toNat) ∧ rs.categories.getLast? = some .other := by
  have hsome : ∀ chain, ∃ rs, (forLanguage chain).1 = some rs := by
    intro chain
    induction chain with
    | nil => exact ⟨rs_ast, rfl⟩
    | cons x chain ih =>
      obtain ⟨tag, base⟩ := x
      unfold forLanguage
      split
      · exact ⟨_, rfl⟩
      · split
        · exact ⟨_, rfl⟩
        · exact ih
  obtain ⟨rs, hrs⟩ := hsome chain
  obtain ⟨lang, hl⟩ := builtin_of_forLanguage hrs
  obtain ⟨p, hg⟩ := good_of_builtin hl
  exact ⟨rs, hrs, hg.mem, hg.asc, by rw [hg.cats]; simp⟩

/-- The same for every language that has built-in rules. -/
theorem C33_category_listed_builtin {lang : String} {rs : RuleSet} (h : getBuiltInForLanguage lang = some rs) :
    (∀ ops, rs.form ops ∈ rs.categories) ∧ rs.categories.Pairwise (fun a b => a.toNat < b.toNat) ∧
      Category.other ∈ rs.categories := by
  obtain ⟨p, hg⟩ := good_of_builtin h
  exact ⟨hg.mem, hg.asc, by rw [hg.cats]; simp⟩

example : getBuiltInForLanguage "ar" = some rs_ar ∧
    rs_ar.categories = [.zero, .one, .two, .few, .many, .other] ∧ rs_ar.form (newOperandsInt 3) = .few :=
  ⟨rfl, rfl, by decide +kernel⟩

example : (forLanguage [("de-CH", some "de"), ("de", some "de")]).2 = true := by decide +kernel

/-- Rule sets made by `ParseRules`: whatever the iteration orders of the map, the category is
listed. -/
theorem C33_category_listed_parsed {budget : Nat} {raw : List (Category × List Char)} {cats : List Category}
    {rules rules' : List (Category × Rule)} (h : parseRules budget raw = .ok (cats, rules))
    (hp : rules'.Perm rules) {ops : Operands} {c : Category} (hc : formFunc rules' ops = .ok c) :
    c ∈ cats ∧ Category.other ∈ cats := by
  unfold parseRules at h
  simp only [bind, Except.bind] at h
  cases hr : parseAll budget raw with
  | error e => rw [hr] at h; cases h
  | ok rs =>
    rw [hr] at h
    simp only [Except.ok.injEq, Prod.mk.injEq] at h
    obtain ⟨rfl, rfl⟩ := h
    have hkeys : ∀ (raw : List (Category × List Char)) (rs : List (Category × Rule)), parseAll budget raw = .ok rs →
        rs.map (·.1) = raw.map (·.1) := by
      intro raw
      induction raw with
      | nil => intro rs h; cases h; rfl
      | cons x raw ih =>
        intro rs h
        simp only [parseAll, bind, Except.bind] at h
        cases h1 : parse budget x.2 with
        | error e => rw [h1] at h; cases h
        | ok r =>
          rw [h1] at h
          simp only [] at h
          cases h2 : parseAll budget raw with
          | error e => rw [h2] at h; cases h
          | ok rs' =>
            rw [h2] at h
            cases h
            rw [List.map_cons, List.map_cons, ih rs' h2]
    have hmem : ∀ (rs : List (Category × Rule)), formFunc rs ops = .ok c → c = .other ∨ c ∈ rs.map (·.1) := by
      intro rs
      induction rs with
      | nil => intro h; cases h; exact Or.inl rfl
      | cons x rs ih =>
        intro h
        simp only [formFunc, bind, Except.bind] at h
        cases h1 : evaluate x.2 ops with
        | error e => rw [h1] at h; cases h
        | ok b =>
          rw [h1] at h
          cases b with
          | true => cases h; exact Or.inr (by simp)
          | false =>
            rcases ih h with h | h
            · exact Or.inl h
            · exact Or.inr (by rw [List.map_cons]; exact List.mem_cons_of_mem _ h)
    have hother : Category.other ∈ (if (raw.map (·.1)).contains Category.other then raw.map (·.1)
        else raw.map (·.1) ++ [.other]) := by
      split
      · rename_i h; simpa using h
      · simp
    refine ⟨?_, hother⟩
    rcases hmem _ hc with h | h
    · rw [h]; exact hother
    · have h' : c ∈ raw.map (·.1) := by
        rw [← hkeys raw rs hr]
        exact (hp.map _).mem_iff.mp h
      split
      · exact h'
      · exact List.mem_append.mpr (Or.inl h')

example : ∃ rules, parseRules 9 [(.one, "n = 1 @integer 1".toList)] = .ok ([.one, .other], rules) ∧
    formFunc rules (newOperandsInt 1) = .ok .one := ⟨_, rfl, by decide +kernel⟩

/-! ## C34 -/

/-- Every decimal that occurs: float64 is good enough (`Small`: an integer below 2^53, or a number
below 2^33 with at most 15 decimal places that is at least 0.000002 away from the integers; these are all with at most five
places). -/
theorem C34_builtin_follows_published_rules_partial {langs : List String} {p : Published}
    (hp : (langs, p) ∈ publishedFor) {lang : String} (hl : lang ∈ langs) {d : Decimal} (h : d.WF) (hs : Small d)
    (rest : List Char → Option F64) (oor : F64 → Int) :
    ∃ rs c, getBuiltInForLanguage lang = some rs ∧ rs.evaluate (newOperandsString rest oor d.text) = some c ∧
      Selects (d.ops 0) p.rules c := by
  obtain ⟨x, _, _, hf, hg⟩ := paired.find langTable_nodup _ hp lang hl
  obtain ⟨ops, nv, ho, hm⟩ := match_decimal h hs rest oor 0
  refine ⟨x.2, x.2.form ops, ?_, ?_, hg.sel ops _ nv hm⟩
  · unfold getBuiltInForLanguage; rw [hf]; rfl
  · rw [newOperandsString_plain h]
    rw [show ((0 : Nat) : Int) = 0 from rfl] at ho
    rw [ho]; rfl

/-- The same with a compact exponent: `1.2c6`. -/
theorem C34_builtin_follows_published_rules_compact_partial {langs : List String} {p : Published}
    (hp : (langs, p) ∈ publishedFor) {lang : String} (hl : lang ∈ langs) {d : Decimal} (h : d.WF) {e : Nat}
    (he : e < 2 ^ 63) (hs : Small (d.shift e)) (rest : List Char → Option F64) (oor : F64 → Int) :
    ∃ rs c, getBuiltInForLanguage lang = some rs ∧
      rs.evaluate (newOperandsString rest oor (d.text ++ 'c' :: dec e)) = some c ∧
      Selects ((d.shift e).ops e) p.rules c := by
  obtain ⟨x, _, _, hf, hg⟩ := paired.find langTable_nodup _ hp lang hl
  obtain ⟨ops, nv, ho, hm⟩ := match_decimal (shift_wf h e) hs rest oor e
  refine ⟨x.2, x.2.form ops, ?_, ?_, hg.sel ops _ nv hm⟩
  · unfold getBuiltInForLanguage; rw [hf]; rfl
  · rw [newOperandsString_compact h he, ho]; rfl

/-- Integers: the published rules for every integer below 2^53, of either sign. -/
theorem C34_builtin_follows_published_rules_int_partial {langs : List String} {p : Published}
    (hp : (langs, p) ∈ publishedFor) {lang : String} (hl : lang ∈ langs) {n : Nat} (hn : n < 2 ^ 53) (k : Int)
    (hk : k = n ∨ k = -n) :
    ∃ rs, getBuiltInForLanguage lang = some rs ∧
      Selects ⟨⟨n, 1⟩, n, 0, 0, 0, 0, 0⟩ p.rules (rs.form (newOperandsInt k)) := by
  obtain ⟨x, _, _, hf, hg⟩ := paired.find langTable_nodup _ hp lang hl
  refine ⟨x.2, ?_, ?_⟩
  · unfold getBuiltInForLanguage; rw [hf]; rfl
  · have hsm : Small (ofNat n) := Or.inl ⟨rfl, by simp [ofNat], by simp [ofNat, dec_val]; omega⟩
    obtain ⟨ops, nv, ho, hm⟩ := match_decimal (ofNat_wf n) hsm noRest noOor 0
    have h1 := operands_dec hn noRest noOor
    rw [← ofNat_text, newOperandsString_plain (ofNat_wf n)] at h1
    rw [show ((0 : Nat) : Int) = 0 from rfl, h1] at ho
    cases ho
    have hops : (ofNat n).ops 0 = ⟨⟨n, 1⟩, n, 0, 0, 0, 0, 0⟩ := by
      simp [ofNat, Decimal.ops, stripZeros, Spec.Cldr.digitsVal]
      exact dec_val n
    have hki : newOperandsInt k = newOperandsInt n := by
      rcases hk with rfl | rfl
      · rfl
      · rcases Nat.eq_zero_or_pos n with rfl | hpos
        · rfl
        · unfold newOperandsInt
          have h1 : -(n : Int) < 0 := by omega
          have h2 : ¬ ((n : Int) < 0) := by omega
          have h3 : negInt64 (-(n : Int)) = n := by
            unfold negInt64; rw [if_neg (by omega)]; omega
          simp only [h1, h2, if_true, if_false, h3]
    rw [hki, ← hops]
    exact hg.sel _ _ _ hm

example : (["si"], pub_si) ∈ publishedFor ∧ Small ⟨['0'], ['1']⟩ ∧ (⟨['0'], ['1']⟩ : Decimal).WF :=
  ⟨List.mem_of_getElem? (i := 10) rfl, Or.inr (by decide), by simp [Decimal.WF]⟩

/-- Nine digits after the point. -/
example : Small ⟨['3'], "000002001".toList⟩ ∧ (⟨['3'], "000002001".toList⟩ : Decimal).WF :=
  ⟨Or.inr (by decide +kernel), by simp [Decimal.WF]⟩

/-- Any number below 2^33 with at most five digits after the point. -/
example {d : Decimal} (h : d.WF) (h5 : d.fp.length ≤ 5) (hi : Spec.Cldr.digitsVal d.ip < 2 ^ 33) : Small d := small_of_five h h5 hi

example : (["fr"], pub_fr) ∈ publishedFor ∧ Small ((⟨['1'], ['2']⟩ : Decimal).shift 6) ∧
    rs_fr.evaluate (newOperandsString noRest noOor "1.2c6".toList) = some .many :=
  ⟨List.mem_of_getElem? (i := 16) rfl, Or.inl (by decide), by decide +kernel⟩

/-- 1.0000001 is neither 0 nor 1. -/
theorem si_other : Selects ((⟨['1'], "0000001".toList⟩ : Decimal).ops 0) pub_si.rules .other := by
  refine .skip ?_ .other
  rintro ⟨conj, hc, hr⟩
  simp only [List.mem_cons, List.not_mem_nil, or_false] at hc
  rcases hc with rfl | rfl
  · have := hr _ List.mem_cons_self
    simp only [Rel.Holds, Rel.value, Ops.get, Bool.false_eq_true, if_false, List.mem_cons, List.not_mem_nil,
      or_false, exists_eq_or_imp, exists_eq_left, Q.In, Q.Is] at this
    have e1 : ((⟨['1'], "0000001".toList⟩ : Decimal).ops 0).n = ⟨10000001, 10000000⟩ := rfl
    rw [e1] at this
    simp only [Option.getD_none] at this
    rcases this with ⟨k, h1, h2, h3⟩ | ⟨k, h1, h2, h3⟩ <;> omega
  · have := hr _ List.mem_cons_self
    simp only [Rel.Holds, Rel.value, Ops.get, Bool.false_eq_true, if_false, List.mem_cons, List.not_mem_nil,
      or_false, exists_eq_left, Q.In, Q.Is] at this
    have e1 : ((⟨['1'], "0000001".toList⟩ : Decimal).ops 0).i = 1 := rfl
    rw [e1] at this
    simp only [Option.getD_none] at this
    obtain ⟨k, h1, h2, h3⟩ := this
    omega

/-- In general the built-in functions do not follow the rule text: 1.0000001 is not 1, but counts as
1 in Sinhala, because floats are compared with a tolerance of 1e-6. -/
theorem C34_negation : ∃ (lang : String) (p : Published) (d : Decimal) (rs : RuleSet),
    ([lang], p) ∈ publishedFor ∧ d.WF ∧ getBuiltInForLanguage lang = some rs ∧
    rs.evaluate (newOperandsString noRest noOor d.text) = some .one ∧ Selects (d.ops 0) p.rules .other ∧
    ¬ Selects (d.ops 0) p.rules .one := by
  have hsel := si_other
  refine ⟨"si", pub_si, ⟨['1'], "0000001".toList⟩, rs_si, List.mem_of_getElem? (i := 10) rfl,
    by simp [Decimal.WF], rfl,
    by decide +kernel, hsel, ?_⟩
  intro h
  cases h with
  | hit h1 => cases hsel with | skip h2 _ => exact h2 h1
  | skip h1 h2 => cases h2

/-- 1.0000001 is not a single case: whatever is above 1 by at most 0.0000009 has the form of 1 in Sinhala, although it is
neither 0 nor 1. -/
theorem C34_near_negation {d : Decimal} (h : d.WF) (hl : d.fp.length ≤ 18) (hi : Spec.Cldr.digitsVal d.ip = 1)
    (h0 : Spec.Cldr.digitsVal d.fp ≠ 0) (hn : Spec.Cldr.digitsVal d.fp * 10000000 ≤ 9 * 10 ^ d.fp.length)
    (rest : List Char → Option F64) (oor : F64 → Int) :
    getBuiltInForLanguage "si" = some rs_si ∧ (["si"], pub_si) ∈ publishedFor ∧
    rs_si.evaluate (newOperandsString rest oor d.text) = some .one ∧ Selects (d.ops 0) pub_si.rules .other := by
  refine ⟨rfl, List.mem_of_getElem? (i := 10) rfl, ?_, ?_⟩
  · obtain ⟨ops, ho, hf⟩ := near_decimal h hl (by omega) h0 hn rest oor 0
    rw [newOperandsString_plain h, ho]
    have h1 : isFloatOneOf ops.n [0, 1] = true := by
      rw [hi] at hf
      unfold isFloatOneOf
      rw [List.any_eq_true]
      exact ⟨1, by simp, hf⟩
    simp [RuleSet.evaluate, rs_si, h1]
  · have hA : Spec.Cldr.digitsVal (d.ip ++ d.fp) = 10 ^ d.fp.length + Spec.Cldr.digitsVal d.fp := by
      rw [digitsVal_append, hi]; omega
    have hf10 := digitsVal_lt h.2.2
    have hq : (d.ops 0).n = ⟨Spec.Cldr.digitsVal (d.ip ++ d.fp), 10 ^ d.fp.length⟩ := rfl
    refine .skip ?_ .other
    rintro ⟨conj, hc, hr⟩
    simp only [List.mem_cons, List.not_mem_nil, or_false] at hc
    rcases hc with rfl | rfl
    · have := hr _ List.mem_cons_self
      simp only [Rel.Holds, Rel.value, Ops.get, Bool.false_eq_true, if_false, List.mem_cons, List.not_mem_nil,
        or_false, exists_eq_or_imp, exists_eq_left, Q.In, Q.Is] at this
      rw [hq] at this
      simp only [Option.getD_none] at this
      rcases this with ⟨k, h1, h2, h3⟩ | ⟨k, h1, h2, h3⟩
      · obtain rfl : k = 0 := by omega
        omega
      · obtain rfl : k = 1 := by omega
        omega
    · have := hr _ List.mem_cons_self
      simp only [Rel.Holds, Rel.value, Ops.get, Bool.false_eq_true, if_false, List.mem_cons, List.not_mem_nil,
        or_false, exists_eq_left, Q.In, Q.Is] at this
      have e : (d.ops 0).i = 1 := by rw [← hi]; rfl
      rw [e] at this
      simp at this

example : (⟨['1'], "00000085".toList⟩ : Decimal).WF ∧ Spec.Cldr.digitsVal "00000085".toList * 10000000 ≤ 9 * 10 ^ 8 :=
  ⟨by simp [Decimal.WF], by decide +kernel⟩

/-! ## C35 -/

/-- Natural numbers below 2^53: as int, as string, as float whose text is the plain decimal, as any
other numeric type whose `%v` text is the plain decimal, and behind a pointer. -/
theorem C35_operands_independent_partial {n : Nat} (hn : n < 2 ^ 53) (rest : List Char → Option F64)
    (oor : F64 → Int) (fmtV : F64 → List Char) :
    newOperands rest oor fmtV (.int n) = some (newOperandsInt n) ∧
    newOperands rest oor fmtV (.str (dec n)) = some (newOperandsInt n) ∧
    newOperands rest oor fmtV (.float (dec n)) = some (newOperandsInt n) ∧
    (∀ v x, toNumber (parseFloat rest) v = some x → fmtV x = dec n →
      newOperands rest oor fmtV (.other v) = some (newOperandsInt n)) ∧
    (∀ a, newOperands rest oor fmtV (.ptr a) = newOperands rest oor fmtV a) := by
  refine ⟨rfl, operands_dec hn rest oor, operands_dec hn rest oor, ?_, fun a => rfl⟩
  intro v x hv hx
  unfold newOperands
  simp only [Arg.indirect, hv, hx]
  exact operands_dec hn rest oor

/-- A float, and a number of another type, has the operands of the text that `%v` prints for it, with its decimal places. -/
theorem C35_text (rest : List Char → Option F64) (oor : F64 → Int) (fmtV : F64 → List Char) (t : List Char) :
    newOperands rest oor fmtV (.float t) = newOperands rest oor fmtV (.str t) ∧
    (∀ v x, toNumber (parseFloat rest) v = some x → fmtV x = t →
      newOperands rest oor fmtV (.other v) = newOperands rest oor fmtV (.str t)) := by
  refine ⟨rfl, fun v x hv hx => ?_⟩
  unfold newOperands
  simp only [Arg.indirect, hv, hx]

/-- n and -n passed as integers have the same operands, except for the smallest int64. -/
theorem C35_operands_sign_partial {i : Int} (h : -(2 ^ 63) < i) (h' : i < 2 ^ 63) :
    newOperandsInt (-i) = newOperandsInt i := by
  unfold newOperandsInt negInt64
  rcases Int.lt_trichotomy i 0 with h0 | rfl | h0
  · have h1 : ¬ (-i < 0) := by omega
    simp only [h0, h1, if_true, if_false, if_neg (show i ≠ -(2 ^ 63) by omega)]
  · rfl
  · have h1 : -i < 0 := by omega
    have h2 : ¬ i < 0 := by omega
    simp only [h1, h2, if_true, if_false, if_neg (show -i ≠ -(2 ^ 63) by omega), Int.neg_neg]

example : newOperandsInt (-21) = newOperandsInt 21 ∧ (newOperandsInt 21).i = 21 := by decide

/-- `ToNumber` of an unsigned integer is its float64, so `uint(5)` (printed as `5`) is an instance. -/
example : toNumber (parseFloat noRest) (.uint 5) = some (F64.ofInt 5) ∧ dec 5 = ['5'] := ⟨rfl, rfl⟩

/-- In general the representation matters: the text `-1` is not negated, so that English says
"other" for it and "one" for the integer -1; the smallest int64 stays negative; and a float of seven
digits, which `%v` prints as `1.234567e+06`, is refused whatever `ParseFloat` makes of it, also when
it comes from an unsigned integer. -/
theorem C35_negation :
    (∃ o, newOperandsString noRest noOor "-1".toList = some o ∧ o.i = -1 ∧ rs_ast.form o = .other) ∧
    (newOperandsInt (-1)).i = 1 ∧ rs_ast.form (newOperandsInt (-1)) = .one ∧
    (newOperandsInt (-(2 ^ 63))).i = -(2 ^ 63) ∧
    (∀ rest oor fmtV, newOperands rest oor fmtV (.float "1.234567e+06".toList) = none) ∧
    (∀ rest oor fmtV, fmtV (F64.ofInt 1234567) = "1.234567e+06".toList →
      newOperands rest oor fmtV (.other (.uint 1234567)) = none) := by
  have hnone : ∀ rest oor, newOperandsString rest oor "1.234567e+06".toList = none := by
    intro rest oor
    have h1 : cut 'c' "1.234567e+06".toList = none := by decide
    have h2 : cut '.' "1.234567e+06".toList = some (['1'], "234567e+06".toList) := by decide
    have h3 : fraction "234567e+06".toList = none := by decide
    unfold newOperandsString
    rw [h1]
    simp only [operandsOfDecimal, h2, h3, bind, Option.bind]
    cases parseFloat rest "1.234567e+06".toList <;> rfl
  refine ⟨⟨_, rfl, by decide +kernel, by decide +kernel⟩, by decide, by decide +kernel, by decide,
    fun rest oor _ => hnone rest oor, ?_⟩
  intro rest oor fmtV h
  have e : newOperands rest oor fmtV (.other (.uint 1234567)) = newOperandsString rest oor (fmtV (F64.ofInt 1234567)) := rfl
  rw [e, h]
  exact hnone rest oor

/-! ## C36 -/

/-- `<decimal>c<e>` has the operands of the decimal with its point moved by `e` places (written
without compact notation), and the compact exponent `e`; moving the point multiplies by 10^e. -/
theorem C36_compact_shift {d : Decimal} (h : d.WF) {e : Nat} (he : e < 2 ^ 63) (rest : List Char → Option F64)
    (oor : F64 → Int) :
    newOperandsString rest oor (d.text ++ 'c' :: dec e) =
      (newOperandsString rest oor (d.shift e).text).map (fun o => { o with c := e }) ∧
    (d.shift e).WF ∧
    (d.ops 0).n.num * 10 ^ e * ((d.shift e).ops 0).n.den = ((d.shift e).ops 0).n.num * (d.ops 0).n.den := by
  refine ⟨?_, shift_wf h e, (shift_value d e 0).symm⟩
  rw [newOperandsString_compact h he, newOperandsString_plain (shift_wf h e), operandsOfDecimal_c]

/-- With the operands of UTS 35 for the moved point. -/
theorem C36_compact_operands {d : Decimal} (h : d.WF) {e : Nat} (he : e < 2 ^ 63) (hs : Small (d.shift e))
    (rest : List Char → Option F64) (oor : F64 → Int) :
    ∃ ops, newOperandsString rest oor (d.text ++ 'c' :: dec e) = some ops ∧
      ops.i = ((d.shift e).ops e).i ∧ ops.v = ((d.shift e).ops e).v ∧ ops.w = ((d.shift e).ops e).w ∧
      ops.f = ((d.shift e).ops e).f ∧ ops.t = ((d.shift e).ops e).t ∧ ops.c = e := by
  obtain ⟨ops, nv, ho, hm⟩ := match_decimal (shift_wf h e) hs rest oor e
  exact ⟨ops, (newOperandsString_compact h he rest oor).trans ho, hm.i, hm.v, hm.w, hm.f, hm.t, hm.c⟩

example : (⟨['1'], "2345".toList⟩ : Decimal).WF ∧ ((⟨['1'], "2345".toList⟩ : Decimal).shift 3).text = "1234.5".toList ∧
    ((⟨['1'], ['2']⟩ : Decimal).shift 6).text = "1200000".toList := by
  refine ⟨by simp [Decimal.WF], by decide, by decide⟩

/-! ## C37 -/

/-- Rules of which at most one applies (and none fails) give the same category in every order. -/
theorem C37_order_irrelevant_partial {ops : Operands} {rules rules' : List (Category × Rule)}
    (hp : rules.Perm rules') (hok : ∀ r ∈ rules, ∃ b, evaluate r.2 ops = .ok b)
    (hex : rules.Pairwise fun a b => ¬ (evaluate a.2 ops = .ok true ∧ evaluate b.2 ops = .ok true)) :
    formFunc rules ops = formFunc rules' ops := by
  have key : ∀ rs : List (Category × Rule), (∀ r ∈ rs, ∃ b, evaluate r.2 ops = .ok b) →
      (rs.Pairwise fun a b => ¬ (evaluate a.2 ops = .ok true ∧ evaluate b.2 ops = .ok true)) →
      (formFunc rs ops = .ok .other ∧ ∀ r ∈ rs, evaluate r.2 ops = .ok false) ∨
      ∃ r ∈ rs, evaluate r.2 ops = .ok true ∧ formFunc rs ops = .ok r.1 ∧
        ∀ r' ∈ rs, evaluate r'.2 ops = .ok true → r'.1 = r.1 := by
    intro rs
    induction rs with
    | nil => intro _ _; exact Or.inl ⟨rfl, by simp⟩
    | cons x rs ih =>
      intro hok hex
      obtain ⟨b, hb⟩ := hok x List.mem_cons_self
      cases b with
      | true =>
        refine Or.inr ⟨x, List.mem_cons_self, hb, ?_, ?_⟩
        · simp only [formFunc, hb, bind, Except.bind, if_true]
        · intro r' hr' hr
          rcases List.mem_cons.mp hr' with rfl | hr'
          · rfl
          · exact absurd ⟨hb, hr⟩ ((List.pairwise_cons.mp hex).1 r' hr')
      | false =>
        have hf : formFunc (x :: rs) ops = formFunc rs ops := by
          simp only [formFunc, hb, bind, Except.bind, Bool.false_eq_true, if_false]
        rcases ih (fun r hr => hok r (List.mem_cons_of_mem _ hr)) (List.pairwise_cons.mp hex).2 with ⟨h1, h2⟩ | ⟨r, hr, h1, h2, h3⟩
        · refine Or.inl ⟨hf.trans h1, ?_⟩
          intro r hr
          rcases List.mem_cons.mp hr with rfl | hr
          · exact hb
          · exact h2 r hr
        · refine Or.inr ⟨r, List.mem_cons_of_mem _ hr, h1, hf.trans h2, ?_⟩
          intro r' hr' hh
          rcases List.mem_cons.mp hr' with rfl | hr'
          · rw [hb] at hh; cases hh
          · exact h3 r' hr' hh
  have hok' : ∀ r ∈ rules', ∃ b, evaluate r.2 ops = .ok b := fun r hr => hok r (hp.mem_iff.mpr hr)
  have hex' : rules'.Pairwise fun a b => ¬ (evaluate a.2 ops = .ok true ∧ evaluate b.2 ops = .ok true) :=
    hp.pairwise hex fun h => fun h' => h h'.symm
  rcases key rules hok hex with ⟨h1, h2⟩ | ⟨r, hr, h1, h2, h3⟩
  · rcases key rules' hok' hex' with ⟨g1, _⟩ | ⟨s, hs, g1, _, _⟩
    · rw [h1, g1]
    · rw [h2 s (hp.mem_iff.mpr hs)] at g1; cases g1
  · rcases key rules' hok' hex' with ⟨_, g2⟩ | ⟨s, hs, g1, g2, _⟩
    · rw [g2 r (hp.mem_iff.mp hr)] at h1; cases h1
    · rw [h2, g2, h3 s (hp.mem_iff.mpr hs) g1]

/-- The published rules of a language, passed to `ParseRules` in a map: for every decimal without a
large compact exponent and every iteration order the interpreter returns the category that the
built-in function returns, and it is the category of the published rules. -/
theorem C37_published_rules_deterministic_partial {langs : List String} {p : Published}
    (hp : (langs, p) ∈ publishedFor) {lang : String} (hl : lang ∈ langs) {d : Decimal} (h : d.WF) (hs : Small d)
    (rest : List Char → Option F64) (oor : F64 → Int) (budget : Nat) {raw : List (Category × List Char)}
    (hr : raw.Perm ((p.rules.map (·.1)).zip p.texts)) :
    ∃ rules ops c rs, parseAll budget raw = .ok rules ∧ newOperandsString rest oor d.text = some ops ∧
      formFunc rules ops = .ok c ∧ Selects (d.ops 0) p.rules c ∧
      getBuiltInForLanguage lang = some rs ∧ rs.form ops = c := by
  have hpub : p ∈ published := by
    rw [← publishedFor_eq]; exact List.mem_map.mpr ⟨_, hp, rfl⟩
  obtain ⟨nv', hc⟩ := coherent_decimal h (e := 0) (by omega)
  obtain ⟨ops, nv, ho, hm⟩ := match_decimal h hs rest oor 0
  obtain ⟨rules, c, h1, h2, h3⟩ := interpret_selects hm (exact_decimal h hs (by omega)) hc hpub budget hr
  obtain ⟨x, _, _, hf, hg⟩ := paired.find langTable_nodup _ hp lang hl
  refine ⟨rules, ops, c, x.2, h1, ?_, h2, h3, ?_, ?_⟩
  · rw [newOperandsString_plain h]; exact ho
  · unfold getBuiltInForLanguage; rw [hf]; rfl
  · exact selects_perm (published_exclusive hc p hpub) (List.Perm.refl _) (hg.sel ops _ nv hm) h3

example : (["fr"], pub_fr) ∈ publishedFor ∧ Small ⟨"1000000".toList, []⟩ ∧
    [(Category.many, "e = 0 and i != 0 and i % 1000000 = 0 and v = 0 or e != 0..5".toList),
      (Category.one, "i = 0,1".toList)].Perm ((pub_fr.rules.map (·.1)).zip pub_fr.texts) :=
  ⟨List.mem_of_getElem? (i := 16) rfl, Or.inl (by decide), List.Perm.swap _ _ _⟩

/-- In general the category depends on the iteration order: for the published French rules and the
number `0c6` both rules hold; and with the CLDR entry for Other, which has samples but no condition,
every number matches it. -/
theorem C37_negation :
    (∃ rules ops, parseAll 1 ((pub_fr.rules.map (·.1)).zip pub_fr.texts) = .ok rules ∧
      newOperandsString noRest noOor "0c6".toList = some ops ∧
      formFunc rules ops = .ok .one ∧ formFunc rules.reverse ops = .ok .many) ∧
    (∃ rules, parseAll 1 [(.one, "n = 1".toList), (.other, "@integer 2".toList)] = .ok rules ∧
      formFunc rules (newOperandsInt 1) = .ok .one ∧ formFunc rules.reverse (newOperandsInt 1) = .ok .other) := by
  refine ⟨⟨astRules pub_fr.rules, _, by decide +kernel, rfl, by decide +kernel, by decide +kernel⟩,
    ⟨[(.one, ⟨some (.rel (.operand ['n']) false [.value 1]), []⟩), (.other, ⟨none, [['2']]⟩)], by decide +kernel,
      by decide +kernel, by decide +kernel⟩⟩

/-! ## C38 -/

/-- A rule in lower case whose moduli are not zero and whose ranges end below the largest int64 can
be evaluated for all operands. -/
theorem C38_evaluation_total_partial {budget : Nat} {text : List Char} {rule : Rule}
    (h : parse budget text = .ok rule) (hl : ∀ c ∈ text, lower c = c)
    (hm : ∀ n, rule.root = some n → ModuliOk n) (hu : ∀ n, rule.root = some n → UppersOk n) (ops : Operands) :
    ∃ b, evaluate rule ops = .ok b := by
  unfold evaluate
  cases hr : rule.root with
  | none => exact ⟨true, rfl⟩
  | some n =>
    refine evaluateNode_ok ops n (parse_names ?_ h n hr) (hm n hr) (hu n hr)
    intro t ht
    apply map_lower_id
    intro c hc
    rcases fieldsAux_sub _ text [] t ht c hc with h | h
    · exact hl c h
    · cases h

/-- The tree of `n % 10 = 2..4 and i mod 7 != 3`. -/
def safeNode : Node :=
  .and (.rel (.modulo ['n'] 10) false [.range 2 4]) (.rel (.modulo ['i'] 7) true [.value 3])

example : parse 9 "n % 10 = 2..4 and i mod 7 != 3 @integer 2~4".toList =
      .ok ⟨some safeNode, [['2'], ['3'], ['4']]⟩ ∧ ModuliOk safeNode ∧ UppersOk safeNode :=
  ⟨by decide +kernel, ⟨Or.inl rfl, Or.inr (by decide)⟩,
    by simp only [safeNode, UppersOk, List.mem_cons, Item.range.injEq, List.not_mem_nil, or_false, reduceCtorEq]
       refine ⟨?_, by simp⟩
       rintro lo hi ⟨rfl, rfl⟩; decide⟩

/-- Every condition of the UTS 35 grammar with non-zero moduli and numbers below the largest int64 is
accepted and can be evaluated for all operands. -/
theorem C38_grammar_total_partial {c : Cond} (hc : c.WF (2 ^ 63 - 1)) (budget : Nat) :
    ∃ rule, parse budget c.text = .ok rule ∧ ∀ ops, ∃ b, evaluate rule ops = .ok b := by
  have hc' : c.WF (2 ^ 63) := by
    refine ⟨hc.1, fun x hx => ⟨(hc.2 x hx).1, fun r hr => ?_⟩⟩
    obtain ⟨h1, h2, h3⟩ := (hc.2 x hx).2 r hr
    refine ⟨h1, fun it hit => ?_, fun m hm => ?_⟩
    · have := h2 it hit
      obtain ⟨a, b⟩ := it
      cases b with
      | none => simp only [itemWF] at this ⊢; omega
      | some b => simp only [itemWF] at this ⊢; omega
    · have := h3 m hm; omega
  refine ⟨_, parse_cond_plain (b := 2 ^ 63) (Nat.le_refl _) hc' budget, fun ops => ?_⟩
  obtain ⟨h1, h2, h3⟩ := cond_safe c hc.1 hc.2
  exact evaluateNode_ok ops _ h1 h2 h3

/-- The published rules are of this kind. -/
theorem C38_published_total {p : Published} (hp : p ∈ published) {r : Category × Cond} (hr : r ∈ p.rules)
    (budget : Nat) : ∃ rule, parse budget r.2.text = .ok rule ∧ ∀ ops, ∃ b, evaluate rule ops = .ok b := by
  refine C38_grammar_total_partial ?_ budget
  have h := published_wf p hp r hr
  refine ⟨h.1, fun x hx => ⟨(h.2 x hx).1, fun r hr => ?_⟩⟩
  obtain ⟨h1, h2, h3⟩ := (h.2 x hx).2 r hr
  refine ⟨h1, fun it hit => ?_, fun m hm => ?_⟩
  · have := h2 it hit
    obtain ⟨a, b⟩ := it
    cases b with
    | none => simp only [itemWF] at this ⊢; omega
    | some b => simp only [itemWF] at this ⊢; omega
  · have := h3 m hm; omega

example : pub_ar ∈ published ∧ pub_ar.rules.length = 5 := ⟨List.mem_of_getElem? (i := 36) rfl, rfl⟩

/-- In general an accepted rule can fail: a zero modulus panics, an operand in upper case panics. -/
theorem C38_negation :
    (∃ rule, parse 1 "i % 0 = 1".toList = .ok rule ∧ ∀ ops, evaluate rule ops = .error .divideByZero) ∧
    (∃ rule, parse 1 "N = 1".toList = .ok rule ∧ ∀ ops, evaluate rule ops = .error .invalidOperand) :=
  ⟨⟨_, rfl, fun _ => rfl⟩, ⟨_, rfl, fun _ => rfl⟩⟩

/-! ## C59 -/

/-- Every condition of the UTS 35 grammar, in the spelling of the CLDR data, means to the interpreter
what it means in UTS 35, for every decimal that a float64 holds exactly enough. -/
theorem C59_rule_text_meaning {c : Cond} (hc : c.WF (2 ^ 53)) {d : Decimal} (h : d.WF) (hs : Small d)
    (budget : Nat) (rest : List Char → Option F64) (oor : F64 → Int) :
    ∃ rule ops b, parse budget c.text = .ok rule ∧ newOperandsString rest oor d.text = some ops ∧
      evaluate rule ops = .ok b ∧ (b = true ↔ c.Holds (d.ops 0)) := by
  obtain ⟨ops, nv, ho, hm⟩ := match_decimal h hs rest oor 0
  obtain ⟨b, hb, hbi⟩ := cond_eval hm (exact_decimal h hs (by omega)) c hc.1 hc.2
  refine ⟨_, ops, b, parse_cond_plain (b := 2 ^ 53) (by decide) hc budget, ?_, hb, hbi⟩
  rw [newOperandsString_plain h]; exact ho

/-- A condition of two alternatives, with moduli, ranges and negation. -/
def sampleCond : Cond := [[⟨.n, some 10, false, [(2, some 4), (9, none)]⟩, ⟨.f, some 100, true, [(12, some 14)]⟩],
  [⟨.v, none, true, [(0, none)]⟩]]

example : sampleCond.text = "n % 10 = 2..4,9 and f % 100 != 12..14 or v != 0".toList ∧ sampleCond.WF (2 ^ 53) :=
  ⟨by decide +kernel, condOk_wf (by decide +kernel)⟩

/-! ## C60 -/

/-- The operands of a decimal text are those of UTS 35; the float N equals an integer exactly if the
number does. -/
theorem C60_operands_of_decimal_partial {d : Decimal} (h : d.WF) (hs : Small d) (rest : List Char → Option F64)
    (oor : F64 → Int) :
    ∃ ops, newOperandsString rest oor d.text = some ops ∧ ops.i = (d.ops 0).i ∧ ops.v = (d.ops 0).v ∧
      ops.w = (d.ops 0).w ∧ ops.f = (d.ops 0).f ∧ ops.t = (d.ops 0).t ∧ ops.c = 0 ∧
      ∀ k : Nat, k < 2 ^ 53 → (ops.n.eqInt k = true ↔ (d.ops 0).n.Is k) := by
  obtain ⟨ops, nv, ho, hm⟩ := match_decimal h hs rest oor 0
  refine ⟨ops, (newOperandsString_plain h rest oor).trans ho, hm.i, hm.v, hm.w, hm.f, hm.t, hm.c, ?_⟩
  intro k hk
  rw [hm.n.eqInt hk]
  cases nv with
  | none =>
    have := hm.q.2 k
    exact ⟨(fun h => nomatch h), fun h => absurd h this⟩
  | some j =>
    obtain ⟨hq, hj⟩ := hm.q
    unfold Q.Is at hj ⊢
    constructor
    · intro he; cases he; exact hj
    · intro hk'
      rw [hj] at hk'
      rw [Nat.eq_of_mul_eq_mul_right hq hk']

example : (⟨"12".toList, "340".toList⟩ : Decimal).WF ∧ Small ⟨"12".toList, "340".toList⟩ ∧
    ((⟨"12".toList, "340".toList⟩ : Decimal).ops 0).w = 2 ∧ ((⟨"12".toList, "340".toList⟩ : Decimal).ops 0).t = 34 := by
  refine ⟨by simp [Decimal.WF], Or.inr (by decide), by decide, by decide⟩

/-- In general not: a fraction of nineteen nines is refused. -/
theorem C60_negation (rest : List Char → Option F64) (oor : F64 → Int) :
    (⟨['0'], List.replicate 19 '9'⟩ : Decimal).WF ∧
    newOperandsString rest oor (⟨['0'], List.replicate 19 '9'⟩ : Decimal).text = none := by
  have hw : (⟨['0'], List.replicate 19 '9'⟩ : Decimal).WF := by simp [Decimal.WF, List.replicate]
  refine ⟨hw, ?_⟩
  rw [newOperandsString_plain hw]
  have h2 := cut_point hw
  have h3 : fraction (List.replicate 19 '9') = none := by decide
  simp only [operandsOfDecimal, h2, bind, Option.bind]
  rw [if_neg (by decide)]
  simp only [h3]
  cases parseFloat rest (Decimal.text ⟨['0'], List.replicate 19 '9'⟩) <;> rfl

/-! ## C61 -/

/-- Without `~` the parser returns: the recursion ends within the length of the text (the model's
budget never runs out, for any text), and no sample range is enumerated. -/
theorem C61_parser_terminates_partial (budget : Nat) (text : List Char) :
    parse budget text ≠ .error .fuel ∧ ('~' ∉ text → parse budget text ≠ .error .hang) :=
  ⟨parse_no_fuel budget text, parse_no_hang budget text⟩

/-- An ascending sample range of integers is enumerated completely and in order. -/
theorem C61_sample_range_enumerated_partial {a b : Nat} (h : a ≤ b) {budget : Nat} (hb : b - a < budget) :
    parseSampleRange budget (dec a ++ '~' :: dec b) = .ok ((List.range (b - a + 1)).map fun j => dec (a + j)) := by
  unfold parseSampleRange
  have hn : '~' ∉ dec a := not_mem_digits (fun c hc => dec_digit a c hc) (by decide)
  rw [cut_some hn]
  exact sampleLoop_up b (b - a) a budget (by omega) hb

example : parseSampleRange 5 "8~11".toList = .ok ["8".toList, "9".toList, "10".toList, "11".toList] := by decide

/-- A descending one is enumerated for ever: `@integer 5~3` hangs. -/
theorem C61_negation (budget : Nat) : parse budget "@integer 5~3".toList = .error .hang := by
  have h1 : sampleLoop ['3'] budget ['5'] = .error .hang := sampleLoop_down (a := 5) (b := 3) (by omega) budget
  have h2 : parseSampleRange budget "5~3".toList = .error .hang := h1
  have h3 : generateTokens "@integer 5~3".toList = ["@integer".toList, "5~3".toList] := by decide
  unfold parse
  rw [h3]
  unfold parseTokens
  have h4 : scanNext ⟨.eof, [], ["@integer".toList, "5~3".toList]⟩ =
    .ok ⟨.sample, "@integer".toList, ["5~3".toList]⟩ := by decide
  have h5 : scanNext ⟨.sample, "@integer".toList, ["5~3".toList]⟩ = .ok ⟨.sampleRange, "5~3".toList, []⟩ := by decide
  simp only [bind, Except.bind, h4, samples, samplesLoop, h5, h2, List.length_cons, List.length_nil]
  rfl

end Verif.Props.Cldr
