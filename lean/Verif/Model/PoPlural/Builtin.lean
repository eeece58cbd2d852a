import Verif.Go.Chars
import Verif.Model.PoPlural.Parser
/-!
# catalog/poplural/builtin_gen.go

Generated from the Go file by a script (one definition per rule, same order, same conditions).
-/
namespace Verif.Model.PoPlural

/-- catalog/poplural/rule.go:13-18 `Rule`.  The form function is a function on (unbounded) integers. -/
structure Rule where
  nPlurals : Int
  form : Int → Int

/-- catalog/poplural/builtin_gen.go:19-28. -/
def inline1 : Rule where
  nPlurals := 2
  form := fun n =>
    if ((n = 1 ∨ n = 2) ∨ n = 3) ∨ n.tmod 10 ≠ 4 ∧ n.tmod 10 ≠ 6 ∧ n.tmod 10 ≠ 9 then 1 else
    0

/-- catalog/poplural/builtin_gen.go:30-39. -/
def inline2 : Rule where
  nPlurals := 2
  form := fun n =>
    if n ≤ 1 ∨ n ≥ 11 ∧ n ≤ 99 then 1 else
    0

/-- catalog/poplural/builtin_gen.go:41-50. -/
def inline3 : Rule where
  nPlurals := 2
  form := fun n =>
    if n = 0 ∨ n = 1 then 1 else
    0

/-- catalog/poplural/builtin_gen.go:52-61. -/
def inline4 : Rule where
  nPlurals := 2
  form := fun n =>
    if n.tmod 10 = 1 ∧ n.tmod 100 ≠ 11 then 1 else
    0

/-- catalog/poplural/builtin_gen.go:85-97. -/
def inline5 : Rule where
  nPlurals := 3
  form := fun n =>
    if n = 0 then 0 else
    if (n = 0 ∨ n = 1) ∧ n ≠ 0 then 1 else
    2

/-- catalog/poplural/builtin_gen.go:105-120. -/
def inline6 : Rule where
  nPlurals := 4
  form := fun n =>
    if n.tmod 100 = 1 then 0 else
    if n.tmod 100 = 2 then 1 else
    if n.tmod 100 ≥ 3 ∧ n.tmod 100 ≤ 4 then 2 else
    3

/-- catalog/poplural/builtin_gen.go:128-146. -/
def inline7 : Rule where
  nPlurals := 5
  form := fun n =>
    if n.tmod 10 = 1 ∧ n.tmod 100 ≠ 11 ∧ n.tmod 100 ≠ 71 ∧ n.tmod 100 ≠ 91 then 0 else
    if n.tmod 10 = 2 ∧ n.tmod 100 ≠ 12 ∧ n.tmod 100 ≠ 72 ∧ n.tmod 100 ≠ 92 then 1 else
    if (n.tmod 10 ≥ 3 ∧ n.tmod 10 ≤ 4 ∨ n.tmod 10 = 9) ∧ (n.tmod 100 < 10 ∨ n.tmod 100 > 19) ∧ (n.tmod 100 < 70 ∨ n.tmod 100 > 79) ∧ (n.tmod 100 < 90 ∨ n.tmod 100 > 99) then 2 else
    if n ≠ 0 ∧ n.tmod 1000000 = 0 then 3 else
    4

/-- catalog/poplural/builtin_gen.go:218-226 `newRuleBmBoDzHnjIdIgIiJaJboJvKdeKeaKmKoL`. -/
def rule_bm : Rule where
  nPlurals := 1
  form := fun _ =>
    0

/-- catalog/poplural/builtin_gen.go:229-240 `newRuleAfAnAsaAstAzBalBemBezBgBrxCeCggCh`. -/
def rule_af : Rule where
  nPlurals := 2
  form := fun n =>
    if n ≠ 1 then 1 else
    0

/-- catalog/poplural/builtin_gen.go:243-254 `newRuleAkAmAsBhoBnCswDoiFaFa_AFFfGuGuwHi`. -/
def rule_ak : Rule where
  nPlurals := 2
  form := fun n =>
    if n > 1 then 1 else
    0

/-- catalog/poplural/builtin_gen.go:257-268 `newRuleCebFilTl`. -/
def rule_ceb : Rule where
  nPlurals := 2
  form := fun n =>
    if n ≠ 1 ∧ n ≠ 2 ∧ n ≠ 3 ∧ ((n.tmod 10 = 4 ∨ n.tmod 10 = 6) ∨ n.tmod 10 = 9) then 1 else
    0

/-- catalog/poplural/builtin_gen.go:271-282 `newRuleIsMk`. -/
def rule_is : Rule where
  nPlurals := 2
  form := fun n =>
    if n.tmod 10 ≠ 1 ∨ n.tmod 100 = 11 then 1 else
    0

/-- catalog/poplural/builtin_gen.go:285-296 `newRuleTzm`. -/
def rule_tzm : Rule where
  nPlurals := 2
  form := fun n =>
    if n ≥ 2 ∧ (n < 11 ∨ n > 99) then 1 else
    0

/-- catalog/poplural/builtin_gen.go:299-313 `newRuleBeBsHrRuShSrSr_MEUk`. -/
def rule_be : Rule where
  nPlurals := 3
  form := fun n =>
    if n.tmod 10 = 1 ∧ n.tmod 100 ≠ 11 then 0 else
    if n.tmod 10 ≥ 2 ∧ n.tmod 10 ≤ 4 ∧ (n.tmod 100 < 12 ∨ n.tmod 100 > 14) then 1 else
    2

/-- catalog/poplural/builtin_gen.go:316-330 `newRuleBloKshLag`. -/
def rule_blo : Rule where
  nPlurals := 3
  form := fun n =>
    if n = 0 then 0 else
    if n = 1 then 1 else
    2

/-- catalog/poplural/builtin_gen.go:333-347 `newRuleCaEsEs_419Es_ESEs_MXItLldPt_PTScn`. -/
def rule_ca : Rule where
  nPlurals := 3
  form := fun n =>
    if n = 1 then 0 else
    if n ≠ 0 ∧ n.tmod 1000000 = 0 then 1 else
    2

/-- catalog/poplural/builtin_gen.go:350-364 `newRuleCsSk`. -/
def rule_cs : Rule where
  nPlurals := 3
  form := fun n =>
    if n = 1 then 0 else
    if n ≥ 2 ∧ n ≤ 4 then 1 else
    2

/-- catalog/poplural/builtin_gen.go:367-381 `newRuleFrFr_CAFr_CHPtPt_BR`. -/
def rule_fr : Rule where
  nPlurals := 3
  form := fun n =>
    if n = 0 ∨ n = 1 then 0 else
    if n ≠ 0 ∧ n.tmod 1000000 = 0 then 1 else
    2

/-- catalog/poplural/builtin_gen.go:384-398 `newRuleHeIuNaqSatSeSmaSmiSmjSmnSms`. -/
def rule_he : Rule where
  nPlurals := 3
  form := fun n =>
    if n = 1 then 0 else
    if n = 2 then 1 else
    2

/-- catalog/poplural/builtin_gen.go:401-415 `newRuleLt`. -/
def rule_lt : Rule where
  nPlurals := 3
  form := fun n =>
    if n.tmod 10 = 1 ∧ (n.tmod 100 < 11 ∨ n.tmod 100 > 19) then 0 else
    if n.tmod 10 ≥ 2 ∧ n.tmod 10 ≤ 9 ∧ (n.tmod 100 < 11 ∨ n.tmod 100 > 19) then 1 else
    2

/-- catalog/poplural/builtin_gen.go:418-432 `newRuleLvPrg`. -/
def rule_lv : Rule where
  nPlurals := 3
  form := fun n =>
    if n.tmod 10 = 0 ∨ n.tmod 100 ≥ 11 ∧ n.tmod 100 ≤ 19 then 0 else
    if n.tmod 10 = 1 ∧ n.tmod 100 ≠ 11 then 1 else
    2

/-- catalog/poplural/builtin_gen.go:435-449 `newRulePl`. -/
def rule_pl : Rule where
  nPlurals := 3
  form := fun n =>
    if n = 1 then 0 else
    if n.tmod 10 ≥ 2 ∧ n.tmod 10 ≤ 4 ∧ (n.tmod 100 < 12 ∨ n.tmod 100 > 14) then 1 else
    2

/-- catalog/poplural/builtin_gen.go:452-466 `newRuleRoRo_MD`. -/
def rule_ro : Rule where
  nPlurals := 3
  form := fun n =>
    if n = 1 then 0 else
    if n = 0 ∨ n ≠ 1 ∧ n.tmod 100 ≥ 1 ∧ n.tmod 100 ≤ 19 then 1 else
    2

/-- catalog/poplural/builtin_gen.go:469-483 `newRuleShi`. -/
def rule_shi : Rule where
  nPlurals := 3
  form := fun n =>
    if n = 0 ∨ n = 1 then 0 else
    if n ≥ 2 ∧ n ≤ 10 then 1 else
    2

/-- catalog/poplural/builtin_gen.go:486-503 `newRuleDsbHsbSl`. -/
def rule_dsb : Rule where
  nPlurals := 4
  form := fun n =>
    if n.tmod 100 = 1 then 0 else
    if n.tmod 100 = 2 then 1 else
    if n.tmod 100 = 3 ∨ n.tmod 100 = 4 then 2 else
    3

/-- catalog/poplural/builtin_gen.go:506-523 `newRuleGd`. -/
def rule_gd : Rule where
  nPlurals := 4
  form := fun n =>
    if n = 1 ∨ n = 11 then 0 else
    if n = 2 ∨ n = 12 then 1 else
    if n ≥ 3 ∧ n ≤ 10 ∨ n ≥ 13 ∧ n ≤ 19 then 2 else
    3

/-- catalog/poplural/builtin_gen.go:526-543 `newRuleGv`. -/
def rule_gv : Rule where
  nPlurals := 4
  form := fun n =>
    if n.tmod 10 = 1 then 0 else
    if n.tmod 10 = 2 then 1 else
    if (n.tmod 100 = 0 ∨ (n.tmod 100 = 20 ∨ (n.tmod 100 = 40 ∨ n.tmod 100 = 60))) ∨ n.tmod 100 = 80 then 2 else
    3

/-- catalog/poplural/builtin_gen.go:546-566 `newRuleBr`. -/
def rule_br : Rule where
  nPlurals := 5
  form := fun n =>
    if n.tmod 10 = 1 ∧ n.tmod 100 ≠ 11 ∧ n.tmod 100 ≠ 71 ∧ n.tmod 100 ≠ 91 then 0 else
    if n.tmod 10 = 2 ∧ n.tmod 100 ≠ 12 ∧ n.tmod 100 ≠ 72 ∧ n.tmod 100 ≠ 92 then 1 else
    if ((n.tmod 10 = 3 ∨ n.tmod 10 = 4) ∨ n.tmod 10 = 9) ∧ (n.tmod 100 < 10 ∨ n.tmod 100 > 19) ∧ (n.tmod 100 < 70 ∨ n.tmod 100 > 79) ∧ (n.tmod 100 < 90 ∨ n.tmod 100 > 99) then 2 else
    if n ≠ 0 ∧ n.tmod 1000000 = 0 then 3 else
    4

/-- catalog/poplural/builtin_gen.go:569-589 `newRuleGa`. -/
def rule_ga : Rule where
  nPlurals := 5
  form := fun n =>
    if n = 1 then 0 else
    if n = 2 then 1 else
    if n ≥ 3 ∧ n ≤ 6 then 2 else
    if n ≥ 7 ∧ n ≤ 10 then 3 else
    4

/-- catalog/poplural/builtin_gen.go:592-612 `newRuleMt`. -/
def rule_mt : Rule where
  nPlurals := 5
  form := fun n =>
    if n = 1 then 0 else
    if n = 2 then 1 else
    if n = 0 ∨ n.tmod 100 ≥ 3 ∧ n.tmod 100 ≤ 10 then 2 else
    if n.tmod 100 ≥ 11 ∧ n.tmod 100 ≤ 19 then 3 else
    4

/-- catalog/poplural/builtin_gen.go:615-638 `newRuleArAr_001Ars`. -/
def rule_ar : Rule where
  nPlurals := 6
  form := fun n =>
    if n = 0 then 0 else
    if n = 1 then 1 else
    if n = 2 then 2 else
    if n.tmod 100 ≥ 3 ∧ n.tmod 100 ≤ 10 then 3 else
    if n.tmod 100 ≥ 11 ∧ n.tmod 100 ≤ 99 then 4 else
    5

/-- catalog/poplural/builtin_gen.go:641-664 `newRuleCy`. -/
def rule_cy : Rule where
  nPlurals := 6
  form := fun n =>
    if n = 0 then 0 else
    if n = 1 then 1 else
    if n = 2 then 2 else
    if n = 3 then 3 else
    if n = 6 then 4 else
    5

/-- catalog/poplural/builtin_gen.go:667-690 `newRuleKw`. -/
def rule_kw : Rule where
  nPlurals := 6
  form := fun n =>
    if n = 0 then 0 else
    if n = 1 then 1 else
    if (((n.tmod 100 = 2 ∨ (n.tmod 100 = 22 ∨ (n.tmod 100 = 42 ∨ n.tmod 100 = 62))) ∨ n.tmod 100 = 82) ∨ n.tmod 1000 = 0 ∧ ((n.tmod 100000 ≥ 1000 ∧ n.tmod 100000 ≤ 20000 ∨ (n.tmod 100000 = 40000 ∨ n.tmod 100000 = 60000)) ∨ n.tmod 100000 = 80000)) ∨ n ≠ 0 ∧ n.tmod 1000000 = 100000 then 2 else
    if (n.tmod 100 = 3 ∨ (n.tmod 100 = 23 ∨ (n.tmod 100 = 43 ∨ n.tmod 100 = 63))) ∨ n.tmod 100 = 83 then 3 else
    if n ≠ 1 ∧ ((n.tmod 100 = 1 ∨ (n.tmod 100 = 21 ∨ (n.tmod 100 = 41 ∨ n.tmod 100 = 61))) ∨ n.tmod 100 = 81) then 4 else
    5

/-- catalog/poplural/builtin_gen.go:4-156 `getBuiltInForRawRule`: the cases in order. -/
def rawTable : List (List Char × Rule) := [
  (c!"nplurals=1; plural=0;", rule_bm),
  (c!"nplurals=2; plural=n != 1;", rule_af),
  (c!"nplurals=2; plural=n > 1;", rule_ak),
  (c!"nplurals=2; plural=n != 1 && n != 2 && n != 3 && ((n % 10 == 4 || n % 10 == 6) || n % 10 == 9);", rule_ceb),
  (c!"nplurals=2; plural=(n % 10 != 1 || n % 100 == 11);", rule_is),
  (c!"nplurals=2; plural=n >= 2 && (n < 11 || n > 99);", rule_tzm),
  (c!"nplurals=2; plural=(((n == 1 || n == 2) || n == 3) || n % 10 != 4 && n % 10 != 6 && n % 10 != 9);", inline1),
  (c!"nplurals=2; plural=(n <= 1 || n >= 11 && n <= 99);", inline2),
  (c!"nplurals=2; plural=(n == 0 || n == 1);", inline3),
  (c!"nplurals=2; plural=n % 10 == 1 && n % 100 != 11;", inline4),
  (c!"nplurals=3; plural=(n % 10 == 1 && n % 100 != 11) ? 0 : ((n % 10 >= 2 && n % 10 <= 4 && (n % 100 < 12 || n % 100 > 14)) ? 1 : 2);", rule_be),
  (c!"nplurals=3; plural=(n == 0) ? 0 : ((n == 1) ? 1 : 2);", rule_blo),
  (c!"nplurals=3; plural=(n == 1) ? 0 : ((n != 0 && n % 1000000 == 0) ? 1 : 2);", rule_ca),
  (c!"nplurals=3; plural=(n == 1) ? 0 : ((n >= 2 && n <= 4) ? 1 : 2);", rule_cs),
  (c!"nplurals=3; plural=(n == 0 || n == 1) ? 0 : ((n != 0 && n % 1000000 == 0) ? 1 : 2);", rule_fr),
  (c!"nplurals=3; plural=(n == 1) ? 0 : ((n == 2) ? 1 : 2);", rule_he),
  (c!"nplurals=3; plural=(n % 10 == 1 && (n % 100 < 11 || n % 100 > 19)) ? 0 : ((n % 10 >= 2 && n % 10 <= 9 && (n % 100 < 11 || n % 100 > 19)) ? 1 : 2);", rule_lt),
  (c!"nplurals=3; plural=(n % 10 == 0 || n % 100 >= 11 && n % 100 <= 19) ? 0 : ((n % 10 == 1 && n % 100 != 11) ? 1 : 2);", rule_lv),
  (c!"nplurals=3; plural=(n == 1) ? 0 : ((n % 10 >= 2 && n % 10 <= 4 && (n % 100 < 12 || n % 100 > 14)) ? 1 : 2);", rule_pl),
  (c!"nplurals=3; plural=(n == 1) ? 0 : ((n == 0 || n != 1 && n % 100 >= 1 && n % 100 <= 19) ? 1 : 2);", rule_ro),
  (c!"nplurals=3; plural=(n == 0 || n == 1) ? 0 : ((n >= 2 && n <= 10) ? 1 : 2);", rule_shi),
  (c!"nplurals=3; plural=(n == 0) ? 0 : (((n == 0 || n == 1) && n != 0) ? 1 : 2);", inline5),
  (c!"nplurals=4; plural=(n % 100 == 1) ? 0 : ((n % 100 == 2) ? 1 : ((n % 100 == 3 || n % 100 == 4) ? 2 : 3));", rule_dsb),
  (c!"nplurals=4; plural=(n == 1 || n == 11) ? 0 : ((n == 2 || n == 12) ? 1 : ((n >= 3 && n <= 10 || n >= 13 && n <= 19) ? 2 : 3));", rule_gd),
  (c!"nplurals=4; plural=(n % 10 == 1) ? 0 : ((n % 10 == 2) ? 1 : (((n % 100 == 0 || (n % 100 == 20 || (n % 100 == 40 || n % 100 == 60))) || n % 100 == 80) ? 2 : 3));", rule_gv),
  (c!"nplurals=4; plural=(n % 100 == 1) ? 0 : ((n % 100 == 2) ? 1 : ((n % 100 >= 3 && n % 100 <= 4) ? 2 : 3));", inline6),
  (c!"nplurals=5; plural=(n % 10 == 1 && n % 100 != 11 && n % 100 != 71 && n % 100 != 91) ? 0 : ((n % 10 == 2 && n % 100 != 12 && n % 100 != 72 && n % 100 != 92) ? 1 : (((n % 10 == 3 || n % 10 == 4) || n % 10 == 9) && (n % 100 < 10 || n % 100 > 19) && (n % 100 < 70 || n % 100 > 79) && (n % 100 < 90 || n % 100 > 99) ? 2 : ((n != 0 && n % 1000000 == 0) ? 3 : 4)));", rule_br),
  (c!"nplurals=5; plural=(n == 1) ? 0 : ((n == 2) ? 1 : ((n >= 3 && n <= 6) ? 2 : ((n >= 7 && n <= 10) ? 3 : 4)));", rule_ga),
  (c!"nplurals=5; plural=(n == 1) ? 0 : ((n == 2) ? 1 : ((n == 0 || n % 100 >= 3 && n % 100 <= 10) ? 2 : ((n % 100 >= 11 && n % 100 <= 19) ? 3 : 4)));", rule_mt),
  (c!"nplurals=5; plural=(n % 10 == 1 && n % 100 != 11 && n % 100 != 71 && n % 100 != 91) ? 0 : ((n % 10 == 2 && n % 100 != 12 && n % 100 != 72 && n % 100 != 92) ? 1 : ((n % 10 >= 3 && n % 10 <= 4 || n % 10 == 9) && (n % 100 < 10 || n % 100 > 19) && (n % 100 < 70 || n % 100 > 79) && (n % 100 < 90 || n % 100 > 99) ? 2 : ((n != 0 && n % 1000000 == 0) ? 3 : 4)));", inline7),
  (c!"nplurals=6; plural=(n == 0) ? 0 : ((n == 1) ? 1 : ((n == 2) ? 2 : ((n % 100 >= 3 && n % 100 <= 10) ? 3 : ((n % 100 >= 11 && n % 100 <= 99) ? 4 : 5))));", rule_ar),
  (c!"nplurals=6; plural=(n == 0) ? 0 : ((n == 1) ? 1 : ((n == 2) ? 2 : ((n == 3) ? 3 : ((n == 6) ? 4 : 5))));", rule_cy),
  (c!"nplurals=6; plural=(n == 0) ? 0 : ((n == 1) ? 1 : (((((n % 100 == 2 || (n % 100 == 22 || (n % 100 == 42 || n % 100 == 62))) || n % 100 == 82) || n % 1000 == 0 && ((n % 100000 >= 1000 && n % 100000 <= 20000 || (n % 100000 == 40000 || n % 100000 == 60000)) || n % 100000 == 80000)) || n != 0 && n % 1000000 == 100000) ? 2 : (((n % 100 == 3 || (n % 100 == 23 || (n % 100 == 43 || n % 100 == 63))) || n % 100 == 83) ? 3 : ((n != 1 && ((n % 100 == 1 || (n % 100 == 21 || (n % 100 == 41 || n % 100 == 61))) || n % 100 == 81)) ? 4 : 5))));", rule_kw)]

/-- catalog/poplural/builtin_gen.go:4-156 `getBuiltInForRawRule`. -/
def getBuiltInForRawRule (raw : List Char) : Option Rule :=
  (rawTable.find? (fun p => p.1 == raw)).map (·.2)

/-- catalog/poplural/builtin_gen.go:158-215 `getBuiltInForLanguage`: the cases in order. -/
def langTable : List (List String × Rule) := [
  (["bm", "bo", "dz", "hnj", "id", "ig", "ii", "ja", "jbo", "jv", "kde", "kea", "km", "ko",
    "lkt", "lo", "ms", "my", "nqo", "osa", "sah", "ses", "sg", "su", "th", "to", "tpi", "vi",
    "wo", "yo", "yue", "zh", "zh-Hans", "zh-Hant", "zh_Hans", "zh_Hant"], rule_bm),
  (["af", "an", "asa", "ast", "az", "bal", "bem", "bez", "bg", "brx", "ce", "cgg", "chr", "ckb",
    "da", "de", "de-AT", "de-CH", "de_AT", "de_CH", "dv", "ee", "el", "en", "en-AU", "en-CA",
    "en-GB", "en-US", "en_AU", "en_CA", "en_GB", "en_US", "eo", "et", "eu", "fi", "fo", "fur",
    "fy", "gl", "gsw", "ha", "haw", "hu", "ia", "io", "jgo", "jmc", "ka", "kaj", "kcg", "kk",
    "kkj", "kl", "ks", "ksb", "ku", "ky", "lb", "lg", "lij", "mas", "mgo", "ml", "mn", "mr",
    "nah", "nb", "nd", "ne", "nl", "nl-BE", "nl_BE", "nn", "nnh", "no", "nr", "ny", "nyn", "om",
    "or", "os", "pap", "ps", "rm", "rof", "rwk", "saq", "sc", "sd", "sdh", "seh", "sn", "so",
    "sq", "ss", "ssy", "st", "sv", "sw", "sw-CD", "sw_CD", "syr", "ta", "te", "teo", "tig",
    "tk", "tn", "tr", "ts", "ug", "ur", "uz", "ve", "vo", "vun", "wae", "xh", "xog", "yi"], rule_af),
  (["ak", "am", "as", "bho", "bn", "csw", "doi", "fa", "fa-AF", "fa_AF", "ff", "gu", "guw",
    "hi", "hi-Latn", "hi_Latn", "hy", "kab", "kn", "ln", "mg", "nso", "pa", "pcm", "si", "ti",
    "wa", "zu"], rule_ak),
  (["ceb", "fil", "tl"], rule_ceb),
  (["is", "mk"], rule_is),
  (["tzm"], rule_tzm),
  (["be", "bs", "hr", "ru", "sh", "sr", "sr-Latn", "sr-ME", "sr_ME", "uk"], rule_be),
  (["blo", "ksh", "lag"], rule_blo),
  (["ca", "es", "es-419", "es-ES", "es-MX", "es_419", "es_ES", "es_MX", "it", "lld", "pt-PT",
    "pt_PT", "scn", "vec"], rule_ca),
  (["cs", "sk"], rule_cs),
  (["fr", "fr-CA", "fr-CH", "fr_CA", "fr_CH", "pt", "pt-BR", "pt_BR"], rule_fr),
  (["he", "iu", "naq", "sat", "se", "sma", "smi", "smj", "smn", "sms"], rule_he),
  (["lt"], rule_lt),
  (["lv", "prg"], rule_lv),
  (["pl"], rule_pl),
  (["ro", "ro-MD", "ro_MD"], rule_ro),
  (["shi"], rule_shi),
  (["dsb", "hsb", "sl"], rule_dsb),
  (["gd"], rule_gd),
  (["gv"], rule_gv),
  (["br"], rule_br),
  (["ga"], rule_ga),
  (["mt"], rule_mt),
  (["ar", "ar-001", "ar_001", "ars"], rule_ar),
  (["cy"], rule_cy),
  (["kw"], rule_kw)]

/-- catalog/poplural/builtin_gen.go:158-215 `getBuiltInForLanguage`. -/
def getBuiltInForLanguage (lang : String) : Option Rule :=
  (langTable.find? (fun p => p.1.contains lang)).map (·.2)

/-- catalog/poplural/rule.go:65-73 `generateFormFunc` (the root of a parsed formula is never nil). -/
def generateFormFunc (forms : Forms) : Int → Int := fun n => evaluate forms.root n

/-- catalog/poplural/rule.go:46-63 `Parse`. -/
def parseRule (cs : List Char) : Except PErr Rule := do
  let parsed ← astParse cs
  match getBuiltInForRawRule (compileToString parsed) with
  | some r => .ok r
  | none => .ok ⟨parsed.nPlurals, generateFormFunc parsed⟩

end Verif.Model.PoPlural
