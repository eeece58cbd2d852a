import Verif.Model.Cldr.Evaluation
/-!
# catalog/cldrplural/builtin_gen.go, builtin.go

Transcribed from the Go file by a script: one definition per rule set, same order, same conditions.
-/
namespace Verif.Model.Cldr
open Verif.Go Verif.Cldr

/-- catalog/cldrplural/cldr.go:44-49 `RuleSet`. -/
structure RuleSet where
  categories : List Category
  form : Operands → Category

/-- catalog/cldrplural/builtin_gen.go:95-103. -/
def rs_bm : RuleSet where
  categories := [.other]
  form := fun _ =>
    .other

/-- catalog/cldrplural/builtin_gen.go:106-118. -/
def rs_af : RuleSet where
  categories := [.one, .other]
  form := fun ops =>
    if ops.n.eqInt 1 = true then .one else
    .other

/-- catalog/cldrplural/builtin_gen.go:121-133. -/
def rs_ak : RuleSet where
  categories := [.one, .other]
  form := fun ops =>
    if isFloatInRange ops.n [(0, 1)] = true then .one else
    .other

/-- catalog/cldrplural/builtin_gen.go:136-148. -/
def rs_am : RuleSet where
  categories := [.one, .other]
  form := fun ops =>
    if ops.i = 0 ∨ ops.n.eqInt 1 = true then .one else
    .other

/-- catalog/cldrplural/builtin_gen.go:151-163. -/
def rs_ast : RuleSet where
  categories := [.one, .other]
  form := fun ops =>
    if ops.i = 1 ∧ ops.v = 0 then .one else
    .other

/-- catalog/cldrplural/builtin_gen.go:166-178. -/
def rs_ceb : RuleSet where
  categories := [.one, .other]
  form := fun ops =>
    if ops.v = 0 ∧ (ops.i = 1 ∨ ops.i = 2 ∨ ops.i = 3) ∨ ops.v = 0 ∧ ¬ (ops.i.tmod 10 ∈ [4, 6, 9]) ∨ ops.v ≠ 0 ∧ ¬ (ops.f.tmod 10 ∈ [4, 6, 9]) then .one else
    .other

/-- catalog/cldrplural/builtin_gen.go:181-193. -/
def rs_da : RuleSet where
  categories := [.one, .other]
  form := fun ops =>
    if ops.n.eqInt 1 = true ∨ ops.t ≠ 0 ∧ (ops.i = 0 ∨ ops.i = 1) then .one else
    .other

/-- catalog/cldrplural/builtin_gen.go:196-208. -/
def rs_ff : RuleSet where
  categories := [.one, .other]
  form := fun ops =>
    if ops.i = 0 ∨ ops.i = 1 then .one else
    .other

/-- catalog/cldrplural/builtin_gen.go:211-223. -/
def rs_is : RuleSet where
  categories := [.one, .other]
  form := fun ops =>
    if ops.t = 0 ∧ ops.i.tmod 10 = 1 ∧ ops.i.tmod 100 ≠ 11 ∨ ops.t.tmod 10 = 1 ∧ ops.t.tmod 100 ≠ 11 then .one else
    .other

/-- catalog/cldrplural/builtin_gen.go:226-238. -/
def rs_mk : RuleSet where
  categories := [.one, .other]
  form := fun ops =>
    if ops.v = 0 ∧ ops.i.tmod 10 = 1 ∧ ops.i.tmod 100 ≠ 11 ∨ ops.f.tmod 10 = 1 ∧ ops.f.tmod 100 ≠ 11 then .one else
    .other

/-- catalog/cldrplural/builtin_gen.go:241-253. -/
def rs_si : RuleSet where
  categories := [.one, .other]
  form := fun ops =>
    if isFloatOneOf ops.n [0, 1] = true ∨ ops.i = 0 ∧ ops.f = 1 then .one else
    .other

/-- catalog/cldrplural/builtin_gen.go:256-268. -/
def rs_tzm : RuleSet where
  categories := [.one, .other]
  form := fun ops =>
    if isFloatInRange ops.n [(0, 1)] = true ∨ isFloatInRange ops.n [(11, 99)] = true then .one else
    .other

/-- catalog/cldrplural/builtin_gen.go:271-288. -/
def rs_blo : RuleSet where
  categories := [.zero, .one, .other]
  form := fun ops =>
    if ops.n.eqInt 0 = true then .zero else
    if ops.n.eqInt 1 = true then .one else
    .other

/-- catalog/cldrplural/builtin_gen.go:291-308. -/
def rs_bs : RuleSet where
  categories := [.one, .few, .other]
  form := fun ops =>
    if ops.v = 0 ∧ ops.i.tmod 10 = 1 ∧ ops.i.tmod 100 ≠ 11 ∨ ops.f.tmod 10 = 1 ∧ ops.f.tmod 100 ≠ 11 then .one else
    if ops.v = 0 ∧ (ops.i.tmod 10 ≥ 2 ∧ ops.i.tmod 10 ≤ 4) ∧ ¬ (ops.i.tmod 100 ≥ 12 ∧ ops.i.tmod 100 ≤ 14) ∨ (ops.f.tmod 10 ≥ 2 ∧ ops.f.tmod 10 ≤ 4) ∧ ¬ (ops.f.tmod 100 ≥ 12 ∧ ops.f.tmod 100 ≤ 14) then .few else
    .other

/-- catalog/cldrplural/builtin_gen.go:311-328. -/
def rs_ca : RuleSet where
  categories := [.one, .many, .other]
  form := fun ops =>
    if ops.i = 1 ∧ ops.v = 0 then .one else
    if ops.c = 0 ∧ ops.i ≠ 0 ∧ ops.i.tmod 1000000 = 0 ∧ ops.v = 0 ∨ ¬ (ops.c ≥ 0 ∧ ops.c ≤ 5) then .many else
    .other

/-- catalog/cldrplural/builtin_gen.go:331-348. -/
def rs_es : RuleSet where
  categories := [.one, .many, .other]
  form := fun ops =>
    if ops.n.eqInt 1 = true then .one else
    if ops.c = 0 ∧ ops.i ≠ 0 ∧ ops.i.tmod 1000000 = 0 ∧ ops.v = 0 ∨ ¬ (ops.c ≥ 0 ∧ ops.c ≤ 5) then .many else
    .other

/-- catalog/cldrplural/builtin_gen.go:351-368. -/
def rs_fr : RuleSet where
  categories := [.one, .many, .other]
  form := fun ops =>
    if ops.i = 0 ∨ ops.i = 1 then .one else
    if ops.c = 0 ∧ ops.i ≠ 0 ∧ ops.i.tmod 1000000 = 0 ∧ ops.v = 0 ∨ ¬ (ops.c ≥ 0 ∧ ops.c ≤ 5) then .many else
    .other

/-- catalog/cldrplural/builtin_gen.go:371-388. -/
def rs_he : RuleSet where
  categories := [.one, .two, .other]
  form := fun ops =>
    if ops.i = 1 ∧ ops.v = 0 ∨ ops.i = 0 ∧ ops.v ≠ 0 then .one else
    if ops.i = 2 ∧ ops.v = 0 then .two else
    .other

/-- catalog/cldrplural/builtin_gen.go:391-408. -/
def rs_iu : RuleSet where
  categories := [.one, .two, .other]
  form := fun ops =>
    if ops.n.eqInt 1 = true then .one else
    if ops.n.eqInt 2 = true then .two else
    .other

/-- catalog/cldrplural/builtin_gen.go:411-428. -/
def rs_lag : RuleSet where
  categories := [.zero, .one, .other]
  form := fun ops =>
    if ops.n.eqInt 0 = true then .zero else
    if (ops.i = 0 ∨ ops.i = 1) ∧ ops.n.eqInt 0 = false then .one else
    .other

/-- catalog/cldrplural/builtin_gen.go:431-448. -/
def rs_lv : RuleSet where
  categories := [.zero, .one, .other]
  form := fun ops =>
    if (ops.n.mod 10).eqInt 0 = true ∨ isFloatInRange (ops.n.mod 100) [(11, 19)] = true ∨ ops.v = 2 ∧ (ops.f.tmod 100 ≥ 11 ∧ ops.f.tmod 100 ≤ 19) then .zero else
    if (ops.n.mod 10).eqInt 1 = true ∧ (ops.n.mod 100).eqInt 11 = false ∨ ops.v = 2 ∧ ops.f.tmod 10 = 1 ∧ ops.f.tmod 100 ≠ 11 ∨ ops.v ≠ 2 ∧ ops.f.tmod 10 = 1 then .one else
    .other

/-- catalog/cldrplural/builtin_gen.go:451-468. -/
def rs_mo : RuleSet where
  categories := [.one, .few, .other]
  form := fun ops =>
    if ops.i = 1 ∧ ops.v = 0 then .one else
    if ops.v ≠ 0 ∨ ops.n.eqInt 0 = true ∨ ops.n.eqInt 1 = false ∧ isFloatInRange (ops.n.mod 100) [(1, 19)] = true then .few else
    .other

/-- catalog/cldrplural/builtin_gen.go:471-488. -/
def rs_pt : RuleSet where
  categories := [.one, .many, .other]
  form := fun ops =>
    if ops.i ≥ 0 ∧ ops.i ≤ 1 then .one else
    if ops.c = 0 ∧ ops.i ≠ 0 ∧ ops.i.tmod 1000000 = 0 ∧ ops.v = 0 ∨ ¬ (ops.c ≥ 0 ∧ ops.c ≤ 5) then .many else
    .other

/-- catalog/cldrplural/builtin_gen.go:491-508. -/
def rs_shi : RuleSet where
  categories := [.one, .few, .other]
  form := fun ops =>
    if ops.i = 0 ∨ ops.n.eqInt 1 = true then .one else
    if isFloatInRange ops.n [(2, 10)] = true then .few else
    .other

/-- catalog/cldrplural/builtin_gen.go:511-533. -/
def rs_be : RuleSet where
  categories := [.one, .few, .many, .other]
  form := fun ops =>
    if (ops.n.mod 10).eqInt 1 = true ∧ (ops.n.mod 100).eqInt 11 = false then .one else
    if isFloatInRange (ops.n.mod 10) [(2, 4)] = true ∧ ¬ (isFloatInRange (ops.n.mod 100) [(12, 14)] = true) then .few else
    if (ops.n.mod 10).eqInt 0 = true ∨ isFloatInRange (ops.n.mod 10) [(5, 9)] = true ∨ isFloatInRange (ops.n.mod 100) [(11, 14)] = true then .many else
    .other

/-- catalog/cldrplural/builtin_gen.go:536-558. -/
def rs_cs : RuleSet where
  categories := [.one, .few, .many, .other]
  form := fun ops =>
    if ops.i = 1 ∧ ops.v = 0 then .one else
    if (ops.i ≥ 2 ∧ ops.i ≤ 4) ∧ ops.v = 0 then .few else
    if ops.v ≠ 0 then .many else
    .other

/-- catalog/cldrplural/builtin_gen.go:561-583. -/
def rs_dsb : RuleSet where
  categories := [.one, .two, .few, .other]
  form := fun ops =>
    if ops.v = 0 ∧ ops.i.tmod 100 = 1 ∨ ops.f.tmod 100 = 1 then .one else
    if ops.v = 0 ∧ ops.i.tmod 100 = 2 ∨ ops.f.tmod 100 = 2 then .two else
    if ops.v = 0 ∧ (ops.i.tmod 100 ≥ 3 ∧ ops.i.tmod 100 ≤ 4) ∨ ops.f.tmod 100 ≥ 3 ∧ ops.f.tmod 100 ≤ 4 then .few else
    .other

/-- catalog/cldrplural/builtin_gen.go:586-608. -/
def rs_gd : RuleSet where
  categories := [.one, .two, .few, .other]
  form := fun ops =>
    if isFloatOneOf ops.n [1, 11] = true then .one else
    if isFloatOneOf ops.n [2, 12] = true then .two else
    if isFloatInRange ops.n [(3, 10), (13, 19)] = true then .few else
    .other

/-- catalog/cldrplural/builtin_gen.go:611-633. -/
def rs_lt : RuleSet where
  categories := [.one, .few, .many, .other]
  form := fun ops =>
    if (ops.n.mod 10).eqInt 1 = true ∧ ¬ (isFloatInRange (ops.n.mod 100) [(11, 19)] = true) then .one else
    if isFloatInRange (ops.n.mod 10) [(2, 9)] = true ∧ ¬ (isFloatInRange (ops.n.mod 100) [(11, 19)] = true) then .few else
    if ops.f ≠ 0 then .many else
    .other

/-- catalog/cldrplural/builtin_gen.go:636-658. -/
def rs_pl : RuleSet where
  categories := [.one, .few, .many, .other]
  form := fun ops =>
    if ops.i = 1 ∧ ops.v = 0 then .one else
    if ops.v = 0 ∧ (ops.i.tmod 10 ≥ 2 ∧ ops.i.tmod 10 ≤ 4) ∧ ¬ (ops.i.tmod 100 ≥ 12 ∧ ops.i.tmod 100 ≤ 14) then .few else
    if ops.v = 0 ∧ ops.i ≠ 1 ∧ (ops.i.tmod 10 ≥ 0 ∧ ops.i.tmod 10 ≤ 1) ∨ ops.v = 0 ∧ (ops.i.tmod 10 ≥ 5 ∧ ops.i.tmod 10 ≤ 9) ∨ ops.v = 0 ∧ (ops.i.tmod 100 ≥ 12 ∧ ops.i.tmod 100 ≤ 14) then .many else
    .other

/-- catalog/cldrplural/builtin_gen.go:661-683. -/
def rs_ru : RuleSet where
  categories := [.one, .few, .many, .other]
  form := fun ops =>
    if ops.v = 0 ∧ ops.i.tmod 10 = 1 ∧ ops.i.tmod 100 ≠ 11 then .one else
    if ops.v = 0 ∧ (ops.i.tmod 10 ≥ 2 ∧ ops.i.tmod 10 ≤ 4) ∧ ¬ (ops.i.tmod 100 ≥ 12 ∧ ops.i.tmod 100 ≤ 14) then .few else
    if ops.v = 0 ∧ ops.i.tmod 10 = 0 ∨ ops.v = 0 ∧ (ops.i.tmod 10 ≥ 5 ∧ ops.i.tmod 10 ≤ 9) ∨ ops.v = 0 ∧ (ops.i.tmod 100 ≥ 11 ∧ ops.i.tmod 100 ≤ 14) then .many else
    .other

/-- catalog/cldrplural/builtin_gen.go:686-708. -/
def rs_sl : RuleSet where
  categories := [.one, .two, .few, .other]
  form := fun ops =>
    if ops.v = 0 ∧ ops.i.tmod 100 = 1 then .one else
    if ops.v = 0 ∧ ops.i.tmod 100 = 2 then .two else
    if ops.v = 0 ∧ (ops.i.tmod 100 ≥ 3 ∧ ops.i.tmod 100 ≤ 4) ∨ ops.v ≠ 0 then .few else
    .other

/-- catalog/cldrplural/builtin_gen.go:711-738. -/
def rs_br : RuleSet where
  categories := [.one, .two, .few, .many, .other]
  form := fun ops =>
    if (ops.n.mod 10).eqInt 1 = true ∧ ¬ (isFloatOneOf (ops.n.mod 100) [11, 71, 91] = true) then .one else
    if (ops.n.mod 10).eqInt 2 = true ∧ ¬ (isFloatOneOf (ops.n.mod 100) [12, 72, 92] = true) then .two else
    if (isFloatInRange (ops.n.mod 10) [(3, 4)] = true ∨ (ops.n.mod 10).eqInt 9 = true) ∧ ¬ (isFloatInRange (ops.n.mod 100) [(10, 19), (70, 79), (90, 99)] = true) then .few else
    if ops.n.eqInt 0 = false ∧ (ops.n.mod 1000000).eqInt 0 = true then .many else
    .other

/-- catalog/cldrplural/builtin_gen.go:741-768. -/
def rs_ga : RuleSet where
  categories := [.one, .two, .few, .many, .other]
  form := fun ops =>
    if ops.n.eqInt 1 = true then .one else
    if ops.n.eqInt 2 = true then .two else
    if isFloatInRange ops.n [(3, 6)] = true then .few else
    if isFloatInRange ops.n [(7, 10)] = true then .many else
    .other

/-- catalog/cldrplural/builtin_gen.go:771-798. -/
def rs_gv : RuleSet where
  categories := [.one, .two, .few, .many, .other]
  form := fun ops =>
    if ops.v = 0 ∧ ops.i.tmod 10 = 1 then .one else
    if ops.v = 0 ∧ ops.i.tmod 10 = 2 then .two else
    if ops.v = 0 ∧ ops.i.tmod 100 ∈ [0, 20, 40, 60, 80] then .few else
    if ops.v ≠ 0 then .many else
    .other

/-- catalog/cldrplural/builtin_gen.go:801-828. -/
def rs_mt : RuleSet where
  categories := [.one, .two, .few, .many, .other]
  form := fun ops =>
    if ops.n.eqInt 1 = true then .one else
    if ops.n.eqInt 2 = true then .two else
    if ops.n.eqInt 0 = true ∨ isFloatInRange (ops.n.mod 100) [(3, 10)] = true then .few else
    if isFloatInRange (ops.n.mod 100) [(11, 19)] = true then .many else
    .other

/-- catalog/cldrplural/builtin_gen.go:831-863. -/
def rs_ar : RuleSet where
  categories := [.zero, .one, .two, .few, .many, .other]
  form := fun ops =>
    if ops.n.eqInt 0 = true then .zero else
    if ops.n.eqInt 1 = true then .one else
    if ops.n.eqInt 2 = true then .two else
    if isFloatInRange (ops.n.mod 100) [(3, 10)] = true then .few else
    if isFloatInRange (ops.n.mod 100) [(11, 99)] = true then .many else
    .other

/-- catalog/cldrplural/builtin_gen.go:866-898. -/
def rs_cy : RuleSet where
  categories := [.zero, .one, .two, .few, .many, .other]
  form := fun ops =>
    if ops.n.eqInt 0 = true then .zero else
    if ops.n.eqInt 1 = true then .one else
    if ops.n.eqInt 2 = true then .two else
    if ops.n.eqInt 3 = true then .few else
    if ops.n.eqInt 6 = true then .many else
    .other

/-- catalog/cldrplural/builtin_gen.go:901-933. -/
def rs_kw : RuleSet where
  categories := [.zero, .one, .two, .few, .many, .other]
  form := fun ops =>
    if ops.n.eqInt 0 = true then .zero else
    if ops.n.eqInt 1 = true then .one else
    if isFloatOneOf (ops.n.mod 100) [2, 22, 42, 62, 82] = true ∨ (ops.n.mod 1000).eqInt 0 = true ∧ (isFloatInRange (ops.n.mod 100000) [(1000, 20000)] = true ∨ isFloatOneOf (ops.n.mod 100000) [40000, 60000, 80000] = true) ∨ ops.n.eqInt 0 = false ∧ (ops.n.mod 1000000).eqInt 100000 = true then .two else
    if isFloatOneOf (ops.n.mod 100) [3, 23, 43, 63, 83] = true then .few else
    if ops.n.eqInt 1 = false ∧ isFloatOneOf (ops.n.mod 100) [1, 21, 41, 61, 81] = true then .many else
    .other

/-- catalog/cldrplural/builtin_gen.go:9-92 `getBuiltInForLanguage`: the cases in order. -/
def langTable : List (List String × RuleSet) := [
  (["bm", "bo", "dz", "hnj", "id", "ig", "ii", "ja", "jbo", "jv", "jw", "kde", "kea", "km",
    "ko", "lkt", "lo", "ms", "my", "nqo", "osa", "sah", "ses", "sg", "su", "th", "to", "tpi",
    "und", "vi", "wo", "yo", "yue", "zh"], rs_bm),
  (["af", "an", "asa", "az", "bal", "bem", "bez", "bg", "brx", "ce", "cgg", "chr", "ckb", "dv",
    "ee", "el", "eo", "eu", "fo", "fur", "gsw", "ha", "haw", "hu", "jgo", "jmc", "ka", "kaj",
    "kcg", "kk", "kkj", "kl", "ks", "ksb", "ku", "ky", "lb", "lg", "mas", "mgo", "ml", "mn",
    "mr", "nah", "nb", "nd", "ne", "nn", "nnh", "no", "nr", "ny", "nyn", "om", "or", "os",
    "pap", "ps", "rm", "rof", "rwk", "saq", "sd", "sdh", "seh", "sn", "so", "sq", "ss", "ssy",
    "st", "syr", "ta", "te", "teo", "tig", "tk", "tn", "tr", "ts", "ug", "uz", "ve", "vo",
    "vun", "wae", "xh", "xog"], rs_af),
  (["ak", "bho", "csw", "guw", "ln", "mg", "nso", "pa", "ti", "wa"], rs_ak),
  (["am", "as", "bn", "doi", "fa", "gu", "hi", "kn", "pcm", "zu"], rs_am),
  (["ast", "de", "en", "et", "fi", "fy", "gl", "ia", "io", "lij", "nl", "sc", "sv", "sw", "ur",
    "yi"], rs_ast),
  (["ceb", "fil", "tl"], rs_ceb),
  (["da"], rs_da),
  (["ff", "hy", "kab"], rs_ff),
  (["is"], rs_is),
  (["mk"], rs_mk),
  (["si"], rs_si),
  (["tzm"], rs_tzm),
  (["blo", "ksh"], rs_blo),
  (["bs", "hr", "sh", "sr", "sr-Latn"], rs_bs),
  (["ca", "it", "lld", "pt-PT", "scn", "vec"], rs_ca),
  (["es"], rs_es),
  (["fr"], rs_fr),
  (["he"], rs_he),
  (["iu", "naq", "sat", "se", "sma", "smi", "smj", "smn", "sms"], rs_iu),
  (["lag"], rs_lag),
  (["lv", "prg"], rs_lv),
  (["mo", "ro", "ro-MD"], rs_mo),
  (["pt"], rs_pt),
  (["shi"], rs_shi),
  (["be"], rs_be),
  (["cs", "sk"], rs_cs),
  (["dsb", "hsb"], rs_dsb),
  (["gd"], rs_gd),
  (["lt"], rs_lt),
  (["pl"], rs_pl),
  (["ru", "uk"], rs_ru),
  (["sl"], rs_sl),
  (["br"], rs_br),
  (["ga"], rs_ga),
  (["gv"], rs_gv),
  (["mt"], rs_mt),
  (["ar", "ars"], rs_ar),
  (["cy"], rs_cy),
  (["kw"], rs_kw)]

/-- catalog/cldrplural/builtin_gen.go:9-92 `getBuiltInForLanguage`. -/
def getBuiltInForLanguage (lang : String) : Option RuleSet :=
  (langTable.find? (fun p => p.1.contains lang)).map (·.2)

/-- catalog/cldrplural/builtin.go:10-28 `ForLanguage`.  The tag is represented by what the loop sees
of it and its parents up to the root: the text of the tag, and the text of its base language if that
is known with high confidence. -/
def forLanguage : List (String × Option String) → Option RuleSet × Bool
  | [] => (getBuiltInForLanguage "en", false)
  | (tag, base) :: parents =>
    match getBuiltInForLanguage tag with
    | some r => (some r, true)
    | none =>
      match base.bind getBuiltInForLanguage with
      | some r => (some r, true)
      | none => forLanguage parents

/-- catalog/cldrplural/cldr.go:51-58 `RuleSet.Evaluate`; `none` is the error, with category Other. -/
def RuleSet.evaluate (rs : RuleSet) (ops : Option Operands) : Option Category := ops.map rs.form

end Verif.Model.Cldr
