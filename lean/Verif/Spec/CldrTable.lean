import Verif.Spec.Cldr
/-!
# The published CLDR plural rules

The texts are those of the CLDR data as quoted in catalog/cldrplural/evaluation_gen_test.go (without
the samples), the categories and languages those of builtin_gen_test.go; `rules` is the same rule as a condition, and `published_text` below checks that the
condition is spelled like the text.
-/
namespace Verif.Spec.Cldr
open Verif.Cldr

structure Published where
  rules : List (Category × Cond)
  texts : List (List Char)

/-- catalog/cldrplural/evaluation_gen_test.go:15-15 (bm, bo, dz, hnj, id, ig ...). -/
def pub_bm : Published where
  rules := []
  texts := []

/-- catalog/cldrplural/evaluation_gen_test.go:27-34 (af, an, asa, az, bal, bem ...). -/
def pub_af : Published where
  rules := [
    (.one, [[⟨.n, none, false, [(1, none)]⟩]])]
  texts := [
    "n = 1".toList]

/-- catalog/cldrplural/evaluation_gen_test.go:46-53 (ak, bho, csw, guw, ln, mg ...). -/
def pub_ak : Published where
  rules := [
    (.one, [[⟨.n, none, false, [(0, some 1)]⟩]])]
  texts := [
    "n = 0..1".toList]

/-- catalog/cldrplural/evaluation_gen_test.go:65-72 (am, as, bn, doi, fa, gu ...). -/
def pub_am : Published where
  rules := [
    (.one, [[⟨.i, none, false, [(0, none)]⟩],
      [⟨.n, none, false, [(1, none)]⟩]])]
  texts := [
    "i = 0 or n = 1".toList]

/-- catalog/cldrplural/evaluation_gen_test.go:84-91 (ast, de, en, et, fi, fy ...). -/
def pub_ast : Published where
  rules := [
    (.one, [[⟨.i, none, false, [(1, none)]⟩, ⟨.v, none, false, [(0, none)]⟩]])]
  texts := [
    "i = 1 and v = 0".toList]

/-- catalog/cldrplural/evaluation_gen_test.go:103-110 (ceb, fil, tl). -/
def pub_ceb : Published where
  rules := [
    (.one, [[⟨.v, none, false, [(0, none)]⟩, ⟨.i, none, false, [(1, none), (2, none), (3, none)]⟩],
      [⟨.v, none, false, [(0, none)]⟩, ⟨.i, (some 10), true, [(4, none), (6, none), (9, none)]⟩],
      [⟨.v, none, true, [(0, none)]⟩, ⟨.f, (some 10), true, [(4, none), (6, none), (9, none)]⟩]])]
  texts := [
    "v = 0 and i = 1,2,3 or v = 0 and i % 10 != 4,6,9 or v != 0 and f % 10 != 4,6,9".toList]

/-- catalog/cldrplural/evaluation_gen_test.go:122-129 (da). -/
def pub_da : Published where
  rules := [
    (.one, [[⟨.n, none, false, [(1, none)]⟩],
      [⟨.t, none, true, [(0, none)]⟩, ⟨.i, none, false, [(0, none), (1, none)]⟩]])]
  texts := [
    "n = 1 or t != 0 and i = 0,1".toList]

/-- catalog/cldrplural/evaluation_gen_test.go:141-148 (ff, hy, kab). -/
def pub_ff : Published where
  rules := [
    (.one, [[⟨.i, none, false, [(0, none), (1, none)]⟩]])]
  texts := [
    "i = 0,1".toList]

/-- catalog/cldrplural/evaluation_gen_test.go:160-167 (is). -/
def pub_is : Published where
  rules := [
    (.one, [[⟨.t, none, false, [(0, none)]⟩, ⟨.i, (some 10), false, [(1, none)]⟩, ⟨.i, (some 100), true, [(11, none)]⟩],
      [⟨.t, (some 10), false, [(1, none)]⟩, ⟨.t, (some 100), true, [(11, none)]⟩]])]
  texts := [
    "t = 0 and i % 10 = 1 and i % 100 != 11 or t % 10 = 1 and t % 100 != 11".toList]

/-- catalog/cldrplural/evaluation_gen_test.go:179-186 (mk). -/
def pub_mk : Published where
  rules := [
    (.one, [[⟨.v, none, false, [(0, none)]⟩, ⟨.i, (some 10), false, [(1, none)]⟩, ⟨.i, (some 100), true, [(11, none)]⟩],
      [⟨.f, (some 10), false, [(1, none)]⟩, ⟨.f, (some 100), true, [(11, none)]⟩]])]
  texts := [
    "v = 0 and i % 10 = 1 and i % 100 != 11 or f % 10 = 1 and f % 100 != 11".toList]

/-- catalog/cldrplural/evaluation_gen_test.go:198-205 (si). -/
def pub_si : Published where
  rules := [
    (.one, [[⟨.n, none, false, [(0, none), (1, none)]⟩],
      [⟨.i, none, false, [(0, none)]⟩, ⟨.f, none, false, [(1, none)]⟩]])]
  texts := [
    "n = 0,1 or i = 0 and f = 1".toList]

/-- catalog/cldrplural/evaluation_gen_test.go:217-224 (tzm). -/
def pub_tzm : Published where
  rules := [
    (.one, [[⟨.n, none, false, [(0, some 1)]⟩],
      [⟨.n, none, false, [(11, some 99)]⟩]])]
  texts := [
    "n = 0..1 or n = 11..99".toList]

/-- catalog/cldrplural/evaluation_gen_test.go:236-250 (blo, ksh). -/
def pub_blo : Published where
  rules := [
    (.zero, [[⟨.n, none, false, [(0, none)]⟩]]),
    (.one, [[⟨.n, none, false, [(1, none)]⟩]])]
  texts := [
    "n = 0".toList,
    "n = 1".toList]

/-- catalog/cldrplural/evaluation_gen_test.go:262-276 (bs, hr, sh, sr, sr-Latn). -/
def pub_bs : Published where
  rules := [
    (.one, [[⟨.v, none, false, [(0, none)]⟩, ⟨.i, (some 10), false, [(1, none)]⟩, ⟨.i, (some 100), true, [(11, none)]⟩],
      [⟨.f, (some 10), false, [(1, none)]⟩, ⟨.f, (some 100), true, [(11, none)]⟩]]),
    (.few, [[⟨.v, none, false, [(0, none)]⟩, ⟨.i, (some 10), false, [(2, some 4)]⟩, ⟨.i, (some 100), true, [(12, some 14)]⟩],
      [⟨.f, (some 10), false, [(2, some 4)]⟩, ⟨.f, (some 100), true, [(12, some 14)]⟩]])]
  texts := [
    "v = 0 and i % 10 = 1 and i % 100 != 11 or f % 10 = 1 and f % 100 != 11".toList,
    "v = 0 and i % 10 = 2..4 and i % 100 != 12..14 or f % 10 = 2..4 and f % 100 != 12..14".toList]

/-- catalog/cldrplural/evaluation_gen_test.go:288-302 (ca, it, lld, pt-PT, scn, vec). -/
def pub_ca : Published where
  rules := [
    (.one, [[⟨.i, none, false, [(1, none)]⟩, ⟨.v, none, false, [(0, none)]⟩]]),
    (.many, [[⟨.e, none, false, [(0, none)]⟩, ⟨.i, none, true, [(0, none)]⟩, ⟨.i, (some 1000000), false, [(0, none)]⟩, ⟨.v, none, false, [(0, none)]⟩],
      [⟨.e, none, true, [(0, some 5)]⟩]])]
  texts := [
    "i = 1 and v = 0".toList,
    "e = 0 and i != 0 and i % 1000000 = 0 and v = 0 or e != 0..5".toList]

/-- catalog/cldrplural/evaluation_gen_test.go:314-328 (es). -/
def pub_es : Published where
  rules := [
    (.one, [[⟨.n, none, false, [(1, none)]⟩]]),
    (.many, [[⟨.e, none, false, [(0, none)]⟩, ⟨.i, none, true, [(0, none)]⟩, ⟨.i, (some 1000000), false, [(0, none)]⟩, ⟨.v, none, false, [(0, none)]⟩],
      [⟨.e, none, true, [(0, some 5)]⟩]])]
  texts := [
    "n = 1".toList,
    "e = 0 and i != 0 and i % 1000000 = 0 and v = 0 or e != 0..5".toList]

/-- catalog/cldrplural/evaluation_gen_test.go:340-354 (fr). -/
def pub_fr : Published where
  rules := [
    (.one, [[⟨.i, none, false, [(0, none), (1, none)]⟩]]),
    (.many, [[⟨.e, none, false, [(0, none)]⟩, ⟨.i, none, true, [(0, none)]⟩, ⟨.i, (some 1000000), false, [(0, none)]⟩, ⟨.v, none, false, [(0, none)]⟩],
      [⟨.e, none, true, [(0, some 5)]⟩]])]
  texts := [
    "i = 0,1".toList,
    "e = 0 and i != 0 and i % 1000000 = 0 and v = 0 or e != 0..5".toList]

/-- catalog/cldrplural/evaluation_gen_test.go:366-380 (he). -/
def pub_he : Published where
  rules := [
    (.one, [[⟨.i, none, false, [(1, none)]⟩, ⟨.v, none, false, [(0, none)]⟩],
      [⟨.i, none, false, [(0, none)]⟩, ⟨.v, none, true, [(0, none)]⟩]]),
    (.two, [[⟨.i, none, false, [(2, none)]⟩, ⟨.v, none, false, [(0, none)]⟩]])]
  texts := [
    "i = 1 and v = 0 or i = 0 and v != 0".toList,
    "i = 2 and v = 0".toList]

/-- catalog/cldrplural/evaluation_gen_test.go:392-406 (iu, naq, sat, se, sma, smi ...). -/
def pub_iu : Published where
  rules := [
    (.one, [[⟨.n, none, false, [(1, none)]⟩]]),
    (.two, [[⟨.n, none, false, [(2, none)]⟩]])]
  texts := [
    "n = 1".toList,
    "n = 2".toList]

/-- catalog/cldrplural/evaluation_gen_test.go:418-432 (lag). -/
def pub_lag : Published where
  rules := [
    (.zero, [[⟨.n, none, false, [(0, none)]⟩]]),
    (.one, [[⟨.i, none, false, [(0, none), (1, none)]⟩, ⟨.n, none, true, [(0, none)]⟩]])]
  texts := [
    "n = 0".toList,
    "i = 0,1 and n != 0".toList]

/-- catalog/cldrplural/evaluation_gen_test.go:444-458 (lv, prg). -/
def pub_lv : Published where
  rules := [
    (.zero, [[⟨.n, (some 10), false, [(0, none)]⟩],
      [⟨.n, (some 100), false, [(11, some 19)]⟩],
      [⟨.v, none, false, [(2, none)]⟩, ⟨.f, (some 100), false, [(11, some 19)]⟩]]),
    (.one, [[⟨.n, (some 10), false, [(1, none)]⟩, ⟨.n, (some 100), true, [(11, none)]⟩],
      [⟨.v, none, false, [(2, none)]⟩, ⟨.f, (some 10), false, [(1, none)]⟩, ⟨.f, (some 100), true, [(11, none)]⟩],
      [⟨.v, none, true, [(2, none)]⟩, ⟨.f, (some 10), false, [(1, none)]⟩]])]
  texts := [
    "n % 10 = 0 or n % 100 = 11..19 or v = 2 and f % 100 = 11..19".toList,
    "n % 10 = 1 and n % 100 != 11 or v = 2 and f % 10 = 1 and f % 100 != 11 or v != 2 and f % 10 = 1".toList]

/-- catalog/cldrplural/evaluation_gen_test.go:470-484 (mo, ro, ro-MD). -/
def pub_mo : Published where
  rules := [
    (.one, [[⟨.i, none, false, [(1, none)]⟩, ⟨.v, none, false, [(0, none)]⟩]]),
    (.few, [[⟨.v, none, true, [(0, none)]⟩],
      [⟨.n, none, false, [(0, none)]⟩],
      [⟨.n, none, true, [(1, none)]⟩, ⟨.n, (some 100), false, [(1, some 19)]⟩]])]
  texts := [
    "i = 1 and v = 0".toList,
    "v != 0 or n = 0 or n != 1 and n % 100 = 1..19".toList]

/-- catalog/cldrplural/evaluation_gen_test.go:496-510 (pt). -/
def pub_pt : Published where
  rules := [
    (.one, [[⟨.i, none, false, [(0, some 1)]⟩]]),
    (.many, [[⟨.e, none, false, [(0, none)]⟩, ⟨.i, none, true, [(0, none)]⟩, ⟨.i, (some 1000000), false, [(0, none)]⟩, ⟨.v, none, false, [(0, none)]⟩],
      [⟨.e, none, true, [(0, some 5)]⟩]])]
  texts := [
    "i = 0..1".toList,
    "e = 0 and i != 0 and i % 1000000 = 0 and v = 0 or e != 0..5".toList]

/-- catalog/cldrplural/evaluation_gen_test.go:522-536 (shi). -/
def pub_shi : Published where
  rules := [
    (.one, [[⟨.i, none, false, [(0, none)]⟩],
      [⟨.n, none, false, [(1, none)]⟩]]),
    (.few, [[⟨.n, none, false, [(2, some 10)]⟩]])]
  texts := [
    "i = 0 or n = 1".toList,
    "n = 2..10".toList]

/-- catalog/cldrplural/evaluation_gen_test.go:548-569 (be). -/
def pub_be : Published where
  rules := [
    (.one, [[⟨.n, (some 10), false, [(1, none)]⟩, ⟨.n, (some 100), true, [(11, none)]⟩]]),
    (.few, [[⟨.n, (some 10), false, [(2, some 4)]⟩, ⟨.n, (some 100), true, [(12, some 14)]⟩]]),
    (.many, [[⟨.n, (some 10), false, [(0, none)]⟩],
      [⟨.n, (some 10), false, [(5, some 9)]⟩],
      [⟨.n, (some 100), false, [(11, some 14)]⟩]])]
  texts := [
    "n % 10 = 1 and n % 100 != 11".toList,
    "n % 10 = 2..4 and n % 100 != 12..14".toList,
    "n % 10 = 0 or n % 10 = 5..9 or n % 100 = 11..14".toList]

/-- catalog/cldrplural/evaluation_gen_test.go:581-602 (cs, sk). -/
def pub_cs : Published where
  rules := [
    (.one, [[⟨.i, none, false, [(1, none)]⟩, ⟨.v, none, false, [(0, none)]⟩]]),
    (.few, [[⟨.i, none, false, [(2, some 4)]⟩, ⟨.v, none, false, [(0, none)]⟩]]),
    (.many, [[⟨.v, none, true, [(0, none)]⟩]])]
  texts := [
    "i = 1 and v = 0".toList,
    "i = 2..4 and v = 0".toList,
    "v != 0".toList]

/-- catalog/cldrplural/evaluation_gen_test.go:614-635 (dsb, hsb). -/
def pub_dsb : Published where
  rules := [
    (.one, [[⟨.v, none, false, [(0, none)]⟩, ⟨.i, (some 100), false, [(1, none)]⟩],
      [⟨.f, (some 100), false, [(1, none)]⟩]]),
    (.two, [[⟨.v, none, false, [(0, none)]⟩, ⟨.i, (some 100), false, [(2, none)]⟩],
      [⟨.f, (some 100), false, [(2, none)]⟩]]),
    (.few, [[⟨.v, none, false, [(0, none)]⟩, ⟨.i, (some 100), false, [(3, some 4)]⟩],
      [⟨.f, (some 100), false, [(3, some 4)]⟩]])]
  texts := [
    "v = 0 and i % 100 = 1 or f % 100 = 1".toList,
    "v = 0 and i % 100 = 2 or f % 100 = 2".toList,
    "v = 0 and i % 100 = 3..4 or f % 100 = 3..4".toList]

/-- catalog/cldrplural/evaluation_gen_test.go:647-668 (gd). -/
def pub_gd : Published where
  rules := [
    (.one, [[⟨.n, none, false, [(1, none), (11, none)]⟩]]),
    (.two, [[⟨.n, none, false, [(2, none), (12, none)]⟩]]),
    (.few, [[⟨.n, none, false, [(3, some 10), (13, some 19)]⟩]])]
  texts := [
    "n = 1,11".toList,
    "n = 2,12".toList,
    "n = 3..10,13..19".toList]

/-- catalog/cldrplural/evaluation_gen_test.go:680-701 (lt). -/
def pub_lt : Published where
  rules := [
    (.one, [[⟨.n, (some 10), false, [(1, none)]⟩, ⟨.n, (some 100), true, [(11, some 19)]⟩]]),
    (.few, [[⟨.n, (some 10), false, [(2, some 9)]⟩, ⟨.n, (some 100), true, [(11, some 19)]⟩]]),
    (.many, [[⟨.f, none, true, [(0, none)]⟩]])]
  texts := [
    "n % 10 = 1 and n % 100 != 11..19".toList,
    "n % 10 = 2..9 and n % 100 != 11..19".toList,
    "f != 0".toList]

/-- catalog/cldrplural/evaluation_gen_test.go:713-734 (pl). -/
def pub_pl : Published where
  rules := [
    (.one, [[⟨.i, none, false, [(1, none)]⟩, ⟨.v, none, false, [(0, none)]⟩]]),
    (.few, [[⟨.v, none, false, [(0, none)]⟩, ⟨.i, (some 10), false, [(2, some 4)]⟩, ⟨.i, (some 100), true, [(12, some 14)]⟩]]),
    (.many, [[⟨.v, none, false, [(0, none)]⟩, ⟨.i, none, true, [(1, none)]⟩, ⟨.i, (some 10), false, [(0, some 1)]⟩],
      [⟨.v, none, false, [(0, none)]⟩, ⟨.i, (some 10), false, [(5, some 9)]⟩],
      [⟨.v, none, false, [(0, none)]⟩, ⟨.i, (some 100), false, [(12, some 14)]⟩]])]
  texts := [
    "i = 1 and v = 0".toList,
    "v = 0 and i % 10 = 2..4 and i % 100 != 12..14".toList,
    "v = 0 and i != 1 and i % 10 = 0..1 or v = 0 and i % 10 = 5..9 or v = 0 and i % 100 = 12..14".toList]

/-- catalog/cldrplural/evaluation_gen_test.go:746-767 (ru, uk). -/
def pub_ru : Published where
  rules := [
    (.one, [[⟨.v, none, false, [(0, none)]⟩, ⟨.i, (some 10), false, [(1, none)]⟩, ⟨.i, (some 100), true, [(11, none)]⟩]]),
    (.few, [[⟨.v, none, false, [(0, none)]⟩, ⟨.i, (some 10), false, [(2, some 4)]⟩, ⟨.i, (some 100), true, [(12, some 14)]⟩]]),
    (.many, [[⟨.v, none, false, [(0, none)]⟩, ⟨.i, (some 10), false, [(0, none)]⟩],
      [⟨.v, none, false, [(0, none)]⟩, ⟨.i, (some 10), false, [(5, some 9)]⟩],
      [⟨.v, none, false, [(0, none)]⟩, ⟨.i, (some 100), false, [(11, some 14)]⟩]])]
  texts := [
    "v = 0 and i % 10 = 1 and i % 100 != 11".toList,
    "v = 0 and i % 10 = 2..4 and i % 100 != 12..14".toList,
    "v = 0 and i % 10 = 0 or v = 0 and i % 10 = 5..9 or v = 0 and i % 100 = 11..14".toList]

/-- catalog/cldrplural/evaluation_gen_test.go:779-800 (sl). -/
def pub_sl : Published where
  rules := [
    (.one, [[⟨.v, none, false, [(0, none)]⟩, ⟨.i, (some 100), false, [(1, none)]⟩]]),
    (.two, [[⟨.v, none, false, [(0, none)]⟩, ⟨.i, (some 100), false, [(2, none)]⟩]]),
    (.few, [[⟨.v, none, false, [(0, none)]⟩, ⟨.i, (some 100), false, [(3, some 4)]⟩],
      [⟨.v, none, true, [(0, none)]⟩]])]
  texts := [
    "v = 0 and i % 100 = 1".toList,
    "v = 0 and i % 100 = 2".toList,
    "v = 0 and i % 100 = 3..4 or v != 0".toList]

/-- catalog/cldrplural/evaluation_gen_test.go:812-840 (br). -/
def pub_br : Published where
  rules := [
    (.one, [[⟨.n, (some 10), false, [(1, none)]⟩, ⟨.n, (some 100), true, [(11, none), (71, none), (91, none)]⟩]]),
    (.two, [[⟨.n, (some 10), false, [(2, none)]⟩, ⟨.n, (some 100), true, [(12, none), (72, none), (92, none)]⟩]]),
    (.few, [[⟨.n, (some 10), false, [(3, some 4), (9, none)]⟩, ⟨.n, (some 100), true, [(10, some 19), (70, some 79), (90, some 99)]⟩]]),
    (.many, [[⟨.n, none, true, [(0, none)]⟩, ⟨.n, (some 1000000), false, [(0, none)]⟩]])]
  texts := [
    "n % 10 = 1 and n % 100 != 11,71,91".toList,
    "n % 10 = 2 and n % 100 != 12,72,92".toList,
    "n % 10 = 3..4,9 and n % 100 != 10..19,70..79,90..99".toList,
    "n != 0 and n % 1000000 = 0".toList]

/-- catalog/cldrplural/evaluation_gen_test.go:852-880 (ga). -/
def pub_ga : Published where
  rules := [
    (.one, [[⟨.n, none, false, [(1, none)]⟩]]),
    (.two, [[⟨.n, none, false, [(2, none)]⟩]]),
    (.few, [[⟨.n, none, false, [(3, some 6)]⟩]]),
    (.many, [[⟨.n, none, false, [(7, some 10)]⟩]])]
  texts := [
    "n = 1".toList,
    "n = 2".toList,
    "n = 3..6".toList,
    "n = 7..10".toList]

/-- catalog/cldrplural/evaluation_gen_test.go:892-920 (gv). -/
def pub_gv : Published where
  rules := [
    (.one, [[⟨.v, none, false, [(0, none)]⟩, ⟨.i, (some 10), false, [(1, none)]⟩]]),
    (.two, [[⟨.v, none, false, [(0, none)]⟩, ⟨.i, (some 10), false, [(2, none)]⟩]]),
    (.few, [[⟨.v, none, false, [(0, none)]⟩, ⟨.i, (some 100), false, [(0, none), (20, none), (40, none), (60, none), (80, none)]⟩]]),
    (.many, [[⟨.v, none, true, [(0, none)]⟩]])]
  texts := [
    "v = 0 and i % 10 = 1".toList,
    "v = 0 and i % 10 = 2".toList,
    "v = 0 and i % 100 = 0,20,40,60,80".toList,
    "v != 0".toList]

/-- catalog/cldrplural/evaluation_gen_test.go:932-960 (mt). -/
def pub_mt : Published where
  rules := [
    (.one, [[⟨.n, none, false, [(1, none)]⟩]]),
    (.two, [[⟨.n, none, false, [(2, none)]⟩]]),
    (.few, [[⟨.n, none, false, [(0, none)]⟩],
      [⟨.n, (some 100), false, [(3, some 10)]⟩]]),
    (.many, [[⟨.n, (some 100), false, [(11, some 19)]⟩]])]
  texts := [
    "n = 1".toList,
    "n = 2".toList,
    "n = 0 or n % 100 = 3..10".toList,
    "n % 100 = 11..19".toList]

/-- catalog/cldrplural/evaluation_gen_test.go:972-1007 (ar, ars). -/
def pub_ar : Published where
  rules := [
    (.zero, [[⟨.n, none, false, [(0, none)]⟩]]),
    (.one, [[⟨.n, none, false, [(1, none)]⟩]]),
    (.two, [[⟨.n, none, false, [(2, none)]⟩]]),
    (.few, [[⟨.n, (some 100), false, [(3, some 10)]⟩]]),
    (.many, [[⟨.n, (some 100), false, [(11, some 99)]⟩]])]
  texts := [
    "n = 0".toList,
    "n = 1".toList,
    "n = 2".toList,
    "n % 100 = 3..10".toList,
    "n % 100 = 11..99".toList]

/-- catalog/cldrplural/evaluation_gen_test.go:1019-1054 (cy). -/
def pub_cy : Published where
  rules := [
    (.zero, [[⟨.n, none, false, [(0, none)]⟩]]),
    (.one, [[⟨.n, none, false, [(1, none)]⟩]]),
    (.two, [[⟨.n, none, false, [(2, none)]⟩]]),
    (.few, [[⟨.n, none, false, [(3, none)]⟩]]),
    (.many, [[⟨.n, none, false, [(6, none)]⟩]])]
  texts := [
    "n = 0".toList,
    "n = 1".toList,
    "n = 2".toList,
    "n = 3".toList,
    "n = 6".toList]

/-- catalog/cldrplural/evaluation_gen_test.go:1066-1101 (kw). -/
def pub_kw : Published where
  rules := [
    (.zero, [[⟨.n, none, false, [(0, none)]⟩]]),
    (.one, [[⟨.n, none, false, [(1, none)]⟩]]),
    (.two, [[⟨.n, (some 100), false, [(2, none), (22, none), (42, none), (62, none), (82, none)]⟩],
      [⟨.n, (some 1000), false, [(0, none)]⟩, ⟨.n, (some 100000), false, [(1000, some 20000), (40000, none), (60000, none), (80000, none)]⟩],
      [⟨.n, none, true, [(0, none)]⟩, ⟨.n, (some 1000000), false, [(100000, none)]⟩]]),
    (.few, [[⟨.n, (some 100), false, [(3, none), (23, none), (43, none), (63, none), (83, none)]⟩]]),
    (.many, [[⟨.n, none, true, [(1, none)]⟩, ⟨.n, (some 100), false, [(1, none), (21, none), (41, none), (61, none), (81, none)]⟩]])]
  texts := [
    "n = 0".toList,
    "n = 1".toList,
    "n % 100 = 2,22,42,62,82 or n % 1000 = 0 and n % 100000 = 1000..20000,40000,60000,80000 or n != 0 and n % 1000000 = 100000".toList,
    "n % 100 = 3,23,43,63,83".toList,
    "n != 1 and n % 100 = 1,21,41,61,81".toList]

/-- All published rule sets. -/
def published : List Published := [pub_bm, pub_af, pub_ak, pub_am, pub_ast, pub_ceb,
  pub_da, pub_ff, pub_is, pub_mk, pub_si, pub_tzm,
  pub_blo, pub_bs, pub_ca, pub_es, pub_fr, pub_he,
  pub_iu, pub_lag, pub_lv, pub_mo, pub_pt, pub_shi,
  pub_be, pub_cs, pub_dsb, pub_gd, pub_lt, pub_pl,
  pub_ru, pub_sl, pub_br, pub_ga, pub_gv, pub_mt,
  pub_ar, pub_cy, pub_kw]

/-- The languages of each rule set as BCP 47 tags (catalog/cldrplural/builtin_gen_test.go). -/
def publishedFor : List (List String × Published) := [
  (["bm", "bo", "dz", "hnj", "id", "ig", "ii", "ja", "jbo", "jv", "jw", "kde", "kea", "km",
    "ko", "lkt", "lo", "ms", "my", "nqo", "osa", "sah", "ses", "sg", "su", "th", "to", "tpi",
    "und", "vi", "wo", "yo", "yue", "zh"], pub_bm),
  (["af", "an", "asa", "az", "bal", "bem", "bez", "bg", "brx", "ce", "cgg", "chr", "ckb", "dv",
    "ee", "el", "eo", "eu", "fo", "fur", "gsw", "ha", "haw", "hu", "jgo", "jmc", "ka", "kaj",
    "kcg", "kk", "kkj", "kl", "ks", "ksb", "ku", "ky", "lb", "lg", "mas", "mgo", "ml", "mn",
    "mr", "nah", "nb", "nd", "ne", "nn", "nnh", "no", "nr", "ny", "nyn", "om", "or", "os",
    "pap", "ps", "rm", "rof", "rwk", "saq", "sd", "sdh", "seh", "sn", "so", "sq", "ss", "ssy",
    "st", "syr", "ta", "te", "teo", "tig", "tk", "tn", "tr", "ts", "ug", "uz", "ve", "vo",
    "vun", "wae", "xh", "xog"], pub_af),
  (["ak", "bho", "csw", "guw", "ln", "mg", "nso", "pa", "ti", "wa"], pub_ak),
  (["am", "as", "bn", "doi", "fa", "gu", "hi", "kn", "pcm", "zu"], pub_am),
  (["ast", "de", "en", "et", "fi", "fy", "gl", "ia", "io", "lij", "nl", "sc", "sv", "sw", "ur",
    "yi"], pub_ast),
  (["ceb", "fil", "tl"], pub_ceb),
  (["da"], pub_da),
  (["ff", "hy", "kab"], pub_ff),
  (["is"], pub_is),
  (["mk"], pub_mk),
  (["si"], pub_si),
  (["tzm"], pub_tzm),
  (["blo", "ksh"], pub_blo),
  (["bs", "hr", "sh", "sr"], pub_bs),
  (["ca", "it", "lld", "pt-PT", "scn", "vec"], pub_ca),
  (["es"], pub_es),
  (["fr"], pub_fr),
  (["he"], pub_he),
  (["iu", "naq", "sat", "se", "sma", "smi", "smj", "smn", "sms"], pub_iu),
  (["lag"], pub_lag),
  (["lv", "prg"], pub_lv),
  (["mo", "ro"], pub_mo),
  (["pt"], pub_pt),
  (["shi"], pub_shi),
  (["be"], pub_be),
  (["cs", "sk"], pub_cs),
  (["dsb", "hsb"], pub_dsb),
  (["gd"], pub_gd),
  (["lt"], pub_lt),
  (["pl"], pub_pl),
  (["ru", "uk"], pub_ru),
  (["sl"], pub_sl),
  (["br"], pub_br),
  (["ga"], pub_ga),
  (["gv"], pub_gv),
  (["mt"], pub_mt),
  (["ar", "ars"], pub_ar),
  (["cy"], pub_cy),
  (["kw"], pub_kw)]

/-- Each condition is spelled like the published text. -/
theorem published_text : ∀ p ∈ published, p.rules.map (fun r => Cond.text r.2) = p.texts := by
  decide +kernel

end Verif.Spec.Cldr
