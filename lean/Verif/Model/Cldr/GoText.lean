import Verif.Go.Chars
import Verif.Model.Cldr.Category
/-!
# The generated conditions of catalog/cldrplural/builtin_gen.go, as text

Extracted from the Go file by a script: for every `FormFunc` the category and the text between `if`
and `{`, unchanged, in the order of the file.  Every function ends in `return Other` (the script
checks it).
-/
namespace Verif.Model.Cldr
open Verif.Cldr

/-- catalog/cldrplural/builtin_gen.go:98-101. -/
def goConds0 : List (Category × List Char) := []

/-- catalog/cldrplural/builtin_gen.go:109-116. -/
def goConds1 : List (Category × List Char) := [
  (.one, c!"ops.N == 1")]

/-- catalog/cldrplural/builtin_gen.go:124-131. -/
def goConds2 : List (Category × List Char) := [
  (.one, c!"isFloatInRange(ops.N, 0, 1)")]

/-- catalog/cldrplural/builtin_gen.go:139-146. -/
def goConds3 : List (Category × List Char) := [
  (.one, c!"ops.I == 0 || ops.N == 1")]

/-- catalog/cldrplural/builtin_gen.go:154-161. -/
def goConds4 : List (Category × List Char) := [
  (.one, c!"ops.I == 1 && ops.V == 0")]

/-- catalog/cldrplural/builtin_gen.go:169-176. -/
def goConds5 : List (Category × List Char) := [
  (.one, c!"ops.V == 0 && (ops.I == 1 || ops.I == 2 || ops.I == 3) || ops.V == 0 && !slices.Contains([]int64{4, 6, 9}, ops.I%10) || ops.V != 0 && !slices.Contains([]int64{4, 6, 9}, ops.F%10)")]

/-- catalog/cldrplural/builtin_gen.go:184-191. -/
def goConds6 : List (Category × List Char) := [
  (.one, c!"ops.N == 1 || ops.T != 0 && (ops.I == 0 || ops.I == 1)")]

/-- catalog/cldrplural/builtin_gen.go:199-206. -/
def goConds7 : List (Category × List Char) := [
  (.one, c!"ops.I == 0 || ops.I == 1")]

/-- catalog/cldrplural/builtin_gen.go:214-221. -/
def goConds8 : List (Category × List Char) := [
  (.one, c!"ops.T == 0 && ops.I%10 == 1 && ops.I%100 != 11 || ops.T%10 == 1 && ops.T%100 != 11")]

/-- catalog/cldrplural/builtin_gen.go:229-236. -/
def goConds9 : List (Category × List Char) := [
  (.one, c!"ops.V == 0 && ops.I%10 == 1 && ops.I%100 != 11 || ops.F%10 == 1 && ops.F%100 != 11")]

/-- catalog/cldrplural/builtin_gen.go:244-251. -/
def goConds10 : List (Category × List Char) := [
  (.one, c!"isFloatOneOf(ops.N, 0, 1) || ops.I == 0 && ops.F == 1")]

/-- catalog/cldrplural/builtin_gen.go:259-266. -/
def goConds11 : List (Category × List Char) := [
  (.one, c!"isFloatInRange(ops.N, 0, 1) || isFloatInRange(ops.N, 11, 99)")]

/-- catalog/cldrplural/builtin_gen.go:274-286. -/
def goConds12 : List (Category × List Char) := [
  (.zero, c!"ops.N == 0"),
  (.one, c!"ops.N == 1")]

/-- catalog/cldrplural/builtin_gen.go:294-306. -/
def goConds13 : List (Category × List Char) := [
  (.one, c!"ops.V == 0 && ops.I%10 == 1 && ops.I%100 != 11 || ops.F%10 == 1 && ops.F%100 != 11"),
  (.few, c!"ops.V == 0 && (ops.I%10 >= 2 && ops.I%10 <= 4) && !(ops.I%100 >= 12 && ops.I%100 <= 14) || (ops.F%10 >= 2 && ops.F%10 <= 4) && !(ops.F%100 >= 12 && ops.F%100 <= 14)")]

/-- catalog/cldrplural/builtin_gen.go:314-326. -/
def goConds14 : List (Category × List Char) := [
  (.one, c!"ops.I == 1 && ops.V == 0"),
  (.many, c!"ops.C == 0 && ops.I != 0 && ops.I%1000000 == 0 && ops.V == 0 || !(ops.C >= 0 && ops.C <= 5)")]

/-- catalog/cldrplural/builtin_gen.go:334-346. -/
def goConds15 : List (Category × List Char) := [
  (.one, c!"ops.N == 1"),
  (.many, c!"ops.C == 0 && ops.I != 0 && ops.I%1000000 == 0 && ops.V == 0 || !(ops.C >= 0 && ops.C <= 5)")]

/-- catalog/cldrplural/builtin_gen.go:354-366. -/
def goConds16 : List (Category × List Char) := [
  (.one, c!"ops.I == 0 || ops.I == 1"),
  (.many, c!"ops.C == 0 && ops.I != 0 && ops.I%1000000 == 0 && ops.V == 0 || !(ops.C >= 0 && ops.C <= 5)")]

/-- catalog/cldrplural/builtin_gen.go:374-386. -/
def goConds17 : List (Category × List Char) := [
  (.one, c!"ops.I == 1 && ops.V == 0 || ops.I == 0 && ops.V != 0"),
  (.two, c!"ops.I == 2 && ops.V == 0")]

/-- catalog/cldrplural/builtin_gen.go:394-406. -/
def goConds18 : List (Category × List Char) := [
  (.one, c!"ops.N == 1"),
  (.two, c!"ops.N == 2")]

/-- catalog/cldrplural/builtin_gen.go:414-426. -/
def goConds19 : List (Category × List Char) := [
  (.zero, c!"ops.N == 0"),
  (.one, c!"(ops.I == 0 || ops.I == 1) && ops.N != 0")]

/-- catalog/cldrplural/builtin_gen.go:434-446. -/
def goConds20 : List (Category × List Char) := [
  (.zero, c!"math.Mod(ops.N, 10) == 0 || isFloatInRange(math.Mod(ops.N, 100), 11, 19) || ops.V == 2 && (ops.F%100 >= 11 && ops.F%100 <= 19)"),
  (.one, c!"math.Mod(ops.N, 10) == 1 && math.Mod(ops.N, 100) != 11 || ops.V == 2 && ops.F%10 == 1 && ops.F%100 != 11 || ops.V != 2 && ops.F%10 == 1")]

/-- catalog/cldrplural/builtin_gen.go:454-466. -/
def goConds21 : List (Category × List Char) := [
  (.one, c!"ops.I == 1 && ops.V == 0"),
  (.few, c!"ops.V != 0 || ops.N == 0 || ops.N != 1 && isFloatInRange(math.Mod(ops.N, 100), 1, 19)")]

/-- catalog/cldrplural/builtin_gen.go:474-486. -/
def goConds22 : List (Category × List Char) := [
  (.one, c!"ops.I >= 0 && ops.I <= 1"),
  (.many, c!"ops.C == 0 && ops.I != 0 && ops.I%1000000 == 0 && ops.V == 0 || !(ops.C >= 0 && ops.C <= 5)")]

/-- catalog/cldrplural/builtin_gen.go:494-506. -/
def goConds23 : List (Category × List Char) := [
  (.one, c!"ops.I == 0 || ops.N == 1"),
  (.few, c!"isFloatInRange(ops.N, 2, 10)")]

/-- catalog/cldrplural/builtin_gen.go:514-531. -/
def goConds24 : List (Category × List Char) := [
  (.one, c!"math.Mod(ops.N, 10) == 1 && math.Mod(ops.N, 100) != 11"),
  (.few, c!"isFloatInRange(math.Mod(ops.N, 10), 2, 4) && !isFloatInRange(math.Mod(ops.N, 100), 12, 14)"),
  (.many, c!"math.Mod(ops.N, 10) == 0 || isFloatInRange(math.Mod(ops.N, 10), 5, 9) || isFloatInRange(math.Mod(ops.N, 100), 11, 14)")]

/-- catalog/cldrplural/builtin_gen.go:539-556. -/
def goConds25 : List (Category × List Char) := [
  (.one, c!"ops.I == 1 && ops.V == 0"),
  (.few, c!"(ops.I >= 2 && ops.I <= 4) && ops.V == 0"),
  (.many, c!"ops.V != 0")]

/-- catalog/cldrplural/builtin_gen.go:564-581. -/
def goConds26 : List (Category × List Char) := [
  (.one, c!"ops.V == 0 && ops.I%100 == 1 || ops.F%100 == 1"),
  (.two, c!"ops.V == 0 && ops.I%100 == 2 || ops.F%100 == 2"),
  (.few, c!"ops.V == 0 && (ops.I%100 >= 3 && ops.I%100 <= 4) || (ops.F%100 >= 3 && ops.F%100 <= 4)")]

/-- catalog/cldrplural/builtin_gen.go:589-606. -/
def goConds27 : List (Category × List Char) := [
  (.one, c!"isFloatOneOf(ops.N, 1, 11)"),
  (.two, c!"isFloatOneOf(ops.N, 2, 12)"),
  (.few, c!"isFloatInRange(ops.N, 3, 10, 13, 19)")]

/-- catalog/cldrplural/builtin_gen.go:614-631. -/
def goConds28 : List (Category × List Char) := [
  (.one, c!"math.Mod(ops.N, 10) == 1 && !isFloatInRange(math.Mod(ops.N, 100), 11, 19)"),
  (.few, c!"isFloatInRange(math.Mod(ops.N, 10), 2, 9) && !isFloatInRange(math.Mod(ops.N, 100), 11, 19)"),
  (.many, c!"ops.F != 0")]

/-- catalog/cldrplural/builtin_gen.go:639-656. -/
def goConds29 : List (Category × List Char) := [
  (.one, c!"ops.I == 1 && ops.V == 0"),
  (.few, c!"ops.V == 0 && (ops.I%10 >= 2 && ops.I%10 <= 4) && !(ops.I%100 >= 12 && ops.I%100 <= 14)"),
  (.many, c!"ops.V == 0 && ops.I != 1 && (ops.I%10 >= 0 && ops.I%10 <= 1) || ops.V == 0 && (ops.I%10 >= 5 && ops.I%10 <= 9) || ops.V == 0 && (ops.I%100 >= 12 && ops.I%100 <= 14)")]

/-- catalog/cldrplural/builtin_gen.go:664-681. -/
def goConds30 : List (Category × List Char) := [
  (.one, c!"ops.V == 0 && ops.I%10 == 1 && ops.I%100 != 11"),
  (.few, c!"ops.V == 0 && (ops.I%10 >= 2 && ops.I%10 <= 4) && !(ops.I%100 >= 12 && ops.I%100 <= 14)"),
  (.many, c!"ops.V == 0 && ops.I%10 == 0 || ops.V == 0 && (ops.I%10 >= 5 && ops.I%10 <= 9) || ops.V == 0 && (ops.I%100 >= 11 && ops.I%100 <= 14)")]

/-- catalog/cldrplural/builtin_gen.go:689-706. -/
def goConds31 : List (Category × List Char) := [
  (.one, c!"ops.V == 0 && ops.I%100 == 1"),
  (.two, c!"ops.V == 0 && ops.I%100 == 2"),
  (.few, c!"ops.V == 0 && (ops.I%100 >= 3 && ops.I%100 <= 4) || ops.V != 0")]

/-- catalog/cldrplural/builtin_gen.go:714-736. -/
def goConds32 : List (Category × List Char) := [
  (.one, c!"math.Mod(ops.N, 10) == 1 && !isFloatOneOf(math.Mod(ops.N, 100), 11, 71, 91)"),
  (.two, c!"math.Mod(ops.N, 10) == 2 && !isFloatOneOf(math.Mod(ops.N, 100), 12, 72, 92)"),
  (.few, c!"(isFloatInRange(math.Mod(ops.N, 10), 3, 4) || math.Mod(ops.N, 10) == 9) && !isFloatInRange(math.Mod(ops.N, 100), 10, 19, 70, 79, 90, 99)"),
  (.many, c!"ops.N != 0 && math.Mod(ops.N, 1000000) == 0")]

/-- catalog/cldrplural/builtin_gen.go:744-766. -/
def goConds33 : List (Category × List Char) := [
  (.one, c!"ops.N == 1"),
  (.two, c!"ops.N == 2"),
  (.few, c!"isFloatInRange(ops.N, 3, 6)"),
  (.many, c!"isFloatInRange(ops.N, 7, 10)")]

/-- catalog/cldrplural/builtin_gen.go:774-796. -/
def goConds34 : List (Category × List Char) := [
  (.one, c!"ops.V == 0 && ops.I%10 == 1"),
  (.two, c!"ops.V == 0 && ops.I%10 == 2"),
  (.few, c!"ops.V == 0 && slices.Contains([]int64{0, 20, 40, 60, 80}, ops.I%100)"),
  (.many, c!"ops.V != 0")]

/-- catalog/cldrplural/builtin_gen.go:804-826. -/
def goConds35 : List (Category × List Char) := [
  (.one, c!"ops.N == 1"),
  (.two, c!"ops.N == 2"),
  (.few, c!"ops.N == 0 || isFloatInRange(math.Mod(ops.N, 100), 3, 10)"),
  (.many, c!"isFloatInRange(math.Mod(ops.N, 100), 11, 19)")]

/-- catalog/cldrplural/builtin_gen.go:834-861. -/
def goConds36 : List (Category × List Char) := [
  (.zero, c!"ops.N == 0"),
  (.one, c!"ops.N == 1"),
  (.two, c!"ops.N == 2"),
  (.few, c!"isFloatInRange(math.Mod(ops.N, 100), 3, 10)"),
  (.many, c!"isFloatInRange(math.Mod(ops.N, 100), 11, 99)")]

/-- catalog/cldrplural/builtin_gen.go:869-896. -/
def goConds37 : List (Category × List Char) := [
  (.zero, c!"ops.N == 0"),
  (.one, c!"ops.N == 1"),
  (.two, c!"ops.N == 2"),
  (.few, c!"ops.N == 3"),
  (.many, c!"ops.N == 6")]

/-- catalog/cldrplural/builtin_gen.go:904-931. -/
def goConds38 : List (Category × List Char) := [
  (.zero, c!"ops.N == 0"),
  (.one, c!"ops.N == 1"),
  (.two, c!"isFloatOneOf(math.Mod(ops.N, 100), 2, 22, 42, 62, 82) || math.Mod(ops.N, 1000) == 0 && (isFloatInRange(math.Mod(ops.N, 100000), 1000, 20000) || isFloatOneOf(math.Mod(ops.N, 100000), 40000, 60000, 80000)) || ops.N != 0 && math.Mod(ops.N, 1000000) == 100000"),
  (.few, c!"isFloatOneOf(math.Mod(ops.N, 100), 3, 23, 43, 63, 83)"),
  (.many, c!"ops.N != 1 && isFloatOneOf(math.Mod(ops.N, 100), 1, 21, 41, 61, 81)")]

/-- catalog/cldrplural/builtin_gen.go: all functions, in the order of the file. -/
def goConds : List (List (Category × List Char)) := [
  goConds0, goConds1, goConds2, goConds3, goConds4, goConds5, goConds6, goConds7,
  goConds8, goConds9, goConds10, goConds11, goConds12, goConds13, goConds14, goConds15,
  goConds16, goConds17, goConds18, goConds19, goConds20, goConds21, goConds22, goConds23,
  goConds24, goConds25, goConds26, goConds27, goConds28, goConds29, goConds30, goConds31,
  goConds32, goConds33, goConds34, goConds35, goConds36, goConds37, goConds38]

end Verif.Model.Cldr
