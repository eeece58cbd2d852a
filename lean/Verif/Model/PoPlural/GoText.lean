import Verif.Go.Chars
/-!
# The generated functions of catalog/poplural/builtin_gen.go, as text

Extracted from the Go file by a script: the comment with the formula, and the lines between
`FormFunc: func(n int64) int {` and the closing brace, unchanged.
-/
namespace Verif.Model.PoPlural

/-- catalog/poplural/builtin_gen.go:21-27. -/
def goText0 : List Char × List Char :=
  (c!"nplurals=2; plural=((n == 1 || (n == 2 || n == 3)) || n % 10 != 4 && n % 10 != 6 && n % 10 != 9);",
   c!"\t\t\t\tif ((n == 1 || n == 2) || n == 3) || n%10 != 4 && n%10 != 6 && n%10 != 9 {\n\t\t\t\t\treturn 1\n\t\t\t\t}\n\t\t\t\treturn 0\n")

/-- catalog/poplural/builtin_gen.go:32-38. -/
def goText1 : List Char × List Char :=
  (c!"nplurals=2; plural=(n <= 1 || n >= 11 && n <= 99);",
   c!"\t\t\t\tif n <= 1 || n >= 11 && n <= 99 {\n\t\t\t\t\treturn 1\n\t\t\t\t}\n\t\t\t\treturn 0\n")

/-- catalog/poplural/builtin_gen.go:43-49. -/
def goText2 : List Char × List Char :=
  (c!"nplurals=2; plural=(n == 0 || n == 1);",
   c!"\t\t\t\tif n == 0 || n == 1 {\n\t\t\t\t\treturn 1\n\t\t\t\t}\n\t\t\t\treturn 0\n")

/-- catalog/poplural/builtin_gen.go:54-60. -/
def goText3 : List Char × List Char :=
  (c!"nplurals=2; plural=n % 10 == 1 && n % 100 != 11;",
   c!"\t\t\t\tif n%10 == 1 && n%100 != 11 {\n\t\t\t\t\treturn 1\n\t\t\t\t}\n\t\t\t\treturn 0\n")

/-- catalog/poplural/builtin_gen.go:87-96. -/
def goText4 : List Char × List Char :=
  (c!"nplurals=3; plural=n == 0 ? 0 : (n == 0 || n == 1) && n != 0 ? 1 : 2;",
   c!"\t\t\t\tif n == 0 {\n\t\t\t\t\treturn 0\n\t\t\t\t}\n\t\t\t\tif (n == 0 || n == 1) && n != 0 {\n\t\t\t\t\treturn 1\n\t\t\t\t}\n\t\t\t\treturn 2\n")

/-- catalog/poplural/builtin_gen.go:107-119. -/
def goText5 : List Char × List Char :=
  (c!"nplurals=4; plural=n % 100 == 1 ? 0 : n % 100 == 2 ? 1 : n % 100 >= 3 && n % 100 <= 4 ? 2 : 3;",
   c!"\t\t\t\tif n%100 == 1 {\n\t\t\t\t\treturn 0\n\t\t\t\t}\n\t\t\t\tif n%100 == 2 {\n\t\t\t\t\treturn 1\n\t\t\t\t}\n\t\t\t\tif n%100 >= 3 && n%100 <= 4 {\n\t\t\t\t\treturn 2\n\t\t\t\t}\n\t\t\t\treturn 3\n")

/-- catalog/poplural/builtin_gen.go:130-145. -/
def goText6 : List Char × List Char :=
  (c!"nplurals=5; plural=n % 10 == 1 && n % 100 != 11 && n % 100 != 71 && n % 100 != 91 ? 0 : n % 10 == 2 && n % 100 != 12 && n % 100 != 72 && n % 100 != 92 ? 1 : (n % 10 >= 3 && n % 10 <= 4 || n % 10 == 9) && (n % 100 < 10 || n % 100 > 19) && (n % 100 < 70 || n % 100 > 79) && (n % 100 < 90 || n % 100 > 99) ? 2 : n != 0 && n % 1000000 == 0 ? 3 : 4;",
   c!"\t\t\t\tif n%10 == 1 && n%100 != 11 && n%100 != 71 && n%100 != 91 {\n\t\t\t\t\treturn 0\n\t\t\t\t}\n\t\t\t\tif n%10 == 2 && n%100 != 12 && n%100 != 72 && n%100 != 92 {\n\t\t\t\t\treturn 1\n\t\t\t\t}\n\t\t\t\tif (n%10 >= 3 && n%10 <= 4 || n%10 == 9) && (n%100 < 10 || n%100 > 19) && (n%100 < 70 || n%100 > 79) && (n%100 < 90 || n%100 > 99) {\n\t\t\t\t\treturn 2\n\t\t\t\t}\n\t\t\t\tif n != 0 && n%1000000 == 0 {\n\t\t\t\t\treturn 3\n\t\t\t\t}\n\t\t\t\treturn 4\n")

/-- catalog/poplural/builtin_gen.go:221-224. -/
def goText7 : List Char × List Char :=
  (c!"nplurals=1; plural=0;",
   c!"\t\t\treturn 0\n")

/-- catalog/poplural/builtin_gen.go:232-238. -/
def goText8 : List Char × List Char :=
  (c!"nplurals=2; plural=n != 1;",
   c!"\t\t\tif n != 1 {\n\t\t\t\treturn 1\n\t\t\t}\n\t\t\treturn 0\n")

/-- catalog/poplural/builtin_gen.go:246-252. -/
def goText9 : List Char × List Char :=
  (c!"nplurals=2; plural=n > 1;",
   c!"\t\t\tif n > 1 {\n\t\t\t\treturn 1\n\t\t\t}\n\t\t\treturn 0\n")

/-- catalog/poplural/builtin_gen.go:260-266. -/
def goText10 : List Char × List Char :=
  (c!"nplurals=2; plural=n != 1 && n != 2 && n != 3 && (n % 10 == 4 || n % 10 == 6 || n % 10 == 9);",
   c!"\t\t\tif n != 1 && n != 2 && n != 3 && ((n%10 == 4 || n%10 == 6) || n%10 == 9) {\n\t\t\t\treturn 1\n\t\t\t}\n\t\t\treturn 0\n")

/-- catalog/poplural/builtin_gen.go:274-280. -/
def goText11 : List Char × List Char :=
  (c!"nplurals=2; plural=n % 10 != 1 || n % 100 == 11;",
   c!"\t\t\tif n%10 != 1 || n%100 == 11 {\n\t\t\t\treturn 1\n\t\t\t}\n\t\t\treturn 0\n")

/-- catalog/poplural/builtin_gen.go:288-294. -/
def goText12 : List Char × List Char :=
  (c!"nplurals=2; plural=n >= 2 && (n < 11 || n > 99);",
   c!"\t\t\tif n >= 2 && (n < 11 || n > 99) {\n\t\t\t\treturn 1\n\t\t\t}\n\t\t\treturn 0\n")

/-- catalog/poplural/builtin_gen.go:302-311. -/
def goText13 : List Char × List Char :=
  (c!"nplurals=3; plural=(n % 10 == 1 && n % 100 != 11) ? 0 : ((n % 10 >= 2 && n % 10 <= 4 && (n % 100 < 12 || n % 100 > 14)) ? 1 : 2);",
   c!"\t\t\tif n%10 == 1 && n%100 != 11 {\n\t\t\t\treturn 0\n\t\t\t}\n\t\t\tif n%10 >= 2 && n%10 <= 4 && (n%100 < 12 || n%100 > 14) {\n\t\t\t\treturn 1\n\t\t\t}\n\t\t\treturn 2\n")

/-- catalog/poplural/builtin_gen.go:319-328. -/
def goText14 : List Char × List Char :=
  (c!"nplurals=3; plural=(n == 0) ? 0 : ((n == 1) ? 1 : 2);",
   c!"\t\t\tif n == 0 {\n\t\t\t\treturn 0\n\t\t\t}\n\t\t\tif n == 1 {\n\t\t\t\treturn 1\n\t\t\t}\n\t\t\treturn 2\n")

/-- catalog/poplural/builtin_gen.go:336-345. -/
def goText15 : List Char × List Char :=
  (c!"nplurals=3; plural=(n == 1) ? 0 : ((n != 0 && n % 1000000 == 0) ? 1 : 2);",
   c!"\t\t\tif n == 1 {\n\t\t\t\treturn 0\n\t\t\t}\n\t\t\tif n != 0 && n%1000000 == 0 {\n\t\t\t\treturn 1\n\t\t\t}\n\t\t\treturn 2\n")

/-- catalog/poplural/builtin_gen.go:353-362. -/
def goText16 : List Char × List Char :=
  (c!"nplurals=3; plural=(n == 1) ? 0 : ((n >= 2 && n <= 4) ? 1 : 2);",
   c!"\t\t\tif n == 1 {\n\t\t\t\treturn 0\n\t\t\t}\n\t\t\tif n >= 2 && n <= 4 {\n\t\t\t\treturn 1\n\t\t\t}\n\t\t\treturn 2\n")

/-- catalog/poplural/builtin_gen.go:370-379. -/
def goText17 : List Char × List Char :=
  (c!"nplurals=3; plural=(n == 0 || n == 1) ? 0 : ((n != 0 && n % 1000000 == 0) ? 1 : 2);",
   c!"\t\t\tif n == 0 || n == 1 {\n\t\t\t\treturn 0\n\t\t\t}\n\t\t\tif n != 0 && n%1000000 == 0 {\n\t\t\t\treturn 1\n\t\t\t}\n\t\t\treturn 2\n")

/-- catalog/poplural/builtin_gen.go:387-396. -/
def goText18 : List Char × List Char :=
  (c!"nplurals=3; plural=(n == 1) ? 0 : ((n == 2) ? 1 : 2);",
   c!"\t\t\tif n == 1 {\n\t\t\t\treturn 0\n\t\t\t}\n\t\t\tif n == 2 {\n\t\t\t\treturn 1\n\t\t\t}\n\t\t\treturn 2\n")

/-- catalog/poplural/builtin_gen.go:404-413. -/
def goText19 : List Char × List Char :=
  (c!"nplurals=3; plural=(n % 10 == 1 && (n % 100 < 11 || n % 100 > 19)) ? 0 : ((n % 10 >= 2 && n % 10 <= 9 && (n % 100 < 11 || n % 100 > 19)) ? 1 : 2);",
   c!"\t\t\tif n%10 == 1 && (n%100 < 11 || n%100 > 19) {\n\t\t\t\treturn 0\n\t\t\t}\n\t\t\tif n%10 >= 2 && n%10 <= 9 && (n%100 < 11 || n%100 > 19) {\n\t\t\t\treturn 1\n\t\t\t}\n\t\t\treturn 2\n")

/-- catalog/poplural/builtin_gen.go:421-430. -/
def goText20 : List Char × List Char :=
  (c!"nplurals=3; plural=(n % 10 == 0 || n % 100 >= 11 && n % 100 <= 19) ? 0 : ((n % 10 == 1 && n % 100 != 11) ? 1 : 2);",
   c!"\t\t\tif n%10 == 0 || n%100 >= 11 && n%100 <= 19 {\n\t\t\t\treturn 0\n\t\t\t}\n\t\t\tif n%10 == 1 && n%100 != 11 {\n\t\t\t\treturn 1\n\t\t\t}\n\t\t\treturn 2\n")

/-- catalog/poplural/builtin_gen.go:438-447. -/
def goText21 : List Char × List Char :=
  (c!"nplurals=3; plural=(n == 1) ? 0 : ((n % 10 >= 2 && n % 10 <= 4 && (n % 100 < 12 || n % 100 > 14)) ? 1 : 2);",
   c!"\t\t\tif n == 1 {\n\t\t\t\treturn 0\n\t\t\t}\n\t\t\tif n%10 >= 2 && n%10 <= 4 && (n%100 < 12 || n%100 > 14) {\n\t\t\t\treturn 1\n\t\t\t}\n\t\t\treturn 2\n")

/-- catalog/poplural/builtin_gen.go:455-464. -/
def goText22 : List Char × List Char :=
  (c!"nplurals=3; plural=(n == 1) ? 0 : ((n == 0 || n != 1 && n % 100 >= 1 && n % 100 <= 19) ? 1 : 2);",
   c!"\t\t\tif n == 1 {\n\t\t\t\treturn 0\n\t\t\t}\n\t\t\tif n == 0 || n != 1 && n%100 >= 1 && n%100 <= 19 {\n\t\t\t\treturn 1\n\t\t\t}\n\t\t\treturn 2\n")

/-- catalog/poplural/builtin_gen.go:472-481. -/
def goText23 : List Char × List Char :=
  (c!"nplurals=3; plural=(n == 0 || n == 1) ? 0 : ((n >= 2 && n <= 10) ? 1 : 2);",
   c!"\t\t\tif n == 0 || n == 1 {\n\t\t\t\treturn 0\n\t\t\t}\n\t\t\tif n >= 2 && n <= 10 {\n\t\t\t\treturn 1\n\t\t\t}\n\t\t\treturn 2\n")

/-- catalog/poplural/builtin_gen.go:489-501. -/
def goText24 : List Char × List Char :=
  (c!"nplurals=4; plural=(n % 100 == 1) ? 0 : ((n % 100 == 2) ? 1 : ((n % 100 == 3 || n % 100 == 4) ? 2 : 3));",
   c!"\t\t\tif n%100 == 1 {\n\t\t\t\treturn 0\n\t\t\t}\n\t\t\tif n%100 == 2 {\n\t\t\t\treturn 1\n\t\t\t}\n\t\t\tif n%100 == 3 || n%100 == 4 {\n\t\t\t\treturn 2\n\t\t\t}\n\t\t\treturn 3\n")

/-- catalog/poplural/builtin_gen.go:509-521. -/
def goText25 : List Char × List Char :=
  (c!"nplurals=4; plural=(n == 1 || n == 11) ? 0 : ((n == 2 || n == 12) ? 1 : ((n >= 3 && n <= 10 || n >= 13 && n <= 19) ? 2 : 3));",
   c!"\t\t\tif n == 1 || n == 11 {\n\t\t\t\treturn 0\n\t\t\t}\n\t\t\tif n == 2 || n == 12 {\n\t\t\t\treturn 1\n\t\t\t}\n\t\t\tif n >= 3 && n <= 10 || n >= 13 && n <= 19 {\n\t\t\t\treturn 2\n\t\t\t}\n\t\t\treturn 3\n")

/-- catalog/poplural/builtin_gen.go:529-541. -/
def goText26 : List Char × List Char :=
  (c!"nplurals=4; plural=(n % 10 == 1) ? 0 : ((n % 10 == 2) ? 1 : ((n % 100 == 0 || n % 100 == 20 || n % 100 == 40 || n % 100 == 60 || n % 100 == 80) ? 2 : 3));",
   c!"\t\t\tif n%10 == 1 {\n\t\t\t\treturn 0\n\t\t\t}\n\t\t\tif n%10 == 2 {\n\t\t\t\treturn 1\n\t\t\t}\n\t\t\tif (n%100 == 0 || (n%100 == 20 || (n%100 == 40 || n%100 == 60))) || n%100 == 80 {\n\t\t\t\treturn 2\n\t\t\t}\n\t\t\treturn 3\n")

/-- catalog/poplural/builtin_gen.go:549-564. -/
def goText27 : List Char × List Char :=
  (c!"nplurals=5; plural=(n % 10 == 1 && n % 100 != 11 && n % 100 != 71 && n % 100 != 91) ? 0 : ((n % 10 == 2 && n % 100 != 12 && n % 100 != 72 && n % 100 != 92) ? 1 : ((((n % 10 == 3 || n % 10 == 4) || n % 10 == 9) && (n % 100 < 10 || n % 100 > 19) && (n % 100 < 70 || n % 100 > 79) && (n % 100 < 90 || n % 100 > 99)) ? 2 : ((n != 0 && n % 1000000 == 0) ? 3 : 4)));",
   c!"\t\t\tif n%10 == 1 && n%100 != 11 && n%100 != 71 && n%100 != 91 {\n\t\t\t\treturn 0\n\t\t\t}\n\t\t\tif n%10 == 2 && n%100 != 12 && n%100 != 72 && n%100 != 92 {\n\t\t\t\treturn 1\n\t\t\t}\n\t\t\tif ((n%10 == 3 || n%10 == 4) || n%10 == 9) && (n%100 < 10 || n%100 > 19) && (n%100 < 70 || n%100 > 79) && (n%100 < 90 || n%100 > 99) {\n\t\t\t\treturn 2\n\t\t\t}\n\t\t\tif n != 0 && n%1000000 == 0 {\n\t\t\t\treturn 3\n\t\t\t}\n\t\t\treturn 4\n")

/-- catalog/poplural/builtin_gen.go:572-587. -/
def goText28 : List Char × List Char :=
  (c!"nplurals=5; plural=(n == 1) ? 0 : ((n == 2) ? 1 : ((n >= 3 && n <= 6) ? 2 : ((n >= 7 && n <= 10) ? 3 : 4)));",
   c!"\t\t\tif n == 1 {\n\t\t\t\treturn 0\n\t\t\t}\n\t\t\tif n == 2 {\n\t\t\t\treturn 1\n\t\t\t}\n\t\t\tif n >= 3 && n <= 6 {\n\t\t\t\treturn 2\n\t\t\t}\n\t\t\tif n >= 7 && n <= 10 {\n\t\t\t\treturn 3\n\t\t\t}\n\t\t\treturn 4\n")

/-- catalog/poplural/builtin_gen.go:595-610. -/
def goText29 : List Char × List Char :=
  (c!"nplurals=5; plural=(n == 1) ? 0 : ((n == 2) ? 1 : ((n == 0 || n % 100 >= 3 && n % 100 <= 10) ? 2 : ((n % 100 >= 11 && n % 100 <= 19) ? 3 : 4)));",
   c!"\t\t\tif n == 1 {\n\t\t\t\treturn 0\n\t\t\t}\n\t\t\tif n == 2 {\n\t\t\t\treturn 1\n\t\t\t}\n\t\t\tif n == 0 || n%100 >= 3 && n%100 <= 10 {\n\t\t\t\treturn 2\n\t\t\t}\n\t\t\tif n%100 >= 11 && n%100 <= 19 {\n\t\t\t\treturn 3\n\t\t\t}\n\t\t\treturn 4\n")

/-- catalog/poplural/builtin_gen.go:618-636. -/
def goText30 : List Char × List Char :=
  (c!"nplurals=6; plural=(n == 0) ? 0 : ((n == 1) ? 1 : ((n == 2) ? 2 : ((n % 100 >= 3 && n % 100 <= 10) ? 3 : ((n % 100 >= 11 && n % 100 <= 99) ? 4 : 5))));",
   c!"\t\t\tif n == 0 {\n\t\t\t\treturn 0\n\t\t\t}\n\t\t\tif n == 1 {\n\t\t\t\treturn 1\n\t\t\t}\n\t\t\tif n == 2 {\n\t\t\t\treturn 2\n\t\t\t}\n\t\t\tif n%100 >= 3 && n%100 <= 10 {\n\t\t\t\treturn 3\n\t\t\t}\n\t\t\tif n%100 >= 11 && n%100 <= 99 {\n\t\t\t\treturn 4\n\t\t\t}\n\t\t\treturn 5\n")

/-- catalog/poplural/builtin_gen.go:644-662. -/
def goText31 : List Char × List Char :=
  (c!"nplurals=6; plural=(n == 0) ? 0 : ((n == 1) ? 1 : ((n == 2) ? 2 : ((n == 3) ? 3 : ((n == 6) ? 4 : 5))));",
   c!"\t\t\tif n == 0 {\n\t\t\t\treturn 0\n\t\t\t}\n\t\t\tif n == 1 {\n\t\t\t\treturn 1\n\t\t\t}\n\t\t\tif n == 2 {\n\t\t\t\treturn 2\n\t\t\t}\n\t\t\tif n == 3 {\n\t\t\t\treturn 3\n\t\t\t}\n\t\t\tif n == 6 {\n\t\t\t\treturn 4\n\t\t\t}\n\t\t\treturn 5\n")

/-- catalog/poplural/builtin_gen.go:670-688. -/
def goText32 : List Char × List Char :=
  (c!"nplurals=6; plural=(n == 0) ? 0 : ((n == 1) ? 1 : (((n % 100 == 2 || n % 100 == 22 || n % 100 == 42 || n % 100 == 62 || n % 100 == 82) || n % 1000 == 0 && (n % 100000 >= 1000 && n % 100000 <= 20000 || n % 100000 == 40000 || n % 100000 == 60000 || n % 100000 == 80000) || n != 0 && n % 1000000 == 100000) ? 2 : ((n % 100 == 3 || n % 100 == 23 || n % 100 == 43 || n % 100 == 63 || n % 100 == 83) ? 3 : ((n != 1 && (n % 100 == 1 || n % 100 == 21 || n % 100 == 41 || n % 100 == 61 || n % 100 == 81)) ? 4 : 5))));",
   c!"\t\t\tif n == 0 {\n\t\t\t\treturn 0\n\t\t\t}\n\t\t\tif n == 1 {\n\t\t\t\treturn 1\n\t\t\t}\n\t\t\tif (((n%100 == 2 || (n%100 == 22 || (n%100 == 42 || n%100 == 62))) || n%100 == 82) || n%1000 == 0 && ((n%100000 >= 1000 && n%100000 <= 20000 || (n%100000 == 40000 || n%100000 == 60000)) || n%100000 == 80000)) || n != 0 && n%1000000 == 100000 {\n\t\t\t\treturn 2\n\t\t\t}\n\t\t\tif (n%100 == 3 || (n%100 == 23 || (n%100 == 43 || n%100 == 63))) || n%100 == 83 {\n\t\t\t\treturn 3\n\t\t\t}\n\t\t\tif n != 1 && ((n%100 == 1 || (n%100 == 21 || (n%100 == 41 || n%100 == 61))) || n%100 == 81) {\n\t\t\t\treturn 4\n\t\t\t}\n\t\t\treturn 5\n")

/-- catalog/poplural/builtin_gen.go: all functions, in the order of the file. -/
def goTexts : List (List Char × List Char) := [
  goText0, goText1, goText2, goText3, goText4, goText5, goText6, goText7,
  goText8, goText9, goText10, goText11, goText12, goText13, goText14, goText15,
  goText16, goText17, goText18, goText19, goText20, goText21, goText22, goText23,
  goText24, goText25, goText26, goText27, goText28, goText29, goText30, goText31,
  goText32]

end Verif.Model.PoPlural
