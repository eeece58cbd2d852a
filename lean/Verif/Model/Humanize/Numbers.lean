import Verif.Model.Humanize.Basic
/-!
# humanize/numbers.go and FilesizeFormat of humanize/helper.go
-/
namespace Verif.Model.Humanize
open Verif.Go

/-- /repo/humanize/numbers.go:12-22 `apnumbers`. -/
def apnumbers : List Bytes :=
  [b!"one", b!"two", b!"three", b!"four", b!"five", b!"six", b!"seven", b!"eight", b!"nine"]

/-- /repo/humanize/numbers.go:36-48 `Apnumber`. -/
def apnumber (env : Env) (v : Val) : Run Bytes :=
  match toNumber env.parse v with
  | none => .ok (env.errText v)
  | some fl =>
    let num := fl.toInt64 env.oor
    if num ≤ 0 ∨ 10 ≤ num then .ok (env.loc.print b!"%d" [.int num])
    else match apnumbers[(num - 1).toNat]? with
      | some w => .ok (env.loc.get w)
      | none => .error .indexOutOfRange

/-- /repo/humanize/numbers.go:108-115 `Intcomma`, for a float64. -/
def intcommaFloat (env : Env) (x : F64) : Bytes := env.loc.print b!"%v" [.decimal x 6]

/-- /repo/humanize/numbers.go:108-115 `Intcomma`. -/
def intcomma (env : Env) (v : Val) : Bytes :=
  match toNumber env.parse v with
  | none => env.errText v
  | some x => intcommaFloat env x

/-- /repo/humanize/numbers.go:51-67 `intwordConverters`; singular and plural are the same texts. -/
def intwordConverters : List (Nat × Bytes) :=
  [(6, b!"%[1]s million"), (9, b!"%[1]s billion"), (12, b!"%[1]s trillion"), (15, b!"%[1]s quadrillion"),
   (18, b!"%[1]s quintillion"), (21, b!"%[1]s sextillion"), (24, b!"%[1]s septillion"), (27, b!"%[1]s octillion"),
   (30, b!"%[1]s nonillion"), (33, b!"%[1]s decillion"), (100, b!"%[1]s googol")]

/-- /repo/humanize/numbers.go:92-96: the number that selects the plural form. -/
def intwordCount (oor : F64 → Int) (newValue : F64) : Int :=
  let rounded := wrap64 ((F64.sub newValue (.ofInt 1)).ceil.toInt64 oor + 1)
  if rounded < 0 then newValue.floor.abs.toInt64 oor else rounded

/-- /repo/humanize/numbers.go:89-101: the loop over the converters. -/
def intwordLoop (env : Env) (value : F64) : List (Nat × Bytes) → Bytes
  | [] => intcommaFloat env value
  | (exponent, text) :: rest =>
    let largeNumber := F64.pow10 exponent
    if F64.lt value.abs (F64.mul largeNumber (.ofInt 1000)) then
      let newValue := F64.div value largeNumber
      env.loc.nGetf text text (intwordCount env.oor newValue) [.str (env.loc.print b!"%.1f" [.float newValue])]
    else intwordLoop env value rest

/-- /repo/humanize/numbers.go:78-102 `Intword`. -/
def intword (env : Env) (v : Val) : Bytes :=
  match toNumber env.parse v with
  | none => env.errText v
  | some value =>
    if F64.lt value.abs (.ofInt 1000000) then intcommaFloat env value
    else intwordLoop env value intwordConverters

/-- /repo/humanize/numbers.go:117-141 `ordinalTemplates`. -/
def ordinalTemplates : List (Bytes × Bytes) :=
  [(b!"ordinal 0", b!"%vth"), (b!"ordinal 1", b!"%vst"), (b!"ordinal 2", b!"%vnd"), (b!"ordinal 3", b!"%vrd"),
   (b!"ordinal 4", b!"%vth"), (b!"ordinal 5", b!"%vth"), (b!"ordinal 6", b!"%vth"), (b!"ordinal 7", b!"%vth"),
   (b!"ordinal 8", b!"%vth"), (b!"ordinal 9", b!"%vth")]

/-- /repo/humanize/numbers.go:147-165 `Ordinal`; a negative index panics. -/
def ordinal (env : Env) (v : Val) : Run Bytes :=
  match toNumber env.parse v with
  | none => .ok (env.errText v)
  | some x =>
    if F64.lt x (.ofInt 0) then .ok (itoa (x.toInt64 env.oor))
    else
      let value := x.toInt64 env.oor
      if value.tmod 100 = 11 ∨ value.tmod 100 = 12 ∨ value.tmod 100 = 13 then
        .ok (env.loc.pGetf b!"ordinal 11, 12, 13" b!"%vth" [.int value])
      else if value.tmod 10 < 0 then .error .indexOutOfRange
      else match ordinalTemplates[(value.tmod 10).toNat]? with
        | some (ctx, id) => .ok (env.loc.pGetf ctx id [.int value])
        | none => .error .indexOutOfRange

/-- An argument of `FilesizeFormat`: bytes, of which the length counts, or another value. -/
inductive SizeArg
  | bytes (len : Nat)
  | other (v : Val)

/-- /repo/humanize/helper.go:76-89: the quotient by a unit, printed with one fraction digit. -/
def sizeIn (env : Env) (count unit : Int) (text : Bytes) : Bytes :=
  env.loc.getf text [.str (env.loc.print b!"%v" [.decimal (F64.div (.ofInt count) (.ofInt unit)) 1])]

/-- /repo/humanize/helper.go:67-95: the text for a count of bytes; `-count` wraps around. -/
def sizeText (env : Env) (count : Int) : Bytes :=
  let isNegative := decide (count < 0)
  let count := if isNegative then wrap64 (-count) else count
  let result :=
    if count < 2 ^ 10 then env.loc.nGetf b!"%[1]d byte" b!"%[1]d bytes" count [.int count]
    else if count < 2 ^ 20 then sizeIn env count (2 ^ 10) b!"%s KB"
    else if count < 2 ^ 30 then sizeIn env count (2 ^ 20) b!"%s MB"
    else if count < 2 ^ 40 then sizeIn env count (2 ^ 30) b!"%s GB"
    else if count < 2 ^ 50 then sizeIn env count (2 ^ 40) b!"%s TB"
    else sizeIn env count (2 ^ 50) b!"%s PB"
  if isNegative then b!"-" ++ result else result

/-- /repo/humanize/helper.go:54-96 `FilesizeFormat`. -/
def filesizeFormat (env : Env) (v : SizeArg) : Bytes :=
  match v with
  | .bytes len => sizeText env len
  | .other v =>
    match toNumber env.parse v with
    | none => env.errText v
    | some x => sizeText env (x.toInt64 env.oor)

end Verif.Model.Humanize
