import Verif.Go.Utf8
import Verif.Model.Cldr.Operands
/-!
# catalog/cldrplural/ast: scanner and parser of CLDR plural rules

The scanner is the list of the tokens still to be read; `unread` keeps the token.
-/
namespace Verif.Model.Cldr
open Verif.Go

/-- catalog/cldrplural/ast/scanner.go:12-27 `Token`. -/
inductive Tok
  | eof | unknown | operand | value | equal | notEqual | valueRange | and | or | rem
  | sample | sampleValue | sampleRange
  deriving DecidableEq, Repr

/-- `strings.FieldsFunc` with the current field in reverse. -/
def fieldsAux (sep : Char → Bool) : List Char → List Char → List (List Char)
  | [], cur => if cur = [] then [] else [cur.reverse]
  | c :: cs, cur =>
    if sep c then (if cur = [] then fieldsAux sep cs [] else cur.reverse :: fieldsAux sep cs [])
    else fieldsAux sep cs (c :: cur)

/-- catalog/cldrplural/ast/scanner.go:117-121 `generateTokens`. -/
def generateTokens (content : List Char) : List (List Char) :=
  fieldsAux (fun c => isSpace c || c = ',') content []

/-- `unicode.ToLower` as far as it yields ASCII letters used in keywords: besides A-Z only U+0130
becomes one (`i`). -/
def lower (c : Char) : Char :=
  if 'A' ≤ c ∧ c ≤ 'Z' then Char.ofNat (c.toNat + 32)
  else if c.toNat = 0x130 then 'i' else c

/-- catalog/cldrplural/ast/scanner.go:30 `^\d+$`. -/
def reValue (s : List Char) : Bool := s ≠ [] && s.all Char.isDigit

/-- The rest after `(?:0|[1-9]\d*)`. -/
def afterInt (s : List Char) : Option (List Char) :=
  match s with
  | '0' :: r => some r
  | c :: r => if c.isDigit then some (r.dropWhile Char.isDigit) else none
  | [] => none

/-- `(?:\.\d*)?$`. -/
def optFraction (s : List Char) : Bool :=
  match s with
  | [] => true
  | '.' :: r => r.all Char.isDigit
  | _ => false

/-- `c?\d*` then `k`. -/
def optC (k : List Char → Bool) (s : List Char) : Bool :=
  match s with
  | 'c' :: r => k (r.dropWhile Char.isDigit)
  | _ => k s

/-- catalog/cldrplural/ast/scanner.go:31 `^\d+\.\.[1-9]\d*$`. -/
def reRange (s : List Char) : Bool :=
  s.takeWhile Char.isDigit ≠ [] &&
  match s.dropWhile Char.isDigit with
  | '.' :: '.' :: c :: r => c ≠ '0' && c.isDigit && r.all Char.isDigit
  | _ => false

/-- catalog/cldrplural/ast/scanner.go:32. -/
def reSampleValue (s : List Char) : Bool :=
  match s with
  | '0' :: r => optFraction r || (match r with
    | '.' :: r => optC (· = []) (r.dropWhile Char.isDigit)
    | _ => false)
  | _ =>
    match afterInt s with
    | none => false
    | some r => optC optFraction r || (match r with
      | '.' :: r => optC (· = []) (r.dropWhile Char.isDigit)
      | _ => false)

/-- catalog/cldrplural/ast/scanner.go:33: one side of the `~`. -/
def reSampleSide (s : List Char) : Bool :=
  match afterInt s with
  | none => false
  | some r => optFraction r

/-- catalog/cldrplural/ast/scanner.go:33. -/
def reSampleRange (s : List Char) : Bool :=
  match cut '~' s with
  | none => false
  | some (a, b) => reSampleSide a && reSampleSide b

/-- catalog/cldrplural/ast/scanner.go:88-98: classification by the regular expressions. -/
def classify (lit : List Char) : Tok :=
  if reValue lit then .value
  else if reSampleValue lit then .sampleValue
  else if reRange lit then .valueRange
  else if reSampleRange lit then .sampleRange
  else .unknown

/-- catalog/cldrplural/ast/scanner.go:77-98: everything that is not a keyword. -/
def scanNumber (lit : List Char) (rest : List (List Char)) : Tok × List Char × List (List Char) :=
  match rest with
  | next :: rest' =>
    if next = ['.', '.'] ∨ next = ['~'] then
      match rest' with
      | [] => (.unknown, lit ++ next, [])
      | next' :: rest'' =>
        let lit := lit ++ next ++ next'
        (classify lit, lit, rest'')
    else (classify lit, lit, next :: rest')
  | [] => (classify lit, lit, [])

/-- catalog/cldrplural/ast/scanner.go:50-99 `Scan`. -/
def scan : List (List Char) → Tok × List Char × List (List Char)
  | [] => (.eof, [], [])
  | lit :: rest =>
    let l := lit.map lower
    if l = ['n'] ∨ l = ['i'] ∨ l = ['v'] ∨ l = ['w'] ∨ l = ['f'] ∨ l = ['t'] ∨ l = ['c'] ∨ l = ['e'] then
      (.operand, lit, rest)
    else if l = ['='] then (.equal, lit, rest)
    else if l = ['%'] ∨ l = ['m', 'o', 'd'] then (.rem, ['%'], rest)
    else if l = ['!', '='] then (.notEqual, lit, rest)
    else if l = ['@', 'i', 'n', 't', 'e', 'g', 'e', 'r'] ∨ l = ['@', 'd', 'e', 'c', 'i', 'm', 'a', 'l'] then
      (.sample, lit, rest)
    else if l = ['a', 'n', 'd'] then (.and, lit, rest)
    else if l = ['o', 'r'] then (.or, lit, rest)
    else if l = ['…'] ∨ l = ['.', '.', '.'] ∨ l = ['.'] then scan rest
    else scanNumber lit rest

/-- catalog/cldrplural/ast/ast.go:12-14, 30-33: `OperandExpr` and `ModuloExpr`. -/
inductive ExprNode
  | operand (o : List Char)
  | modulo (o : List Char) (value : Int)
  deriving DecidableEq

/-- catalog/cldrplural/ast/ast.go:16-23: `ValueExpr` and `RangeExpr`; a `RangeListExpr` is a
non-empty list of them. -/
inductive Item
  | value (v : Int)
  | range (lo hi : Int)
  deriving DecidableEq

/-- catalog/cldrplural/ast/ast.go:35-45: `InRelationExpr` and `BinaryExpr`. -/
inductive Node
  | rel (x : ExprNode) (notEqual : Bool) (y : List Item)
  | and (x y : Node)
  | or (x y : Node)
  deriving DecidableEq

/-- catalog/cldrplural/ast/ast.go:3-6 `Rule`; a nil root is `none`. -/
structure Rule where
  root : Option Node
  samples : List (List Char)
  deriving DecidableEq

/-- Why parsing failed: an error value, a recursion budget of the model that did not suffice, or a
sample range that is enumerated without end (parser.go:348-353). -/
inductive PErr
  | syntax | fuel | hang
  deriving DecidableEq

/-- catalog/cldrplural/ast/parser.go:43-51: the parser state (the push-back counter `n` is never
set). -/
structure PState where
  tok : Tok
  lit : List Char
  rest : List (List Char)
  deriving DecidableEq

/-- catalog/cldrplural/ast/parser.go:333-341 `scan`: the state afterwards and the two results.  The results are
named and never assigned, so the bare `return` of line 340 gives the zero values: the token `eof` and no text. -/
def scanToken (st : PState) : PState × Tok × List Char :=
  let (tok, lit, rest) := scan st.rest
  (⟨tok, lit, rest⟩, .eof, [])

/-- catalog/cldrplural/ast/parser.go:326-331 `scanNext`: the test looks at the result of `scan`, which is never
`unknown`; an unknown token is noticed by the callers, none of which expects it. -/
def scanNext (st : PState) : Except PErr PState :=
  let (st, tok, _) := scanToken st
  if tok = .unknown then .error .syntax else .ok st

/-- `strconv.ParseInt` of a digit sequence without looking at the error (parser.go:213): the
largest int64 on overflow. -/
def satInt (ds : List Char) : Int :=
  if digitsVal ds < 2 ^ 63 then digitsVal ds else 2 ^ 63 - 1

/-- catalog/cldrplural/ast/parser.go:208-220 `value`. -/
def value (st : PState) : Except PErr (Int × PState) :=
  if st.tok ≠ .value then .error .syntax
  else do
    let st' ← scanNext st
    .ok (satInt st.lit, st')

/-- catalog/cldrplural/ast/parser.go:176-205 `expression`. -/
def expression (st : PState) : Except PErr (ExprNode × PState) :=
  if st.tok ≠ .operand then .error .syntax
  else do
    let st' ← scanNext st
    if st'.tok = .rem then do
      let st' ← scanNext st'
      let (v, st') ← value st'
      .ok (.modulo st.lit v, st')
    else .ok (.operand st.lit, st')

/-- The texts before and after the first `..` (`strings.Split` yields two parts, because the
regular expression allows only one `..`). -/
def splitRange : List Char → Option (List Char × List Char)
  | '.' :: '.' :: r => some ([], r)
  | c :: r => (splitRange r).map (fun (a, b) => (c :: a, b))
  | [] => none

/-- catalog/cldrplural/ast/parser.go:256-289 `rangeExpression`. -/
def rangeExpression (st : PState) : Except PErr (Item × PState) :=
  match splitRange st.lit with
  | none => .error .syntax
  | some (a, b) =>
    match parseInt a, parseInt b with
    | some lo, some hi =>
      if hi < lo then .error .syntax
      else do
        let st' ← scanNext st
        .ok (.range lo hi, st')
    | _, _ => .error .syntax

/-- catalog/cldrplural/ast/parser.go:226-241: one element of a range list. -/
def item (st : PState) : Except PErr (Item × PState) :=
  if st.tok = .value then do
    let (v, st') ← value st
    .ok (.value v, st')
  else if st.tok = .valueRange then rangeExpression st
  else .error .syntax

/-- catalog/cldrplural/ast/parser.go:223-253 `rangeList`. -/
def rangeList : Nat → PState → Except PErr (List Item × PState)
  | 0, _ => .error .fuel
  | f + 1, st => do
    let (x, st) ← item st
    if st.tok = .valueRange ∨ st.tok = .value then do
      let (xs, st) ← rangeList f st
      .ok (x :: xs, st)
    else .ok ([x], st)

/-- catalog/cldrplural/ast/parser.go:149-174 `relation`. -/
def relation (f : Nat) (st : PState) : Except PErr (Node × PState) := do
  let (x, st) ← expression st
  if st.tok ≠ .equal ∧ st.tok ≠ .notEqual then .error .syntax
  else do
    let neg := decide (st.tok = .notEqual)
    let st ← scanNext st
    let (y, st) ← rangeList f st
    .ok (.rel x neg y, st)

/-- catalog/cldrplural/ast/parser.go:122-147 `andCondition`. -/
def andCondition : Nat → PState → Except PErr (Node × PState)
  | 0, _ => .error .fuel
  | f + 1, st => do
    let (ln, st) ← relation f st
    if st.tok = .and then do
      let st ← scanNext st
      let (rn, st) ← andCondition f st
      .ok (.and ln rn, st)
    else .ok (ln, st)

/-- catalog/cldrplural/ast/parser.go:95-120 `condition`. -/
def condition : Nat → PState → Except PErr (Node × PState)
  | 0, _ => .error .fuel
  | f + 1, st => do
    let (ln, st) ← andCondition f st
    if st.tok = .or then do
      let st ← scanNext st
      let (rn, st) ← condition f st
      .ok (.or ln rn, st)
    else .ok (ln, st)

/-- catalog/cldrplural/ast/parser.go:363-373, on the reversed text: the new text and the carry. -/
def incRev : List Char → List Char × Bool
  | [] => ([], true)
  | c :: cs =>
    if c = '.' then
      let (r, carry) := incRev cs
      ('.' :: r, carry)
    else if c = '9' then
      let (r, carry) := incRev cs
      ('0' :: r, carry)
    else (Char.ofNat (c.toNat + 1) :: cs, false)

/-- catalog/cldrplural/ast/parser.go:360-378 `increment`. -/
def increment (dec : List Char) : List Char :=
  let (r, carry) := incRev dec.reverse
  if carry then '1' :: r.reverse else r.reverse

/-- catalog/cldrplural/ast/parser.go:348-353: the loop, with a budget. -/
def sampleLoop (stop : List Char) : Nat → List Char → Except PErr (List (List Char))
  | 0, _ => .error .hang
  | f + 1, ex =>
    if ex = stop then .ok [ex]
    else do
      let r ← sampleLoop stop f (increment ex)
      .ok (ex :: r)

/-- catalog/cldrplural/ast/parser.go:345-358 `parseSampleRange`. -/
def parseSampleRange (budget : Nat) (s : List Char) : Except PErr (List (List Char)) :=
  match cut '~' s with
  | none => .ok [s]
  | some (a, b) => sampleLoop b budget a

/-- catalog/cldrplural/ast/parser.go:302-323: the loop. -/
def samplesLoop (budget : Nat) : Nat → PState → Except PErr (List (List Char))
  | 0, _ => .error .fuel
  | f + 1, st =>
    match st.tok with
    | .eof => .ok []
    | .sample => do
      let st ← scanNext st
      samplesLoop budget f st
    | .sampleValue => do
      let st' ← scanNext st
      let r ← samplesLoop budget f st'
      .ok (st.lit :: r)
    | .value => do
      let st' ← scanNext st
      let r ← samplesLoop budget f st'
      .ok (st.lit :: r)
    | .sampleRange => do
      let vs ← parseSampleRange budget st.lit
      let st' ← scanNext st
      let r ← samplesLoop budget f st'
      .ok (vs ++ r)
    | _ => .error .syntax

/-- catalog/cldrplural/ast/parser.go:291-324 `samples`. -/
def samples (budget f : Nat) (st : PState) : Except PErr (List (List Char)) :=
  if st.tok = .eof then .ok []
  else if st.tok ≠ .sample then .error .syntax
  else samplesLoop budget f st

/-- catalog/cldrplural/ast/parser.go:72-93 `Parse` on the token list. -/
def parseTokens (budget : Nat) (toks : List (List Char)) : Except PErr Rule := do
  let fuel := toks.length + 3
  let st ← scanNext ⟨.eof, [], toks⟩
  if st.tok ≠ .sample then do
    let (n, st) ← condition fuel st
    let s ← samples budget fuel st
    .ok ⟨some n, s⟩
  else do
    let s ← samples budget fuel st
    .ok ⟨none, s⟩

/-- catalog/cldrplural/ast/parser.go:61-70 `Parse`.  `budget` bounds the enumeration of a sample
range. -/
def parse (budget : Nat) (text : List Char) : Except PErr Rule :=
  parseTokens budget (generateTokens text)

end Verif.Model.Cldr
