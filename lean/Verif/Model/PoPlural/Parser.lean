import Verif.Model.PoPlural.Scanner
/-!
# catalog/poplural/ast/parser.go, node.go, compile.go and catalog/poplural/rule.go:75-123
-/
namespace Verif.Model.PoPlural

/-- catalog/poplural/ast/node.go:7-28. -/
inductive Node
  | operand
  | value (v : Int)
  | binary (x : Node) (op : Op) (y : Node)
  | question (cond t f : Node)
  deriving DecidableEq, Repr

/-- catalog/poplural/ast/parser.go:10-13 `Forms`. -/
structure Forms where
  nPlurals : Int
  root : Node
  deriving DecidableEq, Repr

/-- Errors of the parser.  The messages are not modelled.  `fuel` is not an error of the code: it
says that the recursion budget of the model was too small (shown to be impossible for `astParse`). -/
inductive PErr
  | syntax
  | fuel
  deriving DecidableEq, Repr

/-- catalog/poplural/ast/parser.go:15-20 `parser`: last token and remaining text. -/
structure PState where
  tok : Tok
  rest : List Char
  deriving DecidableEq, Repr

/-- Digits and underscores as `strconv.ParseInt(lit, 10, 64)` / `strconv.Atoi` read them; used in
catalog/poplural/ast/parser.go:53 and 288 where the error is ignored: an underscore gives 0 and a
value of 2^64 or more stops with the largest int64. `acc` is the value so far. -/
def parseDigits (acc : Nat) : List Char → Int
  | [] => if acc ≥ 2 ^ 63 then 2 ^ 63 - 1 else acc
  | c :: cs =>
    if isDigit c then
      let acc' := acc * 10 + (c.toNat - '0'.toNat)
      if acc' ≥ 2 ^ 64 then 2 ^ 63 - 1 else parseDigits acc' cs
    else 0


/-- catalog/poplural/ast/parser.go:317-322 `scanNext`. -/
def scanNext (st : PState) : Except PErr PState :=
  let (t, r) := next st.rest
  if t = .eof ∨ t = .failure then .error .syntax else .ok ⟨t, r⟩

/-- catalog/poplural/ast/parser.go:147-160: building the `||` node.  `rn` has just been created by
the recursive call, so its mutation (lines 155-156) is a functional update. -/
def mkOr (ln rn : Node) : Node :=
  match rn with
  | .binary rx .or ry => .binary (.binary ln .or rx) .or ry
  | _ => .binary ln .or rn

/-- catalog/poplural/ast/parser.go:182-195: the same for `&&`. -/
def mkAnd (ln rn : Node) : Node :=
  match rn with
  | .binary rx .and ry => .binary (.binary ln .and rx) .and ry
  | _ => .binary ln .and rn

/-- catalog/poplural/ast/parser.go:233. -/
def isRel : Op → Bool
  | .gt => true | .ge => true | .lt => true | .le => true | _ => false

/-- catalog/poplural/ast/parser.go:207. -/
def isEq : Op → Bool
  | .eq => true | .ne => true | _ => false

mutual

/-- catalog/poplural/ast/parser.go:91-129 `expression`. -/
def expression : Nat → PState → Except PErr (Node × PState)
  | 0, _ => .error .fuel
  | f + 1, st => do
    let (n, st) ← logicalOr f st
    if st.tok = .question then
      let st ← scanNext st
      let (t, st) ← expression f st
      if st.tok ≠ .colon then .error .syntax
      else
        let st ← scanNext st
        let (e, st) ← expression f st
        .ok (.question n t e, st)
    else .ok (n, st)

/-- catalog/poplural/ast/parser.go:131-164 `logicalOrExpression`. -/
def logicalOr : Nat → PState → Except PErr (Node × PState)
  | 0, _ => .error .fuel
  | f + 1, st => do
    let (ln, st) ← logicalAnd f st
    if st.tok = .op .or then
      let st ← scanNext st
      let (rn, st) ← logicalOr f st
      .ok (mkOr ln rn, st)
    else .ok (ln, st)

/-- catalog/poplural/ast/parser.go:166-199 `logicalAndExpression`. -/
def logicalAnd : Nat → PState → Except PErr (Node × PState)
  | 0, _ => .error .fuel
  | f + 1, st => do
    let (ln, st) ← equality f st
    if st.tok = .op .and then
      let st ← scanNext st
      let (rn, st) ← logicalAnd f st
      .ok (mkAnd ln rn, st)
    else .ok (ln, st)

/-- catalog/poplural/ast/parser.go:201-225 `equalityExpression`. -/
def equality : Nat → PState → Except PErr (Node × PState)
  | 0, _ => .error .fuel
  | f + 1, st => do
    let (n, st) ← relational f st
    match st.tok with
    | .op o =>
      if isEq o then
        let st ← scanNext st
        let (re, st) ← relational f st
        .ok (.binary n o re, st)
      else .ok (n, st)
    | _ => .ok (n, st)

/-- catalog/poplural/ast/parser.go:227-251 `relationalExpression`. -/
def relational : Nat → PState → Except PErr (Node × PState)
  | 0, _ => .error .fuel
  | f + 1, st => do
    let (n, st) ← multiplicative f st
    match st.tok with
    | .op o =>
      if isRel o then
        let st ← scanNext st
        let (me, st) ← multiplicative f st
        .ok (.binary n o me, st)
      else .ok (n, st)
    | _ => .ok (n, st)

/-- catalog/poplural/ast/parser.go:253-278 `multiplicativeExpression`. -/
def multiplicative : Nat → PState → Except PErr (Node × PState)
  | 0, _ => .error .fuel
  | f + 1, st => do
    let (n, st) ← pm f st
    if st.tok = .op .rem then
      let st ← scanNext st
      let (m, st) ← pm f st
      .ok (.binary n .rem m, st)
    else .ok (n, st)

/-- catalog/poplural/ast/parser.go:280-315 `pmExpression`. -/
def pm : Nat → PState → Except PErr (Node × PState)
  | 0, _ => .error .fuel
  | f + 1, st =>
    match st.tok with
    | .operand => do
      let st ← scanNext st
      .ok (.operand, st)
    | .value lit => do
      let st ← scanNext st
      .ok (.value (parseDigits 0 lit), st)
    | .lparen => do
      let st ← scanNext st
      let (e, st) ← expression f st
      if st.tok ≠ .rparen then .error .syntax
      else
        let st ← scanNext st
        .ok (e, st)
    | _ => .error .syntax

end

/-- catalog/poplural/ast/parser.go:41-66: one expected token of the header. -/
def expect (t : Tok) (cs : List Char) : Except PErr (List Char) :=
  let (t', r) := next cs
  if t' = t then .ok r else .error .syntax

/-- catalog/poplural/ast/parser.go:50-54: the number of plurals. -/
def expectValue (cs : List Char) : Except PErr (Int × List Char) :=
  match next cs with
  | (.value lit, r) => .ok (parseDigits 0 lit, r)
  | _ => .error .syntax

/-- catalog/poplural/ast/parser.go:38-89 `Parse`, with a recursion budget. -/
def parseWith (fuel : Nat) (cs : List Char) : Except PErr Forms := do
  let cs ← expect .nplurals cs
  let cs ← expect .assign cs
  let (np, cs) ← expectValue cs
  let cs ← expect .semicolon cs
  let cs ← expect .plural cs
  let cs ← expect .assign cs
  let st ← scanNext ⟨.assign, cs⟩
  let (n, st) ← expression fuel st
  if st.tok ≠ .semicolon then .error .syntax
  else
    let (t, _) := next st.rest
    if t ≠ .eof then .error .syntax else .ok ⟨np, n⟩

/-- catalog/poplural/ast/parser.go:31-36 `Parse`.  The budget is always enough
(`C31`). -/
def astParse (cs : List Char) : Except PErr Forms := parseWith (8 * cs.length + 8) cs

/-- catalog/poplural/rule.go:118-122. -/
def truth (b : Bool) : Int := if b then 1 else 0

/-- catalog/poplural/rule.go:76-123 `evaluateNode`.  All values are int64 and no operation leaves
the range, so unbounded integers are exact; Go's `%` truncates. -/
def evaluate : Node → Int → Int
  | .value v, _ => v
  | .operand, num => num
  | .question c t f, num => if evaluate c num = 1 then evaluate t num else evaluate f num
  | .binary x op y, num =>
    match op with
    | .and => truth (evaluate x num = 1 && evaluate y num = 1)
    | .or => truth (evaluate x num = 1 || evaluate y num = 1)
    | .eq => truth (evaluate x num = evaluate y num)
    | .ne => truth (evaluate x num ≠ evaluate y num)
    | .gt => truth (evaluate x num > evaluate y num)
    | .ge => truth (evaluate x num ≥ evaluate y num)
    | .lt => truth (evaluate x num < evaluate y num)
    | .le => truth (evaluate x num ≤ evaluate y num)
    | .rem =>
      let r := evaluate y num
      if r = 0 then 0 else (evaluate x num).tmod r

/-- Decimal digits of a natural number (least significant first), for `natDec`. -/
def decLE : Nat → Nat → List Char
  | 0, _ => []
  | f + 1, n => Char.ofNat (48 + n % 10) :: (if n / 10 = 0 then [] else decLE f (n / 10))

/-- `strconv.FormatInt(n, 10)` / `%d` of a natural number. -/
def natDec (n : Nat) : List Char := (decLE (n + 1) n).reverse

/-- `strconv.FormatInt(v, 10)` (compile.go:16) and `%d` (compile.go:10). -/
def intDec (v : Int) : List Char :=
  if v < 0 then '-' :: natDec v.natAbs else natDec v.natAbs

/-- catalog/poplural/ast/compile.go:36-55: text of an operator. -/
def opText : Op → List Char
  | .and => " && ".toList
  | .or => " || ".toList
  | .eq => " == ".toList
  | .ne => " != ".toList
  | .gt => " > ".toList
  | .ge => " >= ".toList
  | .lt => " < ".toList
  | .le => " <= ".toList
  | .rem => " % ".toList

/-- `"(" + s + ")"`. -/
def paren (s : List Char) : List Char := '(' :: s ++ [')']

/-- catalog/poplural/ast/compile.go:24-26. -/
def wrapCond (s : List Char) : List Char :=
  if s.length > 1 ∧ (s.head? ≠ some '(' ∨ s.getLast? ≠ some ')') then paren s else s

/-- catalog/poplural/ast/compile.go:27-32. -/
def wrapLong (s : List Char) : List Char := if s.length > 1 then paren s else s

/-- catalog/poplural/ast/compile.go:13-58 `compileNode`. -/
def compileNode : Node → List Char
  | .value v => intDec v
  | .operand => ['n']
  | .question c t f =>
    wrapCond (compileNode c) ++ " ? ".toList ++ wrapLong (compileNode t) ++ " : ".toList ++
      wrapLong (compileNode f)
  | .binary x op y =>
    if op = .or then paren (compileNode x ++ opText op ++ compileNode y)
    else compileNode x ++ opText op ++ compileNode y

/-- catalog/poplural/ast/compile.go:9-11 `CompileToString`. -/
def compileToString (f : Forms) : List Char :=
  "nplurals=".toList ++ intDec f.nPlurals ++ "; plural=".toList ++ compileNode f.root ++ ";".toList

end Verif.Model.PoPlural
