import Verif.Go.Float
/-!
# Specification: a part of Go

Written from the Go language specification (sections "Lexical elements", "Operators",
"Primary expressions", "Return statements", "If statements", "Terminating statements"), independent
of the code generators: what a text of conditions and `if`/`return` statements means to a Go
compiler.  Only the constructs that such conditions need are in the language; a text that uses
anything else has no reading here.
-/
namespace Verif.Spec.GoCode
open Verif.Go

/-! ## Tokens -/

/-- Binary operators.  The comma of an expression list counts as the operator that binds weakest. -/
inductive Op
  | comma | or | and | eq | ne | lt | le | gt | ge | rem
  deriving DecidableEq, Repr

/-- Operator precedence: 5 for `%`, 3 for comparisons, 2 for `&&`, 1 for `||`. -/
def Op.prec : Op → Nat
  | .comma => 0
  | .or => 1
  | .and => 2
  | .eq => 3 | .ne => 3 | .lt => 3 | .le => 3 | .gt => 3 | .ge => 3
  | .rem => 5

inductive Tok
  | int (n : Nat)
  | name (x : List Char)
  | op (o : Op)
  | not | dot | lp | rp | lb | rb | lbr | rbr | semi
  | kwIf | kwReturn
  /-- A newline before semicolons are inserted. -/
  | nl
  | bad
  deriving DecidableEq, Repr

def isWordChar (c : Char) : Bool := c.isAlphanum || c = '_'

/-- Value of a digit sequence. -/
def decVal (ds : List Char) : Nat := ds.foldl (fun a c => a * 10 + (c.toNat - '0'.toNat)) 0

/-- Letters, digits and underscores: a keyword, an identifier or a decimal literal (`0`, or without
a leading zero). -/
def wordTok (w : List Char) : Tok :=
  match w with
  | [] => .bad
  | c :: cs =>
    if c.isDigit then
      if cs.all Char.isDigit ∧ (c ≠ '0' ∨ cs = []) then .int (decVal w) else .bad
    else if w = ['i', 'f'] then .kwIf
    else if w = ['r', 'e', 't', 'u', 'r', 'n'] then .kwReturn
    else .name w

/-- Operators of two characters. -/
def pairTok (a b : Char) : Option Tok :=
  if a = '=' ∧ b = '=' then some (.op .eq)
  else if a = '!' ∧ b = '=' then some (.op .ne)
  else if a = '<' ∧ b = '=' then some (.op .le)
  else if a = '>' ∧ b = '=' then some (.op .ge)
  else if a = '&' ∧ b = '&' then some (.op .and)
  else if a = '|' ∧ b = '|' then some (.op .or)
  else none

/-- Operators and punctuation of one character. -/
def singleTok (a : Char) : Tok :=
  if a = '!' then .not
  else if a = '<' then .op .lt
  else if a = '>' then .op .gt
  else if a = '%' then .op .rem
  else if a = ',' then .op .comma
  else if a = '.' then .dot
  else if a = '(' then .lp
  else if a = ')' then .rp
  else if a = '{' then .lb
  else if a = '}' then .rb
  else if a = '[' then .lbr
  else if a = ']' then .rbr
  else if a = ';' then .semi
  else .bad

/-- What has been read of the token at hand: nothing, a word (last character first), or one
character of punctuation. -/
inductive Pend
  | none
  | word (rev : List Char)
  | punct (c : Char)
  deriving DecidableEq

/-- The token at hand ends here. -/
def Pend.flush : Pend → List Tok
  | .none => []
  | .word w => [wordTok w.reverse]
  | .punct c => [singleTok c]

/-- A character that begins a token, or white space. -/
def start (c : Char) : List Tok × Pend :=
  if isWordChar c then ([], .word [c])
  else if c = ' ' ∨ c = '\t' ∨ c = '\r' then ([], .none)
  else if c = '\n' then ([.nl], .none)
  else ([], .punct c)

/-- The next character: the tokens that are complete, and what is at hand now.  "The next token is
the longest sequence of characters that form a valid token." -/
def step (p : Pend) (c : Char) : List Tok × Pend :=
  match p with
  | .none => start c
  | .word w =>
    if isWordChar c then ([], .word (c :: w)) else (wordTok w.reverse :: (start c).1, (start c).2)
  | .punct a =>
    match pairTok a c with
    | some t => ([t], .none)
    | none => (singleTok a :: (start c).1, (start c).2)

def lexFrom : Pend → List Char → List Tok
  | p, [] => p.flush
  | p, c :: cs => (step p c).1 ++ lexFrom (step p c).2 cs

/-- After these tokens a newline ends the statement. -/
def endsLine : Option Tok → Bool
  | some (.int _) => true
  | some (.name _) => true
  | some .kwReturn => true
  | some .rp => true
  | some .rb => true
  | some .rbr => true
  | _ => false

/-- Automatic semicolons: `prev` is the token before. -/
def semis : Option Tok → List Tok → List Tok
  | _, [] => []
  | prev, .nl :: ts => if endsLine prev then .semi :: semis (some .semi) ts else semis prev ts
  | _, t :: ts => t :: semis (some t) ts

/-- The tokens of a text. -/
def lex (text : List Char) : List Tok := semis none (lexFrom .none text)

/-! ## Expressions -/

/-- Parentheses only group. -/
inductive Expr
  | int (n : Nat)
  | name (x : List Char)
  /-- `x.y` -/
  | sel (x y : List Char)
  /-- `f(a)`; several arguments are joined by `comma`. -/
  | call (f a : Expr)
  /-- `[]x{a}` -/
  | slice (x : List Char) (a : Expr)
  | not (e : Expr)
  | bin (o : Op) (a b : Expr)
  deriving DecidableEq, Repr

/-- Level 0 is an expression list, level 1 an expression, levels 2 to 5 the operands of operators
of lower precedence, 6 a unary expression, 7 a primary expression.  "Binary operators of the same
precedence associate from left to right." -/
inductive Gram : Nat → List Tok → Expr → Prop
  | int (n) : Gram 7 [.int n] (.int n)
  | name (x) : Gram 7 [.name x] (.name x)
  | sel (x y) : Gram 7 [.name x, .dot, .name y] (.sel x y)
  | paren {ts e} : Gram 1 ts e → Gram 7 (.lp :: ts ++ [.rp]) e
  | call {ts f us a} : Gram 7 ts f → Gram 0 us a → Gram 7 (ts ++ .lp :: us ++ [.rp]) (.call f a)
  | slice (x) {us a} : Gram 0 us a → Gram 7 (.lbr :: .rbr :: .name x :: .lb :: us ++ [.rb]) (.slice x a)
  | not {ts e} : Gram 6 ts e → Gram 6 (.not :: ts) (.not e)
  | up {p ts e} : Gram (p + 1) ts e → Gram p ts e
  | bin (o) {ts a us b} : Gram o.prec ts a → Gram (o.prec + 1) us b →
      Gram o.prec (ts ++ .op o :: us) (.bin o a b)

/-- The text is the expression. -/
def Reads (text : List Char) (e : Expr) : Prop := Gram 1 (lex text) e

/-! ## Statements -/

/-- A list of statements. -/
inductive Code
  | done
  | ret (e : Expr) (rest : Code)
  | cond (c : Expr) (body rest : Code)
  deriving DecidableEq, Repr

/-- "To allow complex statements to occupy a single line, a semicolon may be omitted before a
closing `)` or `}`"; the end of a function body is a closing `}`. -/
inductive Body : List Tok → Code → Prop
  | nil : Body [] .done
  | retLast {ts e} : Gram 1 ts e → Body (.kwReturn :: ts) (.ret e .done)
  | ret {ts e us k} : Gram 1 ts e → Body us k → Body (.kwReturn :: ts ++ .semi :: us) (.ret e k)
  | condLast {ts c bs b} : Gram 1 ts c → Body bs b →
      Body (.kwIf :: ts ++ .lb :: bs ++ [.rb]) (.cond c b .done)
  | cond {ts c bs b us k} : Gram 1 ts c → Body bs b → Body us k →
      Body (.kwIf :: ts ++ .lb :: bs ++ .rb :: .semi :: us) (.cond c b k)

/-- The text is the body of a function. -/
def ReadsBody (text : List Char) (k : Code) : Prop := Body (lex text) k

/-! ## Types and values -/

/-- `int64`, `float64`, `bool`, `[]int64`, and untyped integer constants, whose value the compiler
knows. -/
inductive Ty
  | int | float | bool | ints
  | const (k : Nat)
  deriving DecidableEq, Repr

inductive Val
  | int (i : Int)
  | float (x : F64)
  | bool (b : Bool)
  | ints (l : List Int)
  | const (k : Nat)
  deriving DecidableEq

/-- A value of type `t` may be used where the type `s` is required.  An integer constant may be used
as an `int64` that holds it. -/
def Ty.fits (t s : Ty) : Bool :=
  match t, s with
  | .const k, .int => decide (k < 2 ^ 63)
  | .const _, .float => true
  | t, s => decide (t = s)

/-- A function: parameters, the type of the further (variadic) parameters, result, meaning (`none`
is a panic, or no return). -/
structure Fn where
  params : List Ty
  more : Option Ty
  result : Ty
  run : List Val → Option Val

/-- The names in scope. -/
structure Env where
  /-- Variables and fields, by qualified name. -/
  var : List (List Char) → Option Val
  varTy : List (List Char) → Option Ty
  fn : List (List Char) → Option Fn

def Env.fnOf (Γ : Env) : Expr → Option Fn
  | .name x => Γ.fn [x]
  | .sel x y => Γ.fn [x, y]
  | _ => none

/-- The arguments fit the parameters. -/
def fitsAll : List Ty → Option Ty → List Ty → Bool
  | [], none, ts => ts.isEmpty
  | [], some m, ts => ts.all (·.fits m)
  | _ :: _, _, [] => false
  | p :: ps, m, t :: ts => t.fits p && fitsAll ps m ts

def one {α : Type} : Option (List α) → Option α
  | some [x] => some x
  | _ => none

/-- Type of `a o b`; `none` if the compiler refuses it.  A constant is converted to the type of the
other operand; remainder by a constant zero is an error.  Two float64 operands are not needed
here, and of the comparisons with constants only those that are symmetric for NaN. -/
def binTy (o : Op) (a b : Ty) : Option Ty :=
  match o with
  | .comma => none
  | .or => if a = .bool ∧ b = .bool then some .bool else none
  | .and => if a = .bool ∧ b = .bool then some .bool else none
  | .rem =>
    match a, b with
    | .const j, .const k => if k = 0 then none else some (.const (j % k))
    | .int, .const k => if k = 0 ∨ 2 ^ 63 ≤ k then none else some .int
    | .const j, .int => if 2 ^ 63 ≤ j then none else some .int
    | .int, .int => some .int
    | _, _ => none
  | .eq | .ne =>
    match a, b with
    | .const _, .const _ => some .bool
    | .float, .const _ => some .bool
    | a, b => if a.fits .int ∧ b.fits .int then some .bool else none
  | .lt | .le | .gt | .ge =>
    match a, b with
    | .const _, .const _ => some .bool
    | a, b => if a.fits .int ∧ b.fits .int then some .bool else none

/-- Types of the elements of an expression list. -/
def tys (Γ : Env) : Expr → Option (List Ty)
  | .int n => some [.const n]
  | .name x => (Γ.varTy [x]).map ([·])
  | .sel x y => (Γ.varTy [x, y]).map ([·])
  | .call f a =>
    match Γ.fnOf f, tys Γ a with
    | some fn, some ts => if fitsAll fn.params fn.more ts then some [fn.result] else none
    | _, _ => none
  | .slice x a =>
    match tys Γ a with
    | some ts => if x = ['i', 'n', 't', '6', '4'] ∧ ts.all (·.fits .int) then some [.ints] else none
    | none => none
  | .not e => if one (tys Γ e) = some .bool then some [.bool] else none
  | .bin .comma a b =>
    match tys Γ a, one (tys Γ b) with
    | some ts, some t => some (ts ++ [t])
    | _, _ => none
  | .bin o a b =>
    match one (tys Γ a), one (tys Γ b) with
    | some s, some t => (binTy o s t).map ([·])
    | _, _ => none

/-- The type of an expression. -/
def typeOf (Γ : Env) (e : Expr) : Option Ty := one (tys Γ e)

def Val.toInt : Val → Option Int
  | .int i => some i
  | .const k => some k
  | _ => none

/-- Comparison of integers. -/
def cmpInt (o : Op) (a b : Int) : Bool :=
  match o with
  | .eq => decide (a = b)
  | .ne => decide (a ≠ b)
  | .lt => decide (a < b)
  | .le => decide (a ≤ b)
  | .gt => decide (a > b)
  | .ge => decide (a ≥ b)
  | _ => false

/-- `a o b` for operands that are both evaluated; `none` is a panic (remainder by zero). -/
def binVal (o : Op) (a b : Val) : Option Val :=
  match o, a, b with
  | .rem, .const j, .const k => if k = 0 then none else some (.const (j % k))
  | .rem, a, b =>
    match a.toInt, b.toInt with
    | some i, some j => if j = 0 then none else some (.int (i.tmod j))
    | _, _ => none
  | .eq, .float x, .const k => some (.bool (x.eqInt k))
  | .ne, .float x, .const k => some (.bool (!x.eqInt k))
  | o, a, b =>
    match a.toInt, b.toInt with
    | some i, some j => some (.bool (cmpInt o i j))
    | _, _ => none

/-- Values of the elements of an expression list; `&&` and `||` evaluate the right operand only if
needed. -/
def vals (Γ : Env) : Expr → Option (List Val)
  | .int n => some [.const n]
  | .name x => (Γ.var [x]).map ([·])
  | .sel x y => (Γ.var [x, y]).map ([·])
  | .call f a =>
    match Γ.fnOf f, vals Γ a with
    | some fn, some vs => (fn.run vs).map ([·])
    | _, _ => none
  | .slice _ a =>
    match vals Γ a with
    | some vs => (vs.mapM Val.toInt).map fun l => [.ints l]
    | none => none
  | .not e =>
    match one (vals Γ e) with
    | some (.bool b) => some [.bool !b]
    | _ => none
  | .bin .comma a b =>
    match vals Γ a, one (vals Γ b) with
    | some vs, some v => some (vs ++ [v])
    | _, _ => none
  | .bin .and a b =>
    match one (vals Γ a) with
    | some (.bool true) => vals Γ b
    | some (.bool false) => some [.bool false]
    | _ => none
  | .bin .or a b =>
    match one (vals Γ a) with
    | some (.bool false) => vals Γ b
    | some (.bool true) => some [.bool true]
    | _ => none
  | .bin o a b =>
    match one (vals Γ a), one (vals Γ b) with
    | some v, some w => (binVal o v w).map ([·])
    | _, _ => none

/-- The value of an expression. -/
def value (Γ : Env) (e : Expr) : Option Val := one (vals Γ e)

/-- The text compiles as a condition, and its value is `b`. -/
def Condition (Γ : Env) (text : List Char) (b : Bool) : Prop :=
  ∃ e, Reads text e ∧ typeOf Γ e = some .bool ∧ value Γ e = some (.bool b)

/-- `if t₁ { return a₁ } if t₂ { return a₂ } … return other` for the conditions `tᵢ` returns `a`. -/
inductive Chosen {α : Type} (Γ : Env) (other : α) : List (α × List Char) → α → Prop
  | other : Chosen Γ other [] other
  | here {a t l} : Condition Γ t true → Chosen Γ other ((a, t) :: l) a
  | next {a t l b} : Condition Γ t false → Chosen Γ other l b → Chosen Γ other ((a, t) :: l) b

/-! ## Functions with an `int` result -/

/-- The list ends in a terminating statement. -/
def Code.terminates : Code → Bool
  | .done => false
  | .ret _ .done => true
  | .ret _ k => k.terminates
  | .cond _ _ k => k.terminates

/-- Conditions are boolean, results are constants that an `int` holds (an `int64` is not an
`int`). -/
def Code.typed (Γ : Env) : Code → Bool
  | .done => true
  | .ret e k =>
    (match typeOf Γ e with
      | some (.const n) => decide (n < 2 ^ 63)
      | _ => false) && k.typed Γ
  | .cond c b k => decide (typeOf Γ c = some .bool) && b.typed Γ && k.typed Γ

/-- How a list of statements ends. -/
inductive End
  | next
  | returned (i : Int)
  | panic
  deriving DecidableEq

def Code.exec (Γ : Env) : Code → End
  | .done => .next
  | .ret e _ =>
    match value Γ e with
    | some (.const n) => .returned n
    | _ => .panic
  | .cond c b k =>
    match value Γ c with
    | some (.bool true) =>
      match b.exec Γ with
      | .next => k.exec Γ
      | r => r
    | some (.bool false) => k.exec Γ
    | _ => .panic

/-- The text compiles as the body of a function with an `int` result, and the function returns
`i`. -/
def Function (Γ : Env) (text : List Char) (i : Int) : Prop :=
  ∃ k, ReadsBody text k ∧ k.terminates = true ∧ k.typed Γ = true ∧ k.exec Γ = .returned i

end Verif.Spec.GoCode
