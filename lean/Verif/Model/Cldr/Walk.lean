import Verif.Model.Cldr.Generator
/-!
# catalog/cldrplural/ast/walk.go and the two functions that use it

The trees here are those of ast.go, node by node, also hand-made ones that the parser never returns.  A nil pointer in a
non-nil interface is not modelled.
-/
namespace Verif.Model.Cldr.Walk
open Verif.Go Verif.Cldr Verif.Model.Cldr

/-- catalog/cldrplural/ast/ast.go:8-45: the nodes; `nil` is the nil interface.  The field `Op` of `ModuloExpr` is an
operand and given by its name. -/
inductive Tree
  | nil
  | operand (o : List Char)
  | value (v : Int)
  | range (lo hi : Int)
  | rangeList (x y : Tree)
  | modulo (o : List Char) (v : Int)
  | binary (x : Tree) (op : Tok) (y : Tree)
  | inRelation (x : Tree) (op : Tok) (y : Tree)
  deriving DecidableEq

/-- catalog/cldrplural/ast/walk.go:8-10, 28: what `Walk` does before and after the children of a node.  `visit v` is the
method `Visit` of the visitor `v`, which may change a state or fail; `none` is the nil visitor. -/
def around {V σ ε : Type} (visit : V → Tree → σ → Except ε (Option V × σ)) (v : V) (n : Tree) (s : σ)
    (children : V → σ → Except ε σ) : Except ε σ :=
  match visit v n s with
  | .error e => .error e
  | .ok (none, s) => .ok s
  | .ok (some w, s) =>
    match children w s with
    | .error e => .error e
    | .ok s =>
      match visit w .nil s with
      | .error e => .error e
      | .ok (_, s) => .ok s

/-- catalog/cldrplural/ast/walk.go:7-29 `Walk`. -/
def walk {V σ ε : Type} (visit : V → Tree → σ → Except ε (Option V × σ)) : V → Tree → σ → Except ε σ
  | v, .rangeList x y, s => around visit v (.rangeList x y) s fun w s =>
    match walk visit w x s with
    | .error e => .error e
    | .ok s => if y = .nil then .ok s else walk visit w y s
  | v, .modulo o k, s => around visit v (.modulo o k) s fun w s => around visit w (.operand o) s fun _ s => .ok s
  | v, .binary x op y, s => around visit v (.binary x op y) s fun w s =>
    match walk visit w x s with
    | .error e => .error e
    | .ok s => walk visit w y s
  | v, .inRelation x op y, s => around visit v (.inRelation x op y) s fun w s =>
    match walk visit w x s with
    | .error e => .error e
    | .ok s => walk visit w y s
  | v, n, s => around visit v n s fun _ s => .ok s

/-- catalog/cldrplural/ast/walk.go:31-38 `inspector.Visit`: the visitor is the function itself. -/
def inspector {σ ε : Type} (f : Tree → σ → Except ε (Bool × σ)) (_ : Unit) (n : Tree) (s : σ) : Except ε (Option Unit × σ) :=
  (f n s).map fun r => (if r.1 then some () else none, r.2)

/-- catalog/cldrplural/ast/walk.go:40-42 `Inspect`; the state is that of the variables the function `f` has captured. -/
def inspect {σ ε : Type} (n : Tree) (f : Tree → σ → Except ε (Bool × σ)) (s : σ) : Except ε σ := walk (inspector f) () n s

/-- catalog/cldrplural/evaluation.go:74-89: the function given to `Inspect`; the state is `inRelation`. -/
def inRelation (x : F64) : Tree → Bool → Except Fault (Bool × Bool)
  | .value v, s => .ok (if x.eqInt v then (false, true) else (true, s))
  | .range lo hi, s => (itemMatches x (.range lo hi)).map fun b => if b then (false, true) else (true, s)
  | _, s => .ok (true, s)

/-- catalog/cldrplural/evaluation.go:101-145 `evaluateExpression`; the panic for another node is taken for that for
an invalid operand. -/
def evaluateExpr : Tree → Operands → Except Fault F64
  | .modulo o v, ops => moduloFloat o v ops
  | .operand o, ops => operandFloat o ops
  | _, _ => .error .invalidOperand

/-- catalog/cldrplural/evaluation.go:61-99 `evaluateNode`. -/
def evaluateTree : Tree → Operands → Except Fault Bool
  | .binary x op y, ops => do
    let l ← evaluateTree x ops
    let r ← evaluateTree y ops
    .ok (if op = .and then l && r else l || r)
  | .inRelation x op y, ops => do
    let v ← evaluateExpr x ops
    let b ← inspect y (inRelation v) false
    .ok (if op = .notEqual then !b else b)
  | _, _ => .ok false

/-- catalog/cldrplural/generator/compiler.go:41-53: the function given to `Inspect`; the state is `singleValues` and
`valueRanges`. -/
def collect : Tree → List (List Char) × List (List Char) → Except Empty (Bool × List (List Char) × List (List Char))
  | .value v, (vs, rs) => .ok (true, vs ++ [Generator.formatInt v], rs)
  | .range lo hi, (vs, rs) => .ok (true, vs, rs ++ [Generator.formatInt lo, Generator.formatInt hi])
  | _, s => .ok (true, s)

/-- catalog/cldrplural/ast/parser.go:176-205: the node of an expression, in the short form of `Verif.Model.Cldr.Ast`. -/
def exprTree : ExprNode → Tree
  | .operand o => .operand o
  | .modulo o v => .modulo o v

/-- catalog/cldrplural/ast/parser.go:208-220, 256-289: a value or range. -/
def itemTree : Item → Tree
  | .value v => .value v
  | .range lo hi => .range lo hi

/-- catalog/cldrplural/ast/parser.go:223-253 `rangeList`: the nodes of a list. -/
def listTree : List Item → Tree
  | [] => .nil
  | it :: its => .rangeList (itemTree it) (listTree its)

/-- catalog/cldrplural/ast/parser.go:95-174: the nodes of a condition. -/
def nodeTree : Node → Tree
  | .rel x ne y => .inRelation (exprTree x) (if ne then .notEqual else .equal) (listTree y)
  | .and x y => .binary (nodeTree x) .and (nodeTree y)
  | .or x y => .binary (nodeTree x) .or (nodeTree y)

end Verif.Model.Cldr.Walk
