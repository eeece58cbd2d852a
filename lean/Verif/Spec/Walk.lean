import Verif.Model.Cldr.Walk
/-!
# What a walk over a tree should do (C124)
-/
namespace Verif.Spec.Walk
open Verif.Model.Cldr.Walk (Tree)

/-- The fields of a node that are nodes, in the order of their declaration (catalog/cldrplural/ast/ast.go:12-45).  The
second field of a `RangeListExpr` is optional. -/
def children : Tree → List Tree
  | .nil => []
  | .operand _ => []
  | .value _ => []
  | .range _ _ => []
  | .rangeList x y => if y = .nil then [x] else [x, y]
  | .modulo o _ => [.operand o]
  | .binary x _ y => [x, y]
  | .inRelation x _ y => [x, y]

mutual
/-- A sequence of calls is a walk: `(v, n, some w)` is a call of the method `Visit` of `v` with the node `n` that returns the visitor
`w`.  If there is one, it walks the children of the node one after the other and is then called without a node. -/
inductive Trace {V : Type} : V → Tree → List (V × Tree × Option V) → Prop
  | skipped (v : V) (n : Tree) : Trace v n [(v, n, none)]
  | entered {v w : V} {n : Tree} {calls : List (V × Tree × Option V)} (r : Option V) : Traces w (children n) calls →
      Trace v n ((v, n, some w) :: (calls ++ [(w, .nil, r)]))
/-- Walks of several trees. -/
inductive Traces {V : Type} : V → List Tree → List (V × Tree × Option V) → Prop
  | nil (v : V) : Traces v [] []
  | cons {v : V} {n : Tree} {ns : List Tree} {a b : List (V × Tree × Option V)} : Trace v n a → Traces v ns b →
      Traces v (n :: ns) (a ++ b)
end

/-- These calls, one after the other, give these answers and take the state `s` to `s'`. -/
def Answers {V σ ε : Type} (visit : V → Tree → σ → Except ε (Option V × σ)) : List (V × Tree × Option V) → σ → σ → Prop
  | [], s, s' => s = s'
  | (v, n, r) :: calls, s, s' => ∃ t, visit v n s = .ok (r, t) ∧ Answers visit calls t s'

/-- The node at the address `p` of the tree `n` is `m`, and `f` says yes to all nodes above it. -/
def Under (f : Tree → Bool) : Tree → List Nat → Tree → Prop
  | n, [], m => n = m
  | n, i :: p, m => f n = true ∧ ∃ c, (children n)[i]? = some c ∧ Under f c p m

end Verif.Spec.Walk
