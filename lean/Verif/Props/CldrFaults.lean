import Verif.Proofs.Cldr.Final
/-!
# C38: exactly when a parsed CLDR rule can be evaluated

`relations` lists the comparisons of a tree, `Works` says of one comparison what its evaluation needs.
-/
namespace Verif.Props.CldrFaults
open Verif.Go Verif.Model.Cldr Verif.Cldr Verif.Proofs.Cldr

/-- The comparisons of a condition: the left side and the values on the right side. -/
def relations : Node → List (ExprNode × List Item)
  | .rel x _ its => [(x, its)]
  | .and x y => relations x ++ relations y
  | .or x y => relations x ++ relations y

/-- The comparison can be evaluated: its operand is written in lower case, it has no modulus zero
(except that of `n`, a float64), and no range up to the largest int64 holds the value of the left
side without an integer near to it. -/
def Works (ops : Operands) (r : ExprNode × List Item) : Prop :=
  (∀ o, r.1 = .operand o → o.map lower = o) ∧
  (∀ o m, r.1 = .modulo o m → o.map lower = o ∧ (m = 0 → o = ['n'])) ∧
  ∀ lo x, .range lo (2 ^ 63 - 1) ∈ r.2 → evaluateExpression r.1 ops = .ok x →
    x.geInt lo = true → x.leInt (2 ^ 63 - 1) = true →
    ∃ k : Nat, k < (2 ^ 63 - 1 - lo + 1).toNat ∧ floatEqual (lo + k) x = true

theorem item_works (x : F64) (it : Item) : (∃ b, itemMatches x it = .ok b) ↔
    ∀ lo, it = .range lo (2 ^ 63 - 1) → x.geInt lo = true → x.leInt (2 ^ 63 - 1) = true →
      ∃ k : Nat, k < (2 ^ 63 - 1 - lo + 1).toNat ∧ floatEqual (lo + k) x = true := by
  cases it with
  | value v => exact ⟨fun _ lo h => (nomatch h), fun _ => ⟨_, rfl⟩⟩
  | range lo hi =>
    have hin : isFloatInRange x [(lo, hi)] = true ↔ x.geInt lo = true ∧ x.leInt hi = true ∧
        ∃ k : Nat, k < (hi - lo + 1).toNat ∧ floatEqual (lo + k) x = true := by
      simp only [isFloatInRange, List.any_cons, List.any_nil, Bool.or_false, Bool.and_eq_true, List.any_eq_true,
        List.mem_range, and_assoc]
    simp only [itemMatches]
    constructor
    · rintro ⟨b, hb⟩ lo' he hg hl
      cases he
      split at hb
      · rename_i h; exact (hin.mp h).2.2
      · rw [if_pos ⟨rfl, hg, hl⟩] at hb; cases hb
    · intro h
      split
      · exact ⟨_, rfl⟩
      · rename_i hn
        split
        · rename_i hf
          obtain ⟨rfl, hg, hl⟩ := hf
          exact absurd (hin.mpr ⟨hg, hl, h lo rfl hg hl⟩) hn
        · exact ⟨_, rfl⟩

theorem any_works (x : F64) : ∀ its : List Item, (∃ b, anyItem x its = .ok b) ↔
    ∀ lo, .range lo (2 ^ 63 - 1) ∈ its → x.geInt lo = true → x.leInt (2 ^ 63 - 1) = true →
      ∃ k : Nat, k < (2 ^ 63 - 1 - lo + 1).toNat ∧ floatEqual (lo + k) x = true
  | [] => ⟨fun _ lo h => (by cases h), fun _ => ⟨_, rfl⟩⟩
  | it :: its => by
    have h1 := item_works x it
    have h2 := any_works x its
    have h : (∃ b, anyItem x (it :: its) = .ok b) ↔ (∃ b, itemMatches x it = .ok b) ∧ ∃ b, anyItem x its = .ok b := by
      simp only [anyItem, bind, Except.bind]
      cases ha : itemMatches x it with
      | error e => simp
      | ok a =>
        cases hb : anyItem x its with
        | error e => simp
        | ok b => simp
    rw [h, h1, h2]
    constructor
    · rintro ⟨ha, hb⟩ lo hm
      rcases List.mem_cons.mp hm with h | h
      · exact ha lo h.symm
      · exact hb lo h
    · intro ha
      exact ⟨fun lo h => ha lo (by rw [h]; exact List.mem_cons_self), fun lo h => ha lo (List.mem_cons_of_mem _ h)⟩

/-- An operand whose lower case form is a letter of the grammar is one iff it is in lower case. -/
theorem letter_iff {o : List Char} (h : o.map lower ∈ opLetters) : o ∈ opLetters ↔ o.map lower = o := by
  constructor
  · intro ho
    rcases letter_cases ho with h | h | h | h | h | h | h | h <;> subst h <;> decide
  · intro he; rw [← he]; exact h

theorem expr_works {x : ExprNode} (h : (ExprNode.name x).map lower ∈ opLetters) (ops : Operands) :
    (∃ v, evaluateExpression x ops = .ok v) ↔
      (∀ o, x = .operand o → o.map lower = o) ∧ (∀ o m, x = .modulo o m → o.map lower = o ∧ (m = 0 → o = ['n'])) := by
  have hbad : ∀ o : List Char, o ∉ opLetters → o ≠ ['n'] ∧ o ≠ ['i'] ∧ o ≠ ['v'] ∧ o ≠ ['w'] ∧ o ≠ ['f'] ∧ o ≠ ['t'] ∧
      ¬ (o = ['c'] ∨ o = ['e']) := by
    intro o ho
    simp only [opLetters, List.mem_cons, List.not_mem_nil, or_false, not_or] at ho
    exact ⟨ho.1, ho.2.1, ho.2.2.1, ho.2.2.2.1, ho.2.2.2.2.1, ho.2.2.2.2.2.1, fun h => h.elim ho.2.2.2.2.2.2.1 ho.2.2.2.2.2.2.2⟩
  cases x with
  | operand o =>
    constructor
    · rintro ⟨v, hv⟩
      refine ⟨fun o' he => ?_, fun o' m he => by cases he⟩
      cases he
      refine (letter_iff h).mp (Classical.byContradiction fun hn => ?_)
      obtain ⟨h1, h2, h3, h4, h5, h6, h7⟩ := hbad o hn
      simp only [evaluateExpression, operandFloat, if_neg h1, if_neg h2, if_neg h3, if_neg h4, if_neg h5, if_neg h6,
        if_neg h7] at hv
      cases hv
    · intro hw
      exact expr_ok _ ops ((letter_iff h).mpr (hw.1 o rfl)) (fun o' m he => by cases he)
  | modulo o m =>
    constructor
    · rintro ⟨v, hv⟩
      refine ⟨fun o' he => (nomatch he), fun o' m' he => ?_⟩
      cases he
      have hin : o ∈ opLetters := by
        refine Classical.byContradiction fun hn => ?_
        obtain ⟨h1, h2, h3, h4, h5, h6, h7⟩ := hbad o hn
        simp only [evaluateExpression, moduloFloat, if_neg h1, if_neg h2, if_neg h3, if_neg h4, if_neg h5, if_neg h6,
          if_neg h7] at hv
        cases hv
      refine ⟨(letter_iff h).mp hin, fun h0 => ?_⟩
      subst h0
      rcases letter_cases hin with h | h | h | h | h | h | h | h <;> subst h
      · rfl
      all_goals (exact absurd hv (by intro hh; cases hh))
    · intro hw
      refine expr_ok _ ops ((letter_iff h).mpr (hw.2 o m rfl).1) fun o' m' he => ?_
      cases he
      by_cases h0 : m = 0
      · exact Or.inl ((hw.2 o m rfl).2 h0)
      · exact Or.inr h0

theorem node_works (ops : Operands) : ∀ n : Node, NodeNames (fun _ => True) n →
    ((∃ b, evaluateNode n ops = .ok b) ↔ ∀ r ∈ relations n, Works ops r)
  | .rel x neg its, hn => by
    have hx := expr_works hn.2 ops
    simp only [relations, List.mem_singleton, forall_eq, Works, evaluateNode, bind, Except.bind]
    rw [← and_assoc, ← hx]
    cases hv : evaluateExpression x ops with
    | error e => simp
    | ok v =>
      have ha := any_works v its
      have : (∃ b, Except.bind (anyItem v its) (fun b => .ok (if neg = true then !b else b)) = .ok b) ↔ ∃ b, anyItem v its = .ok b := by
        cases anyItem v its with
        | error e => simp [Except.bind]
        | ok b => simp [Except.bind]
      constructor
      · intro hb
        refine ⟨⟨v, rfl⟩, fun lo x hm he => ?_⟩
        cases he
        exact ha.mp (this.mp hb) lo hm
      · rintro ⟨_, h⟩
        exact this.mpr (ha.mpr fun lo hm => h lo v hm rfl)
  | .and x y, hn => by
    have h1 := node_works ops x hn.1
    have h2 := node_works ops y hn.2
    simp only [relations, List.forall_mem_append, ← h1, ← h2, evaluateNode, bind, Except.bind]
    cases evaluateNode x ops with
    | error e => simp
    | ok a =>
      cases evaluateNode y ops with
      | error e => simp
      | ok b => simp
  | .or x y, hn => by
    have h1 := node_works ops x hn.1
    have h2 := node_works ops y hn.2
    simp only [relations, List.forall_mem_append, ← h1, ← h2, evaluateNode, bind, Except.bind]
    cases evaluateNode x ops with
    | error e => simp
    | ok a =>
      cases evaluateNode y ops with
      | error e => simp
      | ok b => simp

/-- A rule that was accepted can be evaluated iff every one of its comparisons works. -/
theorem C38_works_iff {budget : Nat} {text : List Char} {rule : Rule} (h : parse budget text = .ok rule)
    (ops : Operands) :
    (∃ b, evaluate rule ops = .ok b) ↔ ∀ n, rule.root = some n → ∀ r ∈ relations n, Works ops r := by
  unfold evaluate
  cases hr : rule.root with
  | none => exact ⟨fun _ n hn => (nomatch hn), fun _ => ⟨true, rfl⟩⟩
  | some n =>
    simp only [Option.some.injEq, forall_eq']
    exact node_works ops n (parse_names (fun _ _ => trivial) h n hr)

/-- Evaluation fails as soon as one comparison fails: nothing is skipped because the result is already
known. -/
theorem C38_no_short_cut {budget : Nat} :
    ∃ rule, parse budget "i = 1 or i % 0 = 1".toList = .ok rule ∧ ∀ ops, evaluate rule ops = .error .divideByZero := by
  refine ⟨⟨some (.or (.rel (.operand ['i']) false [.value 1]) (.rel (.modulo ['i'] 0) false [.value 1])), []⟩, ?_, fun ops => rfl⟩
  rfl

/-- The tree of `n % 10 = 2..4 and i mod 7 != 3`. -/
def someNode : Node :=
  .and (.rel (.modulo ['n'] 10) false [.range 2 4]) (.rel (.modulo ['i'] 7) true [.value 3])

example : parse 9 "n % 10 = 2..4 and i mod 7 != 3".toList = .ok ⟨some someNode, []⟩ ∧
    (relations someNode).length = 2 ∧ ∀ ops, ∀ r ∈ relations someNode, Works ops r := by
  refine ⟨by decide +kernel, rfl, fun ops r hr => ?_⟩
  simp only [someNode, relations, List.mem_append, List.mem_singleton] at hr
  rcases hr with rfl | rfl
  · refine ⟨fun o h => (nomatch h), fun o m h => ?_, fun lo x h => ?_⟩
    · cases h; exact ⟨by decide, by decide⟩
    · simp at h
  · refine ⟨fun o h => (nomatch h), fun o m h => ?_, fun lo x h => ?_⟩
    · cases h; exact ⟨by decide, by decide⟩
    · simp at h

end Verif.Props.CldrFaults
