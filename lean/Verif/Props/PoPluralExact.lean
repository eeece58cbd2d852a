import Verif.Props.PoPlural
/-!
# C27, exactly

What spreak computes for every formula of the C grammar: the C value of another formula, `strict e`.
-/
namespace Verif.Props.PoPluralExact
open Verif.Model.PoPlural Verif.Spec.PoPlural Verif.Proofs.PoPlural Verif.Props.PoPlural Verif.Go

theorem truth_ofBool (b : Bool) : truth b = ofBool b := by cases b <;> rfl

/-- The interpreter computes the C value of the strict formula. -/
theorem strict_value (e : Expr) (m : Int) : cval (strict e) m = some (evaluate (toNode e) m) := by
  induction e with
  | n => rfl
  | num k =>
    simp only [strict, cval, toNode, evaluate, sat]
    split <;> congr 1 <;> omega
  | cond c t e ihc iht ihe =>
    simp only [strict, cval, toNode, evaluate, ihc, iht, ihe, bind, Option.bind, pure, ofBool]
    by_cases h : evaluate (toNode c) m = 1 <;> simp [h]
  | bin o x y ihx ihy =>
    cases o with
    | and =>
      simp only [strict, cval, toNode, opOf, evaluate, ihx, ihy, bind, Option.bind, pure, ofBool, truth]
      by_cases h : evaluate (toNode x) m = 1 <;> by_cases h' : evaluate (toNode y) m = 1 <;> simp [h, h']
    | or =>
      simp only [strict, cval, toNode, opOf, evaluate, ihx, ihy, bind, Option.bind, pure, ofBool, truth]
      by_cases h : evaluate (toNode x) m = 1 <;> by_cases h' : evaluate (toNode y) m = 1 <;> simp [h, h']
    | rem =>
      simp only [strict, cval, toNode, opOf, evaluate, ihx, ihy, bind, Option.bind, pure, ofBool]
      by_cases h : evaluate (toNode y) m = 0 <;> simp [h]
    | eq | ne | gt | ge | lt | le =>
      simp only [strict, cval, toNode, opOf, evaluate, ihx, ihy, bind, Option.bind, pure, truth_ofBool]

/-- The interpreted rule, before any built-in function is looked for. -/
theorem parsed {text : List Char} {k : Nat} {e : Expr} (h : Formula text k e) :
    ∃ n, astParse text = .ok ⟨sat k, n⟩ ∧ ∀ m, cval (strict e) m = some (evaluate n m) := by
  obtain ⟨n, h1, h2⟩ := astParse_complete h
  exact ⟨n, h1, fun m => by rw [strict_value, h2.eval m]⟩

/-- **C27.** For every formula without looser operators in the operands of `%`, relations and equalities: the rule computes, for every integer,
the C value of the strict formula. -/
theorem C27_exact {text : List Char} {k : Nat} {e : Expr} (h : Formula text k e) (hp : Plain 0 e) :
    ∃ r, parseRule text = .ok r ∧ r.nPlurals = min k (2 ^ 63 - 1) ∧ ∀ m, cval (strict e) m = some (r.form m) := by
  obtain ⟨n, h1, h2⟩ := parsed h
  have hsat : sat k = min k (2 ^ 63 - 1) := by unfold sat; split <;> omega
  cases hbi : getBuiltInForRawRule (compileToString ⟨sat k, n⟩) with
  | some r =>
    obtain ⟨g1, g2⟩ := builtin_plain h hp h1 hbi
    exact ⟨r, by simp [parseRule, h1, bind, Except.bind, hbi], g1.trans hsat, fun m => by rw [h2 m, g2 m]⟩
  | none =>
    exact ⟨⟨sat k, generateFormFunc ⟨sat k, n⟩⟩, by simp [parseRule, h1, bind, Except.bind, hbi], hsat, fun m => h2 m⟩

/-- **C27.** So the rule agrees with C at a number exactly if the strict formula does. -/
theorem C27_agrees_iff {text : List Char} {k : Nat} {e : Expr} (h : Formula text k e) (hp : Plain 0 e) {r : Rule}
    (hr : parseRule text = .ok r) (m v : Int) (hv : cval e m = some v) : r.form m = v ↔ cval (strict e) m = cval e m := by
  obtain ⟨r', h1, _, h2⟩ := C27_exact h hp
  rw [hr] at h1
  cases h1
  rw [h2 m, hv, Option.some.injEq]

theorem keys_clean : (rawTable.all fun p => decide ('\x00' ∉ p.1) && decide ('_' ∉ p.1)) = true := by decide +kernel

/-- **C27.** For every other formula: the rule computes the C value of the strict formula, or that of the strict formula that the normal form of
the text spells, which has lost parentheses. -/
theorem C27_any {text : List Char} {k : Nat} {e : Expr} (h : Formula text k e) :
    ∃ r, parseRule text = .ok r ∧
      ((∀ m, cval (strict e) m = some (r.form m)) ∨
        ∃ f k' e', astParse text = .ok f ∧ Formula (compileToString f) k' e' ∧ ∀ m, cval (strict e') m = some (r.form m)) := by
  obtain ⟨n, h1, h2⟩ := parsed h
  cases hbi : getBuiltInForRawRule (compileToString ⟨sat k, n⟩) with
  | none =>
    exact ⟨⟨sat k, generateFormFunc ⟨sat k, n⟩⟩, by simp [parseRule, h1, bind, Except.bind, hbi], .inl fun m => h2 m⟩
  | some r =>
    refine ⟨r, by simp [parseRule, h1, bind, Except.bind, hbi], .inr ?_⟩
    obtain ⟨f, a, _, c⟩ := C28_table hbi
    have hc : Clean (compileToString ⟨sat k, n⟩) := by
      unfold getBuiltInForRawRule at hbi
      obtain ⟨p, hfind, rfl⟩ := Option.map_eq_some_iff.mp hbi
      have hkey : p.1 = compileToString ⟨sat k, n⟩ := by simpa using List.find?_some hfind
      have := List.all_eq_true.mp keys_clean p (List.mem_of_find?_eq_some hfind)
      rw [hkey] at this
      simpa [Clean] using this
    obtain ⟨k', e', hf⟩ := astParse_sound hc a
    obtain ⟨n', a', v'⟩ := parsed hf
    rw [a] at a'
    cases a'
    exact ⟨_, k', e', h1, hf, fun m => by rw [v' m, c m]⟩

/-- A formula whose conditions are numbers: `n ? 1 : 0` is computed as `(n == 1) ? 1 : 0`. -/
example : Formula truthText 2 truthExpr ∧ Plain 0 truthExpr ∧ strict truthExpr = .cond (.bin .eq .n (.num 1)) (.num 1) (.num 0) ∧
    cval (strict truthExpr) 1 = cval truthExpr 1 ∧ cval (strict truthExpr) 2 ≠ cval truthExpr 2 :=
  ⟨truth_formula, by simp [truthExpr, Plain], by decide, by decide, by decide⟩

/-- A formula that is not plain. -/
example : Formula parenText 2 parenExpr ∧ ∃ r, parseRule parenText = .ok r :=
  ⟨paren_formula, (C27_any paren_formula).imp fun _ h => h.1⟩

end Verif.Props.PoPluralExact
