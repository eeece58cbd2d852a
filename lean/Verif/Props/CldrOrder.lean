import Verif.Props.Cldr
/-!
# C37: exactly when interpreted rules are deterministic
-/
namespace Verif.Props.Cldr
open Verif.Model.Cldr Verif.Cldr

/-- A rule that ends the search: it applies, or its evaluation panics. -/
inductive Decides (ops : Operands) (r : Category × Rule) : Except Fault Category → Prop
  | applies : evaluate r.2 ops = .ok true → Decides ops r (.ok r.1)
  | panics {f : Fault} : evaluate r.2 ops = .error f → Decides ops r (.error f)

/-- The form function returns what the first rule says that ends the search. -/
theorem formFunc_first (ops : Operands) : ∀ rules : List (Category × Rule),
    (formFunc rules ops = .ok .other ∧ ∀ r ∈ rules, ∀ x, ¬ Decides ops r x) ∨ ∃ r ∈ rules, Decides ops r (formFunc rules ops)
  | [] => .inl ⟨rfl, by simp⟩
  | x :: rs => by
    cases hx : evaluate x.2 ops with
    | error f =>
      have hf : formFunc (x :: rs) ops = .error f := by
        simp only [formFunc, hx, bind, Except.bind]
      exact .inr ⟨x, List.mem_cons_self, by rw [hf]; exact .panics hx⟩
    | ok b =>
      cases b with
      | true =>
        have hf : formFunc (x :: rs) ops = .ok x.1 := by
          simp only [formFunc, hx, bind, Except.bind, if_true]
        exact .inr ⟨x, List.mem_cons_self, by rw [hf]; exact .applies hx⟩
      | false =>
        have hf : formFunc (x :: rs) ops = formFunc rs ops := by
          simp only [formFunc, hx, bind, Except.bind, Bool.false_eq_true, if_false]
        have hno : ∀ y, ¬ Decides ops x y := by
          intro y hy
          cases hy with
          | applies h => rw [hx] at h; cases h
          | panics h => rw [hx] at h; cases h
        rcases formFunc_first ops rs with ⟨h1, h2⟩ | ⟨r, hr, h⟩
        · refine .inl ⟨hf.trans h1, fun r hr => ?_⟩
          rcases List.mem_cons.mp hr with e | e
          · rw [e]; exact hno
          · exact h2 r e
        · exact .inr ⟨r, List.mem_cons_of_mem _ hr, by rw [hf]; exact h⟩

theorem formFunc_head {ops : Operands} {r : Category × Rule} {x : Except Fault Category} (h : Decides ops r x)
    (rest : List (Category × Rule)) : formFunc (r :: rest) ops = x := by
  cases h with
  | applies h => simp only [formFunc, h, bind, Except.bind, if_true]
  | panics h => simp only [formFunc, h, bind, Except.bind]

/-- A rule map gives the same result in every iteration order exactly if all rules that end the search say the same. -/
theorem C37_order_iff (rules : List (Category × Rule)) (ops : Operands) :
    (∀ rules', rules'.Perm rules → formFunc rules' ops = formFunc rules ops) ↔
      ∀ p ∈ rules, ∀ q ∈ rules, ∀ x y, Decides ops p x → Decides ops q y → x = y := by
  constructor
  · intro h p hp q hq x y hx hy
    obtain ⟨s, t, rfl⟩ := List.append_of_mem hp
    obtain ⟨s', t', e⟩ := List.append_of_mem hq
    have h1 := h _ (List.perm_middle (a := p) (l₁ := s) (l₂ := t)).symm
    have h2 := h (q :: (s' ++ t')) (by rw [e]; exact (List.perm_middle (a := q) (l₁ := s') (l₂ := t')).symm)
    rw [formFunc_head hx] at h1
    rw [formFunc_head hy] at h2
    rw [h1, h2]
  · intro h rules' hp
    rcases formFunc_first ops rules with ⟨h1, h2⟩ | ⟨r, hr, h1⟩
    · rcases formFunc_first ops rules' with ⟨g1, _⟩ | ⟨s, hs, g1⟩
      · rw [h1, g1]
      · exact absurd g1 (h2 s (hp.mem_iff.mp hs) _)
    · rcases formFunc_first ops rules' with ⟨_, g2⟩ | ⟨s, hs, g1⟩
      · exact absurd h1 (g2 r (hp.mem_iff.mpr hr) _)
      · exact h s (hp.mem_iff.mp hs) r hr _ _ g1 h1

theorem same_rule : ∀ {rules : List (Category × Rule)}, (rules.map (·.1)).Nodup → ∀ {p q : Category × Rule}, p ∈ rules →
    q ∈ rules → p.1 = q.1 → p = q
  | [], _, _, _, hp, _, _ => nomatch hp
  | x :: rs, hk, p, q, hp, hq, e => by
    obtain ⟨h1, h2⟩ := List.nodup_cons.mp hk
    rcases List.mem_cons.mp hp with ep | hp
    · rcases List.mem_cons.mp hq with eq | hq
      · rw [ep, eq]
      · exact absurd (List.mem_map.mpr ⟨q, hq, by rw [← e, ep]⟩) h1
    · rcases List.mem_cons.mp hq with eq | hq
      · exact absurd (List.mem_map.mpr ⟨p, hp, by rw [e, eq]⟩) h1
      · exact same_rule h2 hp hq e

/-- If no rule panics and the categories are the keys of a map: exactly if at most one rule applies. -/
theorem C37_one_applies_iff {rules : List (Category × Rule)} {ops : Operands} (hk : (rules.map (·.1)).Nodup)
    (hok : ∀ r ∈ rules, ∃ b, evaluate r.2 ops = .ok b) :
    (∀ rules', rules'.Perm rules → formFunc rules' ops = formFunc rules ops) ↔
      ∀ p ∈ rules, ∀ q ∈ rules, evaluate p.2 ops = .ok true → evaluate q.2 ops = .ok true → p = q := by
  rw [C37_order_iff]
  constructor
  · intro h p hp q hq h1 h2
    have := h p hp q hq _ _ (.applies h1) (.applies h2)
    injection this with this
    exact same_rule hk hp hq this
  · intro h p hp q hq x y hx hy
    cases hx with
    | panics hf => obtain ⟨b, hb⟩ := hok p hp; rw [hf] at hb; cases hb
    | applies h1 =>
      cases hy with
      | panics hf => obtain ⟨b, hb⟩ := hok q hq; rw [hf] at hb; cases hb
      | applies h2 => rw [h p hp q hq h1 h2]

example : ∃ (rules : List (Category × Rule)) (ops : Operands), (rules.map (·.1)).Nodup ∧ rules.length = 2 ∧
    (∀ r ∈ rules, ∃ b, evaluate r.2 ops = .ok b) ∧
    ¬ (∀ rules', rules'.Perm rules → formFunc rules' ops = formFunc rules ops) := by
  have e1 : evaluate ⟨some (.rel (.operand ['n']) false [.value 1]), []⟩ (newOperandsInt 1) = .ok true := by decide +kernel
  have e2 : evaluate ⟨none, [['2']]⟩ (newOperandsInt 1) = .ok true := rfl
  have hok : ∀ r ∈ [(Category.one, (⟨some (.rel (.operand ['n']) false [.value 1]), []⟩ : Rule)), (.other, ⟨none, [['2']]⟩)],
      ∃ b, evaluate r.2 (newOperandsInt 1) = .ok b := by
    intro r hr
    simp only [List.mem_cons, List.not_mem_nil, or_false] at hr
    rcases hr with rfl | rfl
    · exact ⟨true, e1⟩
    · exact ⟨true, e2⟩
  refine ⟨_, newOperandsInt 1, by decide, rfl, hok, fun h => ?_⟩
  have := (C37_one_applies_iff (by decide) hok).mp h _ List.mem_cons_self _ (List.mem_cons_of_mem _ List.mem_cons_self) e1 e2
  cases this

end Verif.Props.Cldr
