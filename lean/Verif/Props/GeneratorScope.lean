import Verif.Props.Generator
/-!
# C88: exactly which generated conditions compile
-/
namespace Verif.Props.GeneratorScope
open Verif.Go Verif.Cldr
open Verif.Spec.GoCode Verif.Spec.Cldr
open Verif.Proofs.GoText Verif.Proofs.GoCode Verif.Proofs.Cldr Verif.Proofs.Cldr.Generator
open Verif.Model.Cldr (Operands newOperandsString)
open Verif.Model.Cldr.Generator (convertToGo goEnv goFn goVarTy compileNode compileRel rangesText wrap isFloatOperand)
open Verif.Props.Generator (FewRanges ranges_length)

/-- The name stands somewhere in the expression. -/
def Mentions (x : List Char) : Spec.GoCode.Expr → Prop
  | .int _ => False
  | .name y => x = y
  | .sel y z => x = y ∨ x = z
  | .call f a => Mentions x f ∨ Mentions x a
  | .slice y a => x = y ∨ Mentions x a
  | .not e => Mentions x e
  | .bin _ a b => Mentions x a ∨ Mentions x b

theorem mentions {x : List Char} {k : Nat} {ts : List Tok} {e : Spec.GoCode.Expr} (h : Gram k ts e) (hx : .name x ∈ ts) : Mentions x e := by
  induction h with
  | int n => simp at hx
  | name y => simpa [Mentions] using hx
  | sel y z => simpa [Mentions] using hx
  | paren _ ih => exact ih (by simpa using hx)
  | call _ _ ih1 ih2 =>
    simp only [List.append_assoc, List.cons_append, List.mem_append, List.mem_cons, reduceCtorEq, List.not_mem_nil, false_or,
      or_false] at hx
    exact hx.imp ih1 ih2
  | slice y _ ih =>
    simp only [List.cons_append, List.mem_append, List.mem_cons, reduceCtorEq, List.not_mem_nil, false_or, or_false,
      Tok.name.injEq] at hx
    exact hx.imp id ih
  | not _ ih => exact ih (by simpa using hx)
  | up _ ih => exact ih hx
  | bin o _ _ ih1 ih2 =>
    simp only [List.mem_append, List.mem_cons, reduceCtorEq, false_or] at hx
    exact hx.imp ih1 ih2

/-- A name that is in scope nowhere does not compile. -/
theorem no_type {Γ : Env} {x : List Char} (h1 : Γ.varTy [x] = none) (h2 : ∀ y, Γ.varTy [x, y] = none ∧ Γ.varTy [y, x] = none)
    (h3 : Γ.fn [x] = none) (h4 : ∀ y, Γ.fn [x, y] = none ∧ Γ.fn [y, x] = none) (h5 : x ≠ ['i', 'n', 't', '6', '4']) :
    ∀ {e : Spec.GoCode.Expr}, Mentions x e → tys Γ e = none
  | .int _, h => h.elim
  | .name y, h => by
    obtain rfl : x = y := h
    simp [tys, h1]
  | .sel y z, h => by
    rcases h with rfl | rfl
    · simp [tys, (h2 z).1]
    · simp [tys, (h2 y).2]
  | .call f a, h => by
    rcases h with h | h
    · have : Γ.fnOf f = none := by
        cases f with
        | name y => obtain rfl : x = y := h; exact h3
        | sel y z =>
          rcases h with rfl | rfl
          · exact (h4 z).1
          · exact (h4 y).2
        | _ => rfl
      simp [tys, this]
    · simp only [tys, no_type h1 h2 h3 h4 h5 h]
      split <;> simp_all
  | .slice y a, h => by
    rcases h with rfl | h
    · simp only [tys]
      split
      · rw [if_neg (fun hc => h5 hc.1)]
      · rfl
    · simp only [tys, no_type h1 h2 h3 h4 h5 h]
  | .not e, h => by
    have := no_type h1 h2 h3 h4 h5 (e := e) h
    simp [tys, this, one]
  | .bin o a b, h => by
    rcases h with h | h <;> have := no_type h1 h2 h3 h4 h5 h <;> cases o <;> simp [tys, this, one]

/-- The function that the generator calls for two ranges. -/
def missing : List Char := "isIntInRange".toList

theorem missing_var : goVarTy [missing] = none ∧ ∀ y, goVarTy [missing, y] = none ∧ goVarTy [y, missing] = none := by
  have hl : missing.length = 12 := by decide
  have h1 : ∀ (a b : List Char), [missing] ≠ [a, b] := fun a b h => by cases h
  have h2 : ∀ (y a b : List Char), a.length ≠ 12 → [missing, y] ≠ [a, b] := fun y a b ha h => by
    injection h with h; rw [← h] at ha; exact ha hl
  have h3 : ∀ (y a b : List Char), b.length ≠ 12 → [y, missing] ≠ [a, b] := fun y a b hb h => by
    injection h with _ h; injection h with h; rw [← h] at hb; exact hb hl
  refine ⟨?_, fun y => ⟨?_, ?_⟩⟩ <;> unfold goVarTy
  · simp only [h1, if_false]
  · rw [if_neg (h2 _ _ _ (by decide)), if_neg (h2 _ _ _ (by decide)), if_neg (h2 _ _ _ (by decide)), if_neg (h2 _ _ _ (by decide)),
      if_neg (h2 _ _ _ (by decide)), if_neg (h2 _ _ _ (by decide)), if_neg (h2 _ _ _ (by decide))]
  · rw [if_neg (h3 _ _ _ (by decide)), if_neg (h3 _ _ _ (by decide)), if_neg (h3 _ _ _ (by decide)), if_neg (h3 _ _ _ (by decide)),
      if_neg (h3 _ _ _ (by decide)), if_neg (h3 _ _ _ (by decide)), if_neg (h3 _ _ _ (by decide))]

theorem missing_fn : goFn [missing] = none ∧ ∀ y, goFn [missing, y] = none ∧ goFn [y, missing] = none := by
  have hl : missing.length = 12 := by decide
  have h0 : ∀ (a b x : List Char), [a, b] ≠ [x] := fun a b x h => by cases h
  have h1 : ∀ (a b : List Char), [missing] ≠ [a, b] := fun a b h => by cases h
  have h2 : ∀ (y a b : List Char), a.length ≠ 12 → [missing, y] ≠ [a, b] := fun y a b ha h => by
    injection h with h; rw [← h] at ha; exact ha hl
  have h3 : ∀ (y a b : List Char), b.length ≠ 12 → [y, missing] ≠ [a, b] := fun y a b hb h => by
    injection h with _ h; injection h with h; rw [← h] at hb; exact hb hl
  refine ⟨?_, fun y => ⟨?_, ?_⟩⟩ <;> unfold goFn
  · rw [if_neg (by decide +kernel), if_neg (by decide +kernel), if_neg (h1 _ _), if_neg (h1 _ _)]
  · rw [if_neg (h0 _ _ _), if_neg (h0 _ _ _), if_neg (h2 _ _ _ (by decide)), if_neg (h2 _ _ _ (by decide))]
  · rw [if_neg (h0 _ _ _), if_neg (h0 _ _ _), if_neg (h3 _ _ _ (by decide)), if_neg (h3 _ _ _ (by decide))]

theorem missing_scope (ops : Operands) {e : Spec.GoCode.Expr} (h : Mentions missing e) : tys (goEnv ops) e = none :=
  no_type (x := missing) missing_var.1 missing_var.2 missing_fn.1 missing_fn.2 (by decide) h

theorem semis_mem {t : Tok} (ht : t ≠ .nl) : ∀ (prev : Option Tok) {ts : List Tok}, t ∈ ts → t ∈ semis prev ts
  | _, [], h => nomatch h
  | prev, u :: ts, h => by
    rcases List.mem_cons.mp h with rfl | h'
    · cases t <;> first | exact absurd rfl ht | simp [semis]
    · have ih := fun p => semis_mem ht p h'
      cases u <;> simp only [semis] <;> first | exact List.mem_cons_of_mem _ (ih _) | skip
      split
      · exact List.mem_cons_of_mem _ (ih _)
      · exact ih _

/-! ## The call stands in the text -/

/-- The text has the call, and no identifier goes on to its left. -/
def Calls (s : List Char) : Prop :=
  ∃ a b, s = a ++ (missing ++ '(' :: b) ∧ ∀ c, a.getLast? = some c → isWordChar c = false

theorem Calls.tok {s : List Char} (h : Calls s) : .name missing ∈ T s := by
  obtain ⟨a, b, rfl, ha⟩ := h
  have h1 : T (a ++ (missing ++ '(' :: b)) = T a ++ T (missing ++ '(' :: b) := by
    apply lex_append
    intro x y hx hy
    have hy' : y = 'i' := by
      have : (missing ++ '(' :: b).head? = some 'i' := rfl
      rw [this] at hy; cases hy; rfl
    subst hy'
    simp [fuse, ha x hx, pairTok]
  have h2 : T (missing ++ '(' :: b) = [.name missing, .lp] ++ T b := by
    have e : missing ++ '(' :: b = "isIntInRange(".toList ++ b := rfl
    rw [e, T_pre _ _ ⟨'(', by decide, by decide⟩]
    congr 1
  rw [h1, h2]
  simp

theorem Calls.suf {s : List Char} (h : Calls s) (t : List Char) : Calls (s ++ t) := by
  obtain ⟨a, b, rfl, ha⟩ := h
  exact ⟨a, b ++ t, by simp, ha⟩

theorem Calls.pre {s : List Char} (h : Calls s) {t : List Char} (ht : ∀ c, t.getLast? = some c → isWordChar c = false) :
    Calls (t ++ s) := by
  obtain ⟨a, b, rfl, ha⟩ := h
  refine ⟨t ++ a, b, by simp, fun c hc => ?_⟩
  rw [List.getLast?_append] at hc
  cases hl : a.getLast? with
  | none => rw [hl] at hc; exact ht c hc
  | some d => rw [hl] at hc; cases hc; exact ha _ hl

theorem Calls.wrap {neg : Bool} {s : List Char} (h : Calls s) : Calls (wrap neg s) := by
  have h1 : ∀ p : List Char, (∀ c, p.getLast? = some c → isWordChar c = false) → Calls (p ++ s) := fun p hp => h.pre hp
  unfold Model.Cldr.Generator.wrap
  split
  · split
    · exact (h1 "( ".toList (by decide)).suf _
    · exact h
  · split
    · exact (h1 "!( ".toList (by decide)).suf _
    · exact h1 ['!'] (by decide)

theorem calls_ranges (s : List Char) : ∀ {rs : List (Nat × Nat)}, 2 ≤ rs.length →
    Calls (rangesText s false ((flat rs).map dec))
  | [], h => absurd h (by simp)
  | [_], h => absurd h (by simp)
  | (a, b) :: (c, d) :: rs, _ => by
    have e : rangesText s false ((flat ((a, b) :: (c, d) :: rs)).map dec) =
        "isIntInRange(".toList ++ s ++ ", ".toList ++
          Model.Cldr.Generator.joinComma ((flat ((a, b) :: (c, d) :: rs)).map dec) ++ ")".toList := rfl
    rw [e]
    refine ⟨[], s ++ ", ".toList ++ Model.Cldr.Generator.joinComma ((flat ((a, b) :: (c, d) :: rs)).map dec) ++ ")".toList, ?_, by simp⟩
    simp only [List.append_assoc]
    rfl

theorem not_float {r : Rel} (hn : r.opd ≠ .n) : isFloatOperand (astExpr r) = false := by
  have h : r.opd.text ≠ ['n'] := by
    intro h; apply hn
    revert h
    cases r.opd <;> simp [Opd.text]
  unfold astExpr
  cases r.mod <;> simp [isFloatOperand, h]

theorem calls_rel {r : Rel} {s : List Char} (h : compileNode (astRel r) = some s) (hn : r.opd ≠ .n)
    (h2 : 2 ≤ (ranges r.items).length) : Calls s := by
  simp only [astRel, compileNode, compileRel, singleValues_eq, valueRanges_eq, not_float hn] at h
  have hne : ¬ (flat (ranges r.items)).map dec = [] := by
    intro h0
    refine flat_ne ?_ (List.map_eq_nil_iff.mp h0)
    intro h1; rw [h1] at h2; exact absurd h2 (by decide)
  split at h
  · cases h
  · rename_i expr _
    have hc := calls_ranges expr h2
    simp only [hne, false_and, if_false] at h
    split at h
    · cases h; exact hc.wrap
    · cases h
      refine Calls.wrap ?_
      simp only [List.append_assoc]
      exact hc.suf _
    · cases h
      refine Calls.wrap ?_
      simp only [List.append_assoc]
      exact hc.suf _

theorem calls_conj : ∀ {c : List Rel} {s : List Char}, compileNode (astConj c) = some s →
    (∃ r ∈ c, r.opd ≠ .n ∧ 2 ≤ (ranges r.items).length) → Calls s
  | [], _, _, ⟨_, h, _⟩ => nomatch h
  | [r], s, h, ⟨x, hx, hn, h2⟩ => by
    rw [List.mem_singleton] at hx
    subst hx
    exact calls_rel h hn h2
  | r :: r2 :: rs, s, h, ⟨x, hx, hn, h2⟩ => by
    simp only [astConj, compileNode] at h
    split at h
    · rename_i l t hl ht
      cases h
      rcases List.mem_cons.mp hx with rfl | hx
      · rw [List.append_assoc]
        exact (calls_rel hl hn h2).suf _
      · refine (calls_conj ht ⟨x, hx, hn, h2⟩).pre fun c hc => ?_
        rw [List.getLast?_append] at hc
        cases hc; decide
    · cases h

theorem calls_cond : ∀ {c : Cond} {s : List Char}, compileNode (astCond c) = some s →
    (∃ conj ∈ c, ∃ r ∈ conj, r.opd ≠ .n ∧ 2 ≤ (ranges r.items).length) → Calls s
  | [], _, _, ⟨_, h, _⟩ => nomatch h
  | [r], s, h, ⟨x, hx, hr⟩ => by
    rw [List.mem_singleton] at hx
    subst hx
    exact calls_conj h hr
  | r :: r2 :: rs, s, h, ⟨x, hx, hr⟩ => by
    simp only [astCond, compileNode] at h
    split at h
    · rename_i l t hl ht
      cases h
      rcases List.mem_cons.mp hx with rfl | hx
      · rw [List.append_assoc]
        exact (calls_conj hl hr).suf _
      · refine (calls_cond ht ⟨x, hx, hr⟩).pre fun c hc => ?_
        rw [List.getLast?_append] at hc
        cases hc; decide
    · cases h

/-- The types do not depend on the operands. -/
theorem tys_ops (a b : Operands) : ∀ e : Spec.GoCode.Expr, tys (goEnv a) e = tys (goEnv b) e
  | .int _ => rfl
  | .name _ => rfl
  | .sel _ _ => rfl
  | .call f x => by
    have h : (goEnv a).fnOf f = (goEnv b).fnOf f := by cases f <;> rfl
    simp only [tys, tys_ops a b x, h]
  | .slice _ x => by simp only [tys, tys_ops a b x]
  | .not e => by simp only [tys, tys_ops a b e]
  | .bin o x y => by
    have h1 := tys_ops a b x
    have h2 := tys_ops a b y
    cases o <;> simp only [tys, h1, h2]

/-- The condition that the generator writes for a rule of the UTS 35 grammar compiles exactly if no
operand other than `n` has two ranges in one relation. -/
theorem C88_compiles_iff {c : Cond} (hc : c.WF (2 ^ 53)) (budget : Nat) (ops : Operands) :
    (∃ s e, convertToGo budget c.text = some s ∧ Reads s e ∧ typeOf (goEnv ops) e = some .bool) ↔ FewRanges c := by
  constructor
  · rintro ⟨s, e, hs, hr, ht⟩ conj hconj r hrc hn
    by_contra hlt
    have h2 : 2 ≤ (ranges r.items).length := by rw [ranges_length]; omega
    unfold convertToGo at hs
    rw [parse_cond_plain (b := 2 ^ 53) (by decide) hc budget] at hs
    have hcall := calls_cond hs ⟨conj, hconj, r, hrc, hn, h2⟩
    have hm := mentions hr (semis_mem (by simp) none hcall.tok)
    rw [typeOf, missing_scope ops hm] at ht
    cases ht
  · intro hf
    obtain ⟨s, ops', b, hs, -, ⟨e, hr, ht, -⟩, -⟩ := Generator.C88_generated_condition_partial hc hf (d := ⟨['0'], []⟩)
      (by simp [Decimal.WF]) (.inl (by decide)) budget (fun _ => none) (fun _ => 0)
    refine ⟨s, e, hs, hr, ?_⟩
    rw [← ht]
    unfold typeOf
    rw [tys_ops]

example : Generator.twoRanges.WF (2 ^ 53) ∧ ¬ FewRanges Generator.twoRanges ∧
    Generator.genCond.WF (2 ^ 53) ∧ FewRanges Generator.genCond := by
  refine ⟨condOk_wf (by decide +kernel), ?_, condOk_wf (by decide +kernel), ?_⟩
  · intro h
    exact absurd (h _ (by simp [Generator.twoRanges]; rfl) _ (List.mem_singleton.mpr rfl) (by decide)) (by decide)
  · unfold FewRanges; decide

end Verif.Props.GeneratorScope
