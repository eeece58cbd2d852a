import Verif.Model.Cldr.GoText
import Verif.Proofs.Cldr.Generator
import Verif.Proofs.Cldr.Final
/-! The conditions of builtin_gen.go, read as Go, mean the published rules. -/
namespace Verif.Proofs.Cldr.GoText
open Verif.Cldr Verif.Spec.Cldr Verif.Proofs.Cldr Verif.Proofs.Cldr.Generator
open Verif.Model.Cldr (Operands goConds)
open Verif.Model.Cldr.Generator (goEnv)
open Verif.Spec.GoCode (lex Condition Env Chosen)
open Verif.Proofs.GoCode (parseExpr parseExpr_iff gram_unique)
open Verif.Proofs.GoText (Means)

/-- An operand other than `n` has at most one range. -/
def rangesB (c : Cond) : Bool :=
  c.all fun conj => conj.all fun r => decide (r.opd = .n) || decide ((ranges r.items).length ≤ 1)

/-- The text of the file is read as what the generator writes for the rule. -/
def sameB (r : Category × Cond) (g : Category × List Char) : Bool :=
  decide (r.1 = g.1) && rangesB r.2 &&
    match Model.Cldr.Generator.compileNode (astCond r.2) with
    | some s =>
      match parseExpr (lex g.2), parseExpr (lex s) with
      | some (e, []), some (e', []) => decide (e = e')
      | _, _ => false
    | none => false

def allSameB : List (Category × Cond) → List (Category × List Char) → Bool
  | [], [] => true
  | r :: rs, g :: gs => sameB r g && allSameB rs gs
  | _, _ => false

theorem conds_same : goConds.length = published.length ∧ ∀ x ∈ published.zip goConds, allSameB x.1.rules x.2 = true := by
  decide +kernel

theorem same_condition {ops : Operands} {o : Ops} {nv : Option Nat} (hm : Match ops o nv) {r : Category × Cond}
    {g : Category × List Char} (hw : r.2.WF (2 ^ 53)) (h : sameB r g = true) :
    r.1 = g.1 ∧ ∃ b, Condition (goEnv ops) g.2 b ∧ (b = true ↔ r.2.Holds o) := by
  simp only [sameB, Bool.and_eq_true, decide_eq_true_eq] at h
  obtain ⟨⟨hc, hr⟩, hs⟩ := h
  refine ⟨hc, ?_⟩
  simp only [rangesB, List.all_eq_true, Bool.or_eq_true, decide_eq_true_eq] at hr
  obtain ⟨s, hcs, hM, _⟩ := cond_means hm hw.1 fun conj hconj => ⟨(hw.2 conj hconj).1, fun x hx =>
    ⟨(hw.2 conj hconj).2 x hx, fun hn => (hr conj hconj x hx).resolve_left hn⟩⟩
  rw [hcs] at hs
  simp only [] at hs
  split at hs
  · rename_i e e' h1 h2
    simp only [decide_eq_true_eq] at hs
    subst hs
    obtain ⟨b, ⟨e1, hr1, ht, hv⟩, hb⟩ := hM.condition
    have : e1 = e := gram_unique hr1 (parseExpr_iff.mp h2)
    subst this
    exact ⟨b, ⟨e1, parseExpr_iff.mp h1, ht, hv⟩, hb⟩
  · exact absurd hs (by decide)

theorem same_chosen {ops : Operands} {o : Ops} {nv : Option Nat} (hm : Match ops o nv) :
    ∀ {rs : List (Category × Cond)} {gs : List (Category × List Char)}, (∀ r ∈ rs, r.2.WF (2 ^ 53)) →
      allSameB rs gs = true → ∃ c, Chosen (goEnv ops) .other gs c ∧ Selects o rs c
  | [], [], _, _ => ⟨.other, .other, .other⟩
  | [], _ :: _, _, h => by cases h
  | _ :: _, [], _, h => by cases h
  | (rc, r) :: rs, (gc, g) :: gs, hw, h => by
    simp only [allSameB, Bool.and_eq_true] at h
    obtain ⟨hc, b, hb, hi⟩ := same_condition hm (hw _ List.mem_cons_self) h.1
    simp only [] at hc hb hi
    subst hc
    cases b with
    | true => exact ⟨rc, .here hb, .hit (hi.mp rfl)⟩
    | false =>
      obtain ⟨c, h1, h2⟩ := same_chosen hm (fun r hr => hw r (List.mem_cons_of_mem _ hr)) h.2
      exact ⟨c, .next hb h1, .skip (fun hh => by have := hi.mpr hh; cases this) h2⟩

theorem selects_unique {o : Ops} : ∀ {rs : List (Category × Cond)} {c d : Category}, Selects o rs c → Selects o rs d → c = d
  | [], _, _, .other, .other => rfl
  | _ :: _, _, _, .hit _, .hit _ => rfl
  | _ :: _, _, _, .hit h, .skip h' _ => absurd h h'
  | _ :: _, _, _, .skip h' _, .hit h => absurd h h'
  | _ :: _, _, _, .skip _ h1, .skip _ h2 => selects_unique h1 h2

end Verif.Proofs.Cldr.GoText
