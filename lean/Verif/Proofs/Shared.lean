import Verif.Proofs.Cldr.Builtin
import Verif.Proofs.Cldr.Eval
import Verif.Model.PoPlural.Builtin
import Verif.Spec.SharedPlurals
/-! The gettext rule and the CLDR rule set of a language agree on the integers (generated, one theorem
per pair of rules that occurs). -/
namespace Verif.Proofs.Shared
open Verif.Go Verif.Cldr Verif.Proofs.Cldr Verif.Spec.SharedPlurals
open Verif.Model.Cldr (newOperandsInt Operands isFloatInRange isFloatOneOf RuleSet)
open Verif.Model.PoPlural (Rule)

/-- The rules agree on the integers that a float64 holds exactly. -/
abbrev Fits (r : Rule) (rs : RuleSet) : Prop :=
  Agree (2 ^ 53) r.nPlurals r.form (fun n => rs.form (newOperandsInt n))

theorem ops_int (n : Nat) : newOperandsInt n = ⟨F64.ofInt n, n, 0, 0, 0, 0, 0⟩ := by
  unfold newOperandsInt
  rw [if_neg (by omega)]

theorem intro {r : Rule} {rs : RuleSet} (cats : List Category) (wit : List Nat)
    (hs : cats.Sublist order) (hc : r.nPlurals = cats.length) (hw : ∀ w ∈ wit, w < 2 ^ 53)
    (hu : wit.map (fun w => r.form (w : Nat)) = (List.range cats.length).map (fun i : Nat => (i : Int)))
    (hf : ∀ n : Nat, ∀ x : F64, NV x (some n) → ∃ i : Nat, r.form n = i ∧
      cats[i]? = some (rs.form ⟨x, n, 0, 0, 0, 0, 0⟩)) : Fits r rs := by
  have hforms : ∀ n : Nat, n < 2 ^ 53 → ∃ i : Nat, r.form n = i ∧
      cats[i]? = some (rs.form (newOperandsInt n)) := by
    intro n hn
    rw [ops_int]
    exact hf n _ (nv_ofInt hn)
  refine ⟨cats, hs, hc, hforms, ?_⟩
  intro c hcm
  obtain ⟨i, hi, rfl⟩ := List.getElem_of_mem hcm
  have hm : ((i : Nat) : Int) ∈ wit.map (fun w => r.form (w : Nat)) := by
    rw [hu]
    exact List.mem_map.mpr ⟨i, List.mem_range.mpr hi, rfl⟩
  obtain ⟨w, hwm, hwi⟩ := List.mem_map.mp hm
  obtain ⟨j, hj, hcj⟩ := hforms w (hw w hwm)
  have : j = i := by
    have : (j : Int) = i := by rw [← hj, ← hwi]
    omega
  subst this
  rw [List.getElem?_eq_getElem hi] at hcj
  exact ⟨w, hw w hwm, (Option.some.inj hcj).symm⟩

theorem step {cats : List Category} {P Q : Prop} [Decidable P] [Decidable Q] {a : Nat} {c : Category}
    {x : Int} {y : Category} (hpq : P ↔ Q) (ha : cats[a]? = some c)
    (hr : ¬ Q → ∃ i : Nat, x = i ∧ cats[i]? = some y) :
    ∃ i : Nat, (if P then (a : Int) else x) = i ∧ cats[i]? = some (if Q then c else y) := by
  by_cases hq : Q
  · rw [if_pos (hpq.mpr hq), if_pos hq]; exact ⟨a, rfl, ha⟩
  · rw [if_neg (fun h => hq (hpq.mp h)), if_neg hq]; exact hr hq

theorem last {cats : List Category} {Q : Prop} [Decidable Q] {a : Nat} {c d : Category} (hq : Q)
    (ha : cats[a]? = some c) :
    ∃ i : Nat, (a : Int) = i ∧ cats[i]? = some (if Q then c else d) := by
  rw [if_pos hq]; exact ⟨a, rfl, ha⟩

theorem skip {cats : List Category} {Q : Prop} [Decidable Q] {x : Int} {c y : Category} (hq : ¬ Q)
    (hr : ∃ i : Nat, x = i ∧ cats[i]? = some y) :
    ∃ i : Nat, x = i ∧ cats[i]? = some (if Q then c else y) := by
  rw [if_neg hq]; exact hr

theorem flip {cats : List Category} {P Q : Prop} [Decidable P] [Decidable Q] {a b : Nat} {c d : Category}
    (hpq : P ↔ ¬ Q) (hb : cats[b]? = some c) (ha : cats[a]? = some d) :
    ∃ i : Nat, (if P then (a : Int) else b) = i ∧ cats[i]? = some (if Q then c else d) := by
  by_cases hq : Q
  · rw [if_neg (fun h => hpq.mp h hq), if_pos hq]; exact ⟨b, rfl, hb⟩
  · rw [if_pos (hpq.mpr hq), if_neg hq]; exact ⟨a, rfl, ha⟩

theorem done {cats : List Category} {a : Nat} {c : Category} (ha : cats[a]? = some c) :
    ∃ i : Nat, (a : Int) = i ∧ cats[i]? = some c := ⟨a, rfl, ha⟩

theorem tmod1000 (k : Nat) : (k : Int).tmod 1000 = (k % 1000 : Nat) := rfl
theorem tmod100000 (k : Nat) : (k : Int).tmod 100000 = (k % 100000 : Nat) := rfl

macro "int_tac" h:term:max : tactic => `(tactic| (
  simp only [List.mem_cons, List.not_mem_nil, or_false, tmod10, tmod100, tmod1000, tmod100000, tmod1000000,
    NV.eqI ($h), NV.eqI_false ($h), NV.oneOf_cons ($h), NV.range_cons ($h), oneOf_nil, range_nil,
    NV.eqI (NV.mod10 ($h)), NV.eqI_false (NV.mod10 ($h)), NV.oneOf_cons (NV.mod10 ($h)), NV.range_cons (NV.mod10 ($h)),
    NV.eqI (NV.mod100 ($h)), NV.eqI_false (NV.mod100 ($h)), NV.oneOf_cons (NV.mod100 ($h)), NV.range_cons (NV.mod100 ($h)),
    NV.eqI (NV.mod1000 ($h)), NV.oneOf_cons (NV.mod100000 ($h)), NV.range_cons (NV.mod100000 ($h)),
    NV.eqI (NV.mod1000000 ($h)),
    within_some, Option.map_some, Option.some.injEq, Int.zero_tmod, and_true, true_and, and_false, false_and, or_false, false_or,
    not_true_eq_false, not_false_eq_true, ge_iff_le, gt_iff_lt, ne_eq, if_false, if_true,
    Int.reduceToNat, Int.reduceLE, Int.reduceLT, Int.reducePow]))

theorem fits_af_af : Fits Model.PoPlural.rule_af Model.Cldr.rs_af := by
  refine intro [.one, .other] [1, 0] (by decide) rfl (by decide) (by decide) ?_
  intro n x h
  simp only [Model.PoPlural.rule_af, Model.Cldr.rs_af]
  try int_tac h
  repeat' first
    | exact done rfl
    | refine step ?_ rfl (fun hq => ?_)
    | exact last (by omega) rfl
    | refine skip (by omega) ?_
    | refine flip ?_ rfl rfl
  all_goals (first | omega | (constructor <;> omega))

theorem fits_af_ast : Fits Model.PoPlural.rule_af Model.Cldr.rs_ast := by
  refine intro [.one, .other] [1, 0] (by decide) rfl (by decide) (by decide) ?_
  intro n x h
  simp only [Model.PoPlural.rule_af, Model.Cldr.rs_ast]
  try int_tac h
  repeat' first
    | exact done rfl
    | refine step ?_ rfl (fun hq => ?_)
    | exact last (by omega) rfl
    | refine skip (by omega) ?_
    | refine flip ?_ rfl rfl
  all_goals (first | omega | (constructor <;> omega))

theorem fits_af_da : Fits Model.PoPlural.rule_af Model.Cldr.rs_da := by
  refine intro [.one, .other] [1, 0] (by decide) rfl (by decide) (by decide) ?_
  intro n x h
  simp only [Model.PoPlural.rule_af, Model.Cldr.rs_da]
  try int_tac h
  repeat' first
    | exact done rfl
    | refine step ?_ rfl (fun hq => ?_)
    | exact last (by omega) rfl
    | refine skip (by omega) ?_
    | refine flip ?_ rfl rfl
  all_goals (first | omega | (constructor <;> omega))

theorem fits_ak_ak : Fits Model.PoPlural.rule_ak Model.Cldr.rs_ak := by
  refine intro [.one, .other] [0, 2] (by decide) rfl (by decide) (by decide) ?_
  intro n x h
  simp only [Model.PoPlural.rule_ak, Model.Cldr.rs_ak]
  try int_tac h
  repeat' first
    | exact done rfl
    | refine step ?_ rfl (fun hq => ?_)
    | exact last (by omega) rfl
    | refine skip (by omega) ?_
    | refine flip ?_ rfl rfl
  all_goals (first | omega | (constructor <;> omega))

theorem fits_ak_am : Fits Model.PoPlural.rule_ak Model.Cldr.rs_am := by
  refine intro [.one, .other] [0, 2] (by decide) rfl (by decide) (by decide) ?_
  intro n x h
  simp only [Model.PoPlural.rule_ak, Model.Cldr.rs_am]
  try int_tac h
  repeat' first
    | exact done rfl
    | refine step ?_ rfl (fun hq => ?_)
    | exact last (by omega) rfl
    | refine skip (by omega) ?_
    | refine flip ?_ rfl rfl
  all_goals (first | omega | (constructor <;> omega))

theorem fits_ak_ff : Fits Model.PoPlural.rule_ak Model.Cldr.rs_ff := by
  refine intro [.one, .other] [0, 2] (by decide) rfl (by decide) (by decide) ?_
  intro n x h
  simp only [Model.PoPlural.rule_ak, Model.Cldr.rs_ff]
  try int_tac h
  repeat' first
    | exact done rfl
    | refine step ?_ rfl (fun hq => ?_)
    | exact last (by omega) rfl
    | refine skip (by omega) ?_
    | refine flip ?_ rfl rfl
  all_goals (first | omega | (constructor <;> omega))

theorem fits_ak_si : Fits Model.PoPlural.rule_ak Model.Cldr.rs_si := by
  refine intro [.one, .other] [0, 2] (by decide) rfl (by decide) (by decide) ?_
  intro n x h
  simp only [Model.PoPlural.rule_ak, Model.Cldr.rs_si]
  try int_tac h
  repeat' first
    | exact done rfl
    | refine step ?_ rfl (fun hq => ?_)
    | exact last (by omega) rfl
    | refine skip (by omega) ?_
    | refine flip ?_ rfl rfl
  all_goals (first | omega | (constructor <;> omega))

theorem fits_ar_ar : Fits Model.PoPlural.rule_ar Model.Cldr.rs_ar := by
  refine intro [.zero, .one, .two, .few, .many, .other] [0, 1, 2, 3, 11, 100] (by decide) rfl (by decide) (by decide) ?_
  intro n x h
  simp only [Model.PoPlural.rule_ar, Model.Cldr.rs_ar]
  try int_tac h
  repeat' first
    | exact done rfl
    | refine step ?_ rfl (fun hq => ?_)
    | exact last (by omega) rfl
    | refine skip (by omega) ?_
    | refine flip ?_ rfl rfl
  all_goals (first | omega | (constructor <;> omega))

theorem fits_be_be : Fits Model.PoPlural.rule_be Model.Cldr.rs_be := by
  refine intro [.one, .few, .many] [1, 2, 0] (by decide) rfl (by decide) (by decide) ?_
  intro n x h
  simp only [Model.PoPlural.rule_be, Model.Cldr.rs_be]
  try int_tac h
  repeat' first
    | exact done rfl
    | refine step ?_ rfl (fun hq => ?_)
    | exact last (by omega) rfl
    | refine skip (by omega) ?_
    | refine flip ?_ rfl rfl
  all_goals (first | omega | (constructor <;> omega))

theorem fits_be_bs : Fits Model.PoPlural.rule_be Model.Cldr.rs_bs := by
  refine intro [.one, .few, .other] [1, 2, 0] (by decide) rfl (by decide) (by decide) ?_
  intro n x h
  simp only [Model.PoPlural.rule_be, Model.Cldr.rs_bs]
  try int_tac h
  repeat' first
    | exact done rfl
    | refine step ?_ rfl (fun hq => ?_)
    | exact last (by omega) rfl
    | refine skip (by omega) ?_
    | refine flip ?_ rfl rfl
  all_goals (first | omega | (constructor <;> omega))

theorem fits_be_ru : Fits Model.PoPlural.rule_be Model.Cldr.rs_ru := by
  refine intro [.one, .few, .many] [1, 2, 0] (by decide) rfl (by decide) (by decide) ?_
  intro n x h
  simp only [Model.PoPlural.rule_be, Model.Cldr.rs_ru]
  try int_tac h
  repeat' first
    | exact done rfl
    | refine step ?_ rfl (fun hq => ?_)
    | exact last (by omega) rfl
    | refine skip (by omega) ?_
    | refine flip ?_ rfl rfl
  all_goals (first | omega | (constructor <;> omega))

theorem fits_blo_blo : Fits Model.PoPlural.rule_blo Model.Cldr.rs_blo := by
  refine intro [.zero, .one, .other] [0, 1, 2] (by decide) rfl (by decide) (by decide) ?_
  intro n x h
  simp only [Model.PoPlural.rule_blo, Model.Cldr.rs_blo]
  try int_tac h
  repeat' first
    | exact done rfl
    | refine step ?_ rfl (fun hq => ?_)
    | exact last (by omega) rfl
    | refine skip (by omega) ?_
    | refine flip ?_ rfl rfl
  all_goals (first | omega | (constructor <;> omega))

theorem fits_blo_lag : Fits Model.PoPlural.rule_blo Model.Cldr.rs_lag := by
  refine intro [.zero, .one, .other] [0, 1, 2] (by decide) rfl (by decide) (by decide) ?_
  intro n x h
  simp only [Model.PoPlural.rule_blo, Model.Cldr.rs_lag]
  try int_tac h
  repeat' first
    | exact done rfl
    | refine step ?_ rfl (fun hq => ?_)
    | exact last (by omega) rfl
    | refine skip (by omega) ?_
    | refine flip ?_ rfl rfl
  all_goals (first | omega | (constructor <;> omega))

theorem fits_bm_bm : Fits Model.PoPlural.rule_bm Model.Cldr.rs_bm := by
  refine intro [.other] [0] (by decide) rfl (by decide) (by decide) ?_
  intro n x h
  simp only [Model.PoPlural.rule_bm, Model.Cldr.rs_bm]
  try int_tac h
  repeat' first
    | exact done rfl
    | refine step ?_ rfl (fun hq => ?_)
    | exact last (by omega) rfl
    | refine skip (by omega) ?_
    | refine flip ?_ rfl rfl
  all_goals (first | omega | (constructor <;> omega))

theorem fits_br_br : Fits Model.PoPlural.rule_br Model.Cldr.rs_br := by
  refine intro [.one, .two, .few, .many, .other] [1, 2, 3, 1000000, 0] (by decide) rfl (by decide) (by decide) ?_
  intro n x h
  simp only [Model.PoPlural.rule_br, Model.Cldr.rs_br]
  try int_tac h
  repeat' first
    | exact done rfl
    | refine step ?_ rfl (fun hq => ?_)
    | exact last (by omega) rfl
    | refine skip (by omega) ?_
    | refine flip ?_ rfl rfl
  all_goals (first | omega | (constructor <;> omega))

theorem fits_ca_ca : Fits Model.PoPlural.rule_ca Model.Cldr.rs_ca := by
  refine intro [.one, .many, .other] [1, 1000000, 0] (by decide) rfl (by decide) (by decide) ?_
  intro n x h
  simp only [Model.PoPlural.rule_ca, Model.Cldr.rs_ca]
  try int_tac h
  repeat' first
    | exact done rfl
    | refine step ?_ rfl (fun hq => ?_)
    | exact last (by omega) rfl
    | refine skip (by omega) ?_
    | refine flip ?_ rfl rfl
  all_goals (first | omega | (constructor <;> omega))

theorem fits_ca_es : Fits Model.PoPlural.rule_ca Model.Cldr.rs_es := by
  refine intro [.one, .many, .other] [1, 1000000, 0] (by decide) rfl (by decide) (by decide) ?_
  intro n x h
  simp only [Model.PoPlural.rule_ca, Model.Cldr.rs_es]
  try int_tac h
  repeat' first
    | exact done rfl
    | refine step ?_ rfl (fun hq => ?_)
    | exact last (by omega) rfl
    | refine skip (by omega) ?_
    | refine flip ?_ rfl rfl
  all_goals (first | omega | (constructor <;> omega))

theorem fits_ceb_ceb : Fits Model.PoPlural.rule_ceb Model.Cldr.rs_ceb := by
  refine intro [.one, .other] [0, 4] (by decide) rfl (by decide) (by decide) ?_
  intro n x h
  simp only [Model.PoPlural.rule_ceb, Model.Cldr.rs_ceb]
  try int_tac h
  repeat' first
    | exact done rfl
    | refine step ?_ rfl (fun hq => ?_)
    | exact last (by omega) rfl
    | refine skip (by omega) ?_
    | refine flip ?_ rfl rfl
  all_goals (first | omega | (constructor <;> omega))

theorem fits_cs_cs : Fits Model.PoPlural.rule_cs Model.Cldr.rs_cs := by
  refine intro [.one, .few, .other] [1, 2, 0] (by decide) rfl (by decide) (by decide) ?_
  intro n x h
  simp only [Model.PoPlural.rule_cs, Model.Cldr.rs_cs]
  try int_tac h
  repeat' first
    | exact done rfl
    | refine step ?_ rfl (fun hq => ?_)
    | exact last (by omega) rfl
    | refine skip (by omega) ?_
    | refine flip ?_ rfl rfl
  all_goals (first | omega | (constructor <;> omega))

theorem fits_cy_cy : Fits Model.PoPlural.rule_cy Model.Cldr.rs_cy := by
  refine intro [.zero, .one, .two, .few, .many, .other] [0, 1, 2, 3, 6, 4] (by decide) rfl (by decide) (by decide) ?_
  intro n x h
  simp only [Model.PoPlural.rule_cy, Model.Cldr.rs_cy]
  try int_tac h
  repeat' first
    | exact done rfl
    | refine step ?_ rfl (fun hq => ?_)
    | exact last (by omega) rfl
    | refine skip (by omega) ?_
    | refine flip ?_ rfl rfl
  all_goals (first | omega | (constructor <;> omega))

theorem fits_dsb_dsb : Fits Model.PoPlural.rule_dsb Model.Cldr.rs_dsb := by
  refine intro [.one, .two, .few, .other] [1, 2, 3, 0] (by decide) rfl (by decide) (by decide) ?_
  intro n x h
  simp only [Model.PoPlural.rule_dsb, Model.Cldr.rs_dsb]
  try int_tac h
  repeat' first
    | exact done rfl
    | refine step ?_ rfl (fun hq => ?_)
    | exact last (by omega) rfl
    | refine skip (by omega) ?_
    | refine flip ?_ rfl rfl
  all_goals (first | omega | (constructor <;> omega))

theorem fits_dsb_sl : Fits Model.PoPlural.rule_dsb Model.Cldr.rs_sl := by
  refine intro [.one, .two, .few, .other] [1, 2, 3, 0] (by decide) rfl (by decide) (by decide) ?_
  intro n x h
  simp only [Model.PoPlural.rule_dsb, Model.Cldr.rs_sl]
  try int_tac h
  repeat' first
    | exact done rfl
    | refine step ?_ rfl (fun hq => ?_)
    | exact last (by omega) rfl
    | refine skip (by omega) ?_
    | refine flip ?_ rfl rfl
  all_goals (first | omega | (constructor <;> omega))

theorem fits_fr_fr : Fits Model.PoPlural.rule_fr Model.Cldr.rs_fr := by
  refine intro [.one, .many, .other] [0, 1000000, 2] (by decide) rfl (by decide) (by decide) ?_
  intro n x h
  simp only [Model.PoPlural.rule_fr, Model.Cldr.rs_fr]
  try int_tac h
  repeat' first
    | exact done rfl
    | refine step ?_ rfl (fun hq => ?_)
    | exact last (by omega) rfl
    | refine skip (by omega) ?_
    | refine flip ?_ rfl rfl
  all_goals (first | omega | (constructor <;> omega))

theorem fits_fr_pt : Fits Model.PoPlural.rule_fr Model.Cldr.rs_pt := by
  refine intro [.one, .many, .other] [0, 1000000, 2] (by decide) rfl (by decide) (by decide) ?_
  intro n x h
  simp only [Model.PoPlural.rule_fr, Model.Cldr.rs_pt]
  try int_tac h
  repeat' first
    | exact done rfl
    | refine step ?_ rfl (fun hq => ?_)
    | exact last (by omega) rfl
    | refine skip (by omega) ?_
    | refine flip ?_ rfl rfl
  all_goals (first | omega | (constructor <;> omega))

theorem fits_ga_ga : Fits Model.PoPlural.rule_ga Model.Cldr.rs_ga := by
  refine intro [.one, .two, .few, .many, .other] [1, 2, 3, 7, 0] (by decide) rfl (by decide) (by decide) ?_
  intro n x h
  simp only [Model.PoPlural.rule_ga, Model.Cldr.rs_ga]
  try int_tac h
  repeat' first
    | exact done rfl
    | refine step ?_ rfl (fun hq => ?_)
    | exact last (by omega) rfl
    | refine skip (by omega) ?_
    | refine flip ?_ rfl rfl
  all_goals (first | omega | (constructor <;> omega))

theorem fits_gd_gd : Fits Model.PoPlural.rule_gd Model.Cldr.rs_gd := by
  refine intro [.one, .two, .few, .other] [1, 2, 3, 0] (by decide) rfl (by decide) (by decide) ?_
  intro n x h
  simp only [Model.PoPlural.rule_gd, Model.Cldr.rs_gd]
  try int_tac h
  repeat' first
    | exact done rfl
    | refine step ?_ rfl (fun hq => ?_)
    | exact last (by omega) rfl
    | refine skip (by omega) ?_
    | refine flip ?_ rfl rfl
  all_goals (first | omega | (constructor <;> omega))

theorem fits_gv_gv : Fits Model.PoPlural.rule_gv Model.Cldr.rs_gv := by
  refine intro [.one, .two, .few, .other] [1, 2, 0, 3] (by decide) rfl (by decide) (by decide) ?_
  intro n x h
  simp only [Model.PoPlural.rule_gv, Model.Cldr.rs_gv]
  try int_tac h
  repeat' first
    | exact done rfl
    | refine step ?_ rfl (fun hq => ?_)
    | exact last (by omega) rfl
    | refine skip (by omega) ?_
    | refine flip ?_ rfl rfl
  all_goals (first | omega | (constructor <;> omega))

theorem fits_he_he : Fits Model.PoPlural.rule_he Model.Cldr.rs_he := by
  refine intro [.one, .two, .other] [1, 2, 0] (by decide) rfl (by decide) (by decide) ?_
  intro n x h
  simp only [Model.PoPlural.rule_he, Model.Cldr.rs_he]
  try int_tac h
  repeat' first
    | exact done rfl
    | refine step ?_ rfl (fun hq => ?_)
    | exact last (by omega) rfl
    | refine skip (by omega) ?_
    | refine flip ?_ rfl rfl
  all_goals (first | omega | (constructor <;> omega))

theorem fits_he_iu : Fits Model.PoPlural.rule_he Model.Cldr.rs_iu := by
  refine intro [.one, .two, .other] [1, 2, 0] (by decide) rfl (by decide) (by decide) ?_
  intro n x h
  simp only [Model.PoPlural.rule_he, Model.Cldr.rs_iu]
  try int_tac h
  repeat' first
    | exact done rfl
    | refine step ?_ rfl (fun hq => ?_)
    | exact last (by omega) rfl
    | refine skip (by omega) ?_
    | refine flip ?_ rfl rfl
  all_goals (first | omega | (constructor <;> omega))

theorem fits_is_is : Fits Model.PoPlural.rule_is Model.Cldr.rs_is := by
  refine intro [.one, .other] [1, 0] (by decide) rfl (by decide) (by decide) ?_
  intro n x h
  simp only [Model.PoPlural.rule_is, Model.Cldr.rs_is]
  try int_tac h
  repeat' first
    | exact done rfl
    | refine step ?_ rfl (fun hq => ?_)
    | exact last (by omega) rfl
    | refine skip (by omega) ?_
    | refine flip ?_ rfl rfl
  all_goals (first | omega | (constructor <;> omega))

theorem fits_is_mk : Fits Model.PoPlural.rule_is Model.Cldr.rs_mk := by
  refine intro [.one, .other] [1, 0] (by decide) rfl (by decide) (by decide) ?_
  intro n x h
  simp only [Model.PoPlural.rule_is, Model.Cldr.rs_mk]
  try int_tac h
  repeat' first
    | exact done rfl
    | refine step ?_ rfl (fun hq => ?_)
    | exact last (by omega) rfl
    | refine skip (by omega) ?_
    | refine flip ?_ rfl rfl
  all_goals (first | omega | (constructor <;> omega))

theorem fits_kw_kw : Fits Model.PoPlural.rule_kw Model.Cldr.rs_kw := by
  refine intro [.zero, .one, .two, .few, .many, .other] [0, 1, 2, 3, 21, 4] (by decide) rfl (by decide) (by decide) ?_
  intro n x h
  simp only [Model.PoPlural.rule_kw, Model.Cldr.rs_kw]
  try int_tac h
  repeat' first
    | exact done rfl
    | refine step ?_ rfl (fun hq => ?_)
    | exact last (by omega) rfl
    | refine skip (by omega) ?_
    | refine flip ?_ rfl rfl
  all_goals (first | omega | (constructor <;> omega))

theorem fits_lt_lt : Fits Model.PoPlural.rule_lt Model.Cldr.rs_lt := by
  refine intro [.one, .few, .other] [1, 2, 0] (by decide) rfl (by decide) (by decide) ?_
  intro n x h
  simp only [Model.PoPlural.rule_lt, Model.Cldr.rs_lt]
  try int_tac h
  repeat' first
    | exact done rfl
    | refine step ?_ rfl (fun hq => ?_)
    | exact last (by omega) rfl
    | refine skip (by omega) ?_
    | refine flip ?_ rfl rfl
  all_goals (first | omega | (constructor <;> omega))

theorem fits_lv_lv : Fits Model.PoPlural.rule_lv Model.Cldr.rs_lv := by
  refine intro [.zero, .one, .other] [0, 1, 2] (by decide) rfl (by decide) (by decide) ?_
  intro n x h
  simp only [Model.PoPlural.rule_lv, Model.Cldr.rs_lv]
  try int_tac h
  repeat' first
    | exact done rfl
    | refine step ?_ rfl (fun hq => ?_)
    | exact last (by omega) rfl
    | refine skip (by omega) ?_
    | refine flip ?_ rfl rfl
  all_goals (first | omega | (constructor <;> omega))

theorem fits_mt_mt : Fits Model.PoPlural.rule_mt Model.Cldr.rs_mt := by
  refine intro [.one, .two, .few, .many, .other] [1, 2, 0, 11, 20] (by decide) rfl (by decide) (by decide) ?_
  intro n x h
  simp only [Model.PoPlural.rule_mt, Model.Cldr.rs_mt]
  try int_tac h
  repeat' first
    | exact done rfl
    | refine step ?_ rfl (fun hq => ?_)
    | exact last (by omega) rfl
    | refine skip (by omega) ?_
    | refine flip ?_ rfl rfl
  all_goals (first | omega | (constructor <;> omega))

theorem fits_pl_pl : Fits Model.PoPlural.rule_pl Model.Cldr.rs_pl := by
  refine intro [.one, .few, .many] [1, 2, 0] (by decide) rfl (by decide) (by decide) ?_
  intro n x h
  simp only [Model.PoPlural.rule_pl, Model.Cldr.rs_pl]
  try int_tac h
  repeat' first
    | exact done rfl
    | refine step ?_ rfl (fun hq => ?_)
    | exact last (by omega) rfl
    | refine skip (by omega) ?_
    | refine flip ?_ rfl rfl
  all_goals (first | omega | (constructor <;> omega))

theorem fits_ro_mo : Fits Model.PoPlural.rule_ro Model.Cldr.rs_mo := by
  refine intro [.one, .few, .other] [1, 0, 20] (by decide) rfl (by decide) (by decide) ?_
  intro n x h
  simp only [Model.PoPlural.rule_ro, Model.Cldr.rs_mo]
  try int_tac h
  repeat' first
    | exact done rfl
    | refine step ?_ rfl (fun hq => ?_)
    | exact last (by omega) rfl
    | refine skip (by omega) ?_
    | refine flip ?_ rfl rfl
  all_goals (first | omega | (constructor <;> omega))

theorem fits_shi_shi : Fits Model.PoPlural.rule_shi Model.Cldr.rs_shi := by
  refine intro [.one, .few, .other] [0, 2, 11] (by decide) rfl (by decide) (by decide) ?_
  intro n x h
  simp only [Model.PoPlural.rule_shi, Model.Cldr.rs_shi]
  try int_tac h
  repeat' first
    | exact done rfl
    | refine step ?_ rfl (fun hq => ?_)
    | exact last (by omega) rfl
    | refine skip (by omega) ?_
    | refine flip ?_ rfl rfl
  all_goals (first | omega | (constructor <;> omega))

theorem fits_tzm_tzm : Fits Model.PoPlural.rule_tzm Model.Cldr.rs_tzm := by
  refine intro [.one, .other] [0, 2] (by decide) rfl (by decide) (by decide) ?_
  intro n x h
  simp only [Model.PoPlural.rule_tzm, Model.Cldr.rs_tzm]
  try int_tac h
  repeat' first
    | exact done rfl
    | refine step ?_ rfl (fun hq => ?_)
    | exact last (by omega) rfl
    | refine skip (by omega) ?_
    | refine flip ?_ rfl rfl
  all_goals (first | omega | (constructor <;> omega))

end Verif.Proofs.Shared
