import Verif.Proofs.Cldr.Atoms
import Verif.Model.Cldr.Builtin
import Verif.Spec.CldrTable
/-! Every built-in rule set selects the category of the published rules (generated, one theorem per
rule set). -/
namespace Verif.Proofs.Cldr
open Verif.Go Verif.Model.Cldr Verif.Spec.Cldr Verif.Cldr

theorem NV.eqI {x : F64} {nv : Option Nat} (h : NV x nv) {c : Int} (h0 : 0 ≤ c) (hc : c < 2 ^ 53) :
    x.eqInt c = true ↔ nv = some c.toNat := by
  obtain ⟨n, rfl⟩ := Int.eq_ofNat_of_zero_le h0
  rw [h.eqInt (by omega)]; simp

theorem NV.eqI_false {x : F64} {nv : Option Nat} (h : NV x nv) {c : Int} (h0 : 0 ≤ c) (hc : c < 2 ^ 53) :
    x.eqInt c = false ↔ ¬ nv = some c.toNat := by
  rw [← h.eqI h0 hc]; simp

theorem NV.oneOf_cons {x : F64} {nv : Option Nat} (h : NV x nv) {c : Int} {cs : List Int} (h0 : 0 ≤ c)
    (hc : c < 2 ^ 53) : isFloatOneOf x (c :: cs) = true ↔ nv = some c.toNat ∨ isFloatOneOf x cs = true := by
  obtain ⟨n, rfl⟩ := Int.eq_ofNat_of_zero_le h0
  simp only [isFloatOneOf, List.any_cons, Bool.or_eq_true, h.floatEqual (show n < 2 ^ 53 by omega),
    Int.toNat_natCast]

theorem oneOf_nil {x : F64} : isFloatOneOf x [] = true ↔ False := by simp [isFloatOneOf]

theorem NV.range_cons {x : F64} {nv : Option Nat} (h : NV x nv) {lo hi : Int} {rs : List (Int × Int)}
    (h0 : 0 ≤ lo) (h1 : 0 ≤ hi) (hc : hi < 2 ^ 53) :
    isFloatInRange x ((lo, hi) :: rs) = true ↔
      within nv lo.toNat hi.toNat ∨ isFloatInRange x rs = true := by
  obtain ⟨a, rfl⟩ := Int.eq_ofNat_of_zero_le h0
  obtain ⟨b, rfl⟩ := Int.eq_ofNat_of_zero_le h1
  simp only [isFloatInRange, List.any_cons, Bool.or_eq_true, Int.toNat_natCast]
  rw [h.inRange1 (by omega)]

theorem range_nil {x : F64} : isFloatInRange x [] = true ↔ False := by simp [isFloatInRange]

theorem NV.mod10 {x : F64} {nv : Option Nat} (h : NV x nv) : NV (x.mod 10) (nv.map (· % 10)) := h.mod (by decide) (by decide)
theorem NV.mod100 {x : F64} {nv : Option Nat} (h : NV x nv) : NV (x.mod 100) (nv.map (· % 100)) := h.mod (by decide) (by decide)
theorem NV.mod1000 {x : F64} {nv : Option Nat} (h : NV x nv) : NV (x.mod 1000) (nv.map (· % 1000)) := h.mod (by decide) (by decide)
theorem NV.mod100000 {x : F64} {nv : Option Nat} (h : NV x nv) : NV (x.mod 100000) (nv.map (· % 100000)) := h.mod (by decide) (by decide)
theorem NV.mod1000000 {x : F64} {nv : Option Nat} (h : NV x nv) : NV (x.mod 1000000) (nv.map (· % 1000000)) := h.mod (by decide) (by decide)

theorem int_in_none (k c : Nat) : (⟨k, 1⟩ : Q).In (c, none) ↔ k = c := by
  rw [(qv_nat k).in_none]; simp
theorem int_in_some (k lo hi : Nat) : (⟨k, 1⟩ : Q).In (lo, some hi) ↔ lo ≤ k ∧ k ≤ hi := by
  rw [(qv_nat k).in_some]; simp [within]
theorem int_mod (k d : Nat) : (⟨k, 1⟩ : Q).mod d = ⟨k % d, 1⟩ := by simp [Q.mod]

theorem tmod10 (k : Nat) : (k : Int).tmod 10 = (k % 10 : Nat) := rfl
theorem tmod100 (k : Nat) : (k : Int).tmod 100 = (k % 100 : Nat) := rfl
theorem tmod1000000 (k : Nat) : (k : Int).tmod 1000000 = (k % 1000000 : Nat) := rfl

theorem within_some (k lo hi : Nat) : within (some k) lo hi ↔ lo ≤ k ∧ k ≤ hi := by simp [within]
theorem within_none (lo hi : Nat) : within none lo hi ↔ False := by simp [within]

macro "rule_tac" h:term:max nv:ident : tactic => `(tactic| (
  simp only [Cond.Holds, Rel.Holds, Rel.value, Ops.get, List.mem_cons, List.not_mem_nil, or_false,
    exists_eq_or_imp, exists_eq_left, forall_eq_or_imp, forall_eq, if_true, if_false, Bool.false_eq_true, false_and, exists_false,
    int_mod, int_in_none, int_in_some, ($h).q.in_none, ($h).q.in_some,
    (($h).q.mod 10).in_none, (($h).q.mod 10).in_some, (($h).q.mod 100).in_none, (($h).q.mod 100).in_some,
    (($h).q.mod 1000).in_none, (($h).q.mod 100000).in_some, (($h).q.mod 100000).in_none, (($h).q.mod 1000000).in_none,
    ($h).i, ($h).v, ($h).w, ($h).f, ($h).t, ($h).c, tmod10, tmod100, tmod1000000,
    NV.eqI ($h).n, NV.eqI_false ($h).n, NV.oneOf_cons ($h).n, NV.range_cons ($h).n, oneOf_nil, range_nil,
    NV.eqI (NV.mod10 ($h).n), NV.eqI_false (NV.mod10 ($h).n), NV.oneOf_cons (NV.mod10 ($h).n), NV.range_cons (NV.mod10 ($h).n),
    NV.eqI (NV.mod100 ($h).n), NV.eqI_false (NV.mod100 ($h).n), NV.oneOf_cons (NV.mod100 ($h).n), NV.range_cons (NV.mod100 ($h).n),
    NV.eqI (NV.mod1000 ($h).n), NV.oneOf_cons (NV.mod100000 ($h).n), NV.range_cons (NV.mod100000 ($h).n),
    NV.eqI (NV.mod1000000 ($h).n),
    Int.reduceToNat, Int.reduceLE, Int.reduceLT, Int.reducePow] <;>
  (cases $nv:ident <;>
    (try simp only [within_some, within_none, Option.map_some, Option.map_none, reduceCtorEq, Option.some.injEq, false_or, or_false, false_and, and_false, not_false_eq_true, and_true, true_and, or_self]) <;>
    omega)))

theorem sel_bm {ops : Operands} {o : Ops} {nv : Option Nat} (_ : Match ops o nv) :
    Selects o pub_bm.rules (rs_bm.form ops) := by
  unfold pub_bm rs_bm
  repeat' (refine sel_cons ?_ ?_)
  all_goals first | exact Selects.other | skip
  all_goals rule_tac h nv

theorem sel_af {ops : Operands} {o : Ops} {nv : Option Nat} (h : Match ops o nv) :
    Selects o pub_af.rules (rs_af.form ops) := by
  unfold pub_af rs_af
  repeat' (refine sel_cons ?_ ?_)
  all_goals first | exact Selects.other | skip
  all_goals rule_tac h nv

theorem sel_ak {ops : Operands} {o : Ops} {nv : Option Nat} (h : Match ops o nv) :
    Selects o pub_ak.rules (rs_ak.form ops) := by
  unfold pub_ak rs_ak
  repeat' (refine sel_cons ?_ ?_)
  all_goals first | exact Selects.other | skip
  all_goals rule_tac h nv

theorem sel_am {ops : Operands} {o : Ops} {nv : Option Nat} (h : Match ops o nv) :
    Selects o pub_am.rules (rs_am.form ops) := by
  unfold pub_am rs_am
  repeat' (refine sel_cons ?_ ?_)
  all_goals first | exact Selects.other | skip
  all_goals rule_tac h nv

theorem sel_ast {ops : Operands} {o : Ops} {nv : Option Nat} (h : Match ops o nv) :
    Selects o pub_ast.rules (rs_ast.form ops) := by
  unfold pub_ast rs_ast
  repeat' (refine sel_cons ?_ ?_)
  all_goals first | exact Selects.other | skip
  all_goals rule_tac h nv

theorem sel_ceb {ops : Operands} {o : Ops} {nv : Option Nat} (h : Match ops o nv) :
    Selects o pub_ceb.rules (rs_ceb.form ops) := by
  unfold pub_ceb rs_ceb
  repeat' (refine sel_cons ?_ ?_)
  all_goals first | exact Selects.other | skip
  all_goals rule_tac h nv

theorem sel_da {ops : Operands} {o : Ops} {nv : Option Nat} (h : Match ops o nv) :
    Selects o pub_da.rules (rs_da.form ops) := by
  unfold pub_da rs_da
  repeat' (refine sel_cons ?_ ?_)
  all_goals first | exact Selects.other | skip
  all_goals rule_tac h nv

theorem sel_ff {ops : Operands} {o : Ops} {nv : Option Nat} (h : Match ops o nv) :
    Selects o pub_ff.rules (rs_ff.form ops) := by
  unfold pub_ff rs_ff
  repeat' (refine sel_cons ?_ ?_)
  all_goals first | exact Selects.other | skip
  all_goals rule_tac h nv

theorem sel_is {ops : Operands} {o : Ops} {nv : Option Nat} (h : Match ops o nv) :
    Selects o pub_is.rules (rs_is.form ops) := by
  unfold pub_is rs_is
  repeat' (refine sel_cons ?_ ?_)
  all_goals first | exact Selects.other | skip
  all_goals rule_tac h nv

theorem sel_mk {ops : Operands} {o : Ops} {nv : Option Nat} (h : Match ops o nv) :
    Selects o pub_mk.rules (rs_mk.form ops) := by
  unfold pub_mk rs_mk
  repeat' (refine sel_cons ?_ ?_)
  all_goals first | exact Selects.other | skip
  all_goals rule_tac h nv

theorem sel_si {ops : Operands} {o : Ops} {nv : Option Nat} (h : Match ops o nv) :
    Selects o pub_si.rules (rs_si.form ops) := by
  unfold pub_si rs_si
  repeat' (refine sel_cons ?_ ?_)
  all_goals first | exact Selects.other | skip
  all_goals rule_tac h nv

theorem sel_tzm {ops : Operands} {o : Ops} {nv : Option Nat} (h : Match ops o nv) :
    Selects o pub_tzm.rules (rs_tzm.form ops) := by
  unfold pub_tzm rs_tzm
  repeat' (refine sel_cons ?_ ?_)
  all_goals first | exact Selects.other | skip
  all_goals rule_tac h nv

theorem sel_blo {ops : Operands} {o : Ops} {nv : Option Nat} (h : Match ops o nv) :
    Selects o pub_blo.rules (rs_blo.form ops) := by
  unfold pub_blo rs_blo
  repeat' (refine sel_cons ?_ ?_)
  all_goals first | exact Selects.other | skip
  all_goals rule_tac h nv

theorem sel_bs {ops : Operands} {o : Ops} {nv : Option Nat} (h : Match ops o nv) :
    Selects o pub_bs.rules (rs_bs.form ops) := by
  unfold pub_bs rs_bs
  repeat' (refine sel_cons ?_ ?_)
  all_goals first | exact Selects.other | skip
  all_goals rule_tac h nv

theorem sel_ca {ops : Operands} {o : Ops} {nv : Option Nat} (h : Match ops o nv) :
    Selects o pub_ca.rules (rs_ca.form ops) := by
  unfold pub_ca rs_ca
  repeat' (refine sel_cons ?_ ?_)
  all_goals first | exact Selects.other | skip
  all_goals rule_tac h nv

theorem sel_es {ops : Operands} {o : Ops} {nv : Option Nat} (h : Match ops o nv) :
    Selects o pub_es.rules (rs_es.form ops) := by
  unfold pub_es rs_es
  repeat' (refine sel_cons ?_ ?_)
  all_goals first | exact Selects.other | skip
  all_goals rule_tac h nv

theorem sel_fr {ops : Operands} {o : Ops} {nv : Option Nat} (h : Match ops o nv) :
    Selects o pub_fr.rules (rs_fr.form ops) := by
  unfold pub_fr rs_fr
  repeat' (refine sel_cons ?_ ?_)
  all_goals first | exact Selects.other | skip
  all_goals rule_tac h nv

theorem sel_he {ops : Operands} {o : Ops} {nv : Option Nat} (h : Match ops o nv) :
    Selects o pub_he.rules (rs_he.form ops) := by
  unfold pub_he rs_he
  repeat' (refine sel_cons ?_ ?_)
  all_goals first | exact Selects.other | skip
  all_goals rule_tac h nv

theorem sel_iu {ops : Operands} {o : Ops} {nv : Option Nat} (h : Match ops o nv) :
    Selects o pub_iu.rules (rs_iu.form ops) := by
  unfold pub_iu rs_iu
  repeat' (refine sel_cons ?_ ?_)
  all_goals first | exact Selects.other | skip
  all_goals rule_tac h nv

theorem sel_lag {ops : Operands} {o : Ops} {nv : Option Nat} (h : Match ops o nv) :
    Selects o pub_lag.rules (rs_lag.form ops) := by
  unfold pub_lag rs_lag
  repeat' (refine sel_cons ?_ ?_)
  all_goals first | exact Selects.other | skip
  all_goals rule_tac h nv

theorem sel_lv {ops : Operands} {o : Ops} {nv : Option Nat} (h : Match ops o nv) :
    Selects o pub_lv.rules (rs_lv.form ops) := by
  unfold pub_lv rs_lv
  repeat' (refine sel_cons ?_ ?_)
  all_goals first | exact Selects.other | skip
  all_goals rule_tac h nv

theorem sel_mo {ops : Operands} {o : Ops} {nv : Option Nat} (h : Match ops o nv) :
    Selects o pub_mo.rules (rs_mo.form ops) := by
  unfold pub_mo rs_mo
  repeat' (refine sel_cons ?_ ?_)
  all_goals first | exact Selects.other | skip
  all_goals rule_tac h nv

theorem sel_pt {ops : Operands} {o : Ops} {nv : Option Nat} (h : Match ops o nv) :
    Selects o pub_pt.rules (rs_pt.form ops) := by
  unfold pub_pt rs_pt
  repeat' (refine sel_cons ?_ ?_)
  all_goals first | exact Selects.other | skip
  all_goals rule_tac h nv

theorem sel_shi {ops : Operands} {o : Ops} {nv : Option Nat} (h : Match ops o nv) :
    Selects o pub_shi.rules (rs_shi.form ops) := by
  unfold pub_shi rs_shi
  repeat' (refine sel_cons ?_ ?_)
  all_goals first | exact Selects.other | skip
  all_goals rule_tac h nv

theorem sel_be {ops : Operands} {o : Ops} {nv : Option Nat} (h : Match ops o nv) :
    Selects o pub_be.rules (rs_be.form ops) := by
  unfold pub_be rs_be
  repeat' (refine sel_cons ?_ ?_)
  all_goals first | exact Selects.other | skip
  all_goals rule_tac h nv

theorem sel_cs {ops : Operands} {o : Ops} {nv : Option Nat} (h : Match ops o nv) :
    Selects o pub_cs.rules (rs_cs.form ops) := by
  unfold pub_cs rs_cs
  repeat' (refine sel_cons ?_ ?_)
  all_goals first | exact Selects.other | skip
  all_goals rule_tac h nv

theorem sel_dsb {ops : Operands} {o : Ops} {nv : Option Nat} (h : Match ops o nv) :
    Selects o pub_dsb.rules (rs_dsb.form ops) := by
  unfold pub_dsb rs_dsb
  repeat' (refine sel_cons ?_ ?_)
  all_goals first | exact Selects.other | skip
  all_goals rule_tac h nv

theorem sel_gd {ops : Operands} {o : Ops} {nv : Option Nat} (h : Match ops o nv) :
    Selects o pub_gd.rules (rs_gd.form ops) := by
  unfold pub_gd rs_gd
  repeat' (refine sel_cons ?_ ?_)
  all_goals first | exact Selects.other | skip
  all_goals rule_tac h nv

theorem sel_lt {ops : Operands} {o : Ops} {nv : Option Nat} (h : Match ops o nv) :
    Selects o pub_lt.rules (rs_lt.form ops) := by
  unfold pub_lt rs_lt
  repeat' (refine sel_cons ?_ ?_)
  all_goals first | exact Selects.other | skip
  all_goals rule_tac h nv

theorem sel_pl {ops : Operands} {o : Ops} {nv : Option Nat} (h : Match ops o nv) :
    Selects o pub_pl.rules (rs_pl.form ops) := by
  unfold pub_pl rs_pl
  repeat' (refine sel_cons ?_ ?_)
  all_goals first | exact Selects.other | skip
  all_goals rule_tac h nv

theorem sel_ru {ops : Operands} {o : Ops} {nv : Option Nat} (h : Match ops o nv) :
    Selects o pub_ru.rules (rs_ru.form ops) := by
  unfold pub_ru rs_ru
  repeat' (refine sel_cons ?_ ?_)
  all_goals first | exact Selects.other | skip
  all_goals rule_tac h nv

theorem sel_sl {ops : Operands} {o : Ops} {nv : Option Nat} (h : Match ops o nv) :
    Selects o pub_sl.rules (rs_sl.form ops) := by
  unfold pub_sl rs_sl
  repeat' (refine sel_cons ?_ ?_)
  all_goals first | exact Selects.other | skip
  all_goals rule_tac h nv

theorem sel_br {ops : Operands} {o : Ops} {nv : Option Nat} (h : Match ops o nv) :
    Selects o pub_br.rules (rs_br.form ops) := by
  unfold pub_br rs_br
  repeat' (refine sel_cons ?_ ?_)
  all_goals first | exact Selects.other | skip
  all_goals rule_tac h nv

theorem sel_ga {ops : Operands} {o : Ops} {nv : Option Nat} (h : Match ops o nv) :
    Selects o pub_ga.rules (rs_ga.form ops) := by
  unfold pub_ga rs_ga
  repeat' (refine sel_cons ?_ ?_)
  all_goals first | exact Selects.other | skip
  all_goals rule_tac h nv

theorem sel_gv {ops : Operands} {o : Ops} {nv : Option Nat} (h : Match ops o nv) :
    Selects o pub_gv.rules (rs_gv.form ops) := by
  unfold pub_gv rs_gv
  repeat' (refine sel_cons ?_ ?_)
  all_goals first | exact Selects.other | skip
  all_goals rule_tac h nv

theorem sel_mt {ops : Operands} {o : Ops} {nv : Option Nat} (h : Match ops o nv) :
    Selects o pub_mt.rules (rs_mt.form ops) := by
  unfold pub_mt rs_mt
  repeat' (refine sel_cons ?_ ?_)
  all_goals first | exact Selects.other | skip
  all_goals rule_tac h nv

theorem sel_ar {ops : Operands} {o : Ops} {nv : Option Nat} (h : Match ops o nv) :
    Selects o pub_ar.rules (rs_ar.form ops) := by
  unfold pub_ar rs_ar
  repeat' (refine sel_cons ?_ ?_)
  all_goals first | exact Selects.other | skip
  all_goals rule_tac h nv

theorem sel_cy {ops : Operands} {o : Ops} {nv : Option Nat} (h : Match ops o nv) :
    Selects o pub_cy.rules (rs_cy.form ops) := by
  unfold pub_cy rs_cy
  repeat' (refine sel_cons ?_ ?_)
  all_goals first | exact Selects.other | skip
  all_goals rule_tac h nv

theorem sel_kw {ops : Operands} {o : Ops} {nv : Option Nat} (h : Match ops o nv) :
    Selects o pub_kw.rules (rs_kw.form ops) := by
  unfold pub_kw rs_kw
  repeat' (refine sel_cons ?_ ?_)
  all_goals first | exact Selects.other | skip
  all_goals rule_tac h nv

end Verif.Proofs.Cldr
