import Verif.Proofs.Cldr.Eval
/-! The published rules of a language exclude each other (generated, one theorem per rule set). -/
namespace Verif.Proofs.Cldr
open Verif.Go Verif.Model.Cldr Verif.Spec.Cldr Verif.Cldr

/-- Operands that belong together, as those of a decimal do, with a compact exponent of at most five. -/
structure Coherent (o : Ops) (nv : Option Nat) : Prop where
  q : QV o.n nv
  int : ∀ k, nv = some k → o.i = k ∧ o.f = 0 ∧ o.t = 0 ∧ o.w = 0
  frac : nv = none → o.f ≠ 0 ∧ o.t ≠ 0 ∧ o.v ≠ 0 ∧ o.w ≠ 0
  e : o.e ≤ 5

macro "excl_triv" : tactic => `(tactic| (
  simp only [Exclusive, List.pairwise_cons, List.mem_cons, List.not_mem_nil, or_false, forall_eq_or_imp, forall_eq, and_true,
    List.Pairwise.nil, false_implies, implies_true, true_and]))

macro "excl_tac" h:term:max nv:ident : tactic => `(tactic| (
  simp only [Exclusive, List.pairwise_cons, List.mem_cons, List.not_mem_nil, or_false, forall_eq_or_imp, forall_eq, and_true,
    List.Pairwise.nil, false_implies, implies_true, true_and]
  have hint := ($h).int
  have hfrac := ($h).frac
  have he := ($h).e
  repeat' (first | apply And.intro | exact True.intro)
  all_goals (
    simp only [Cond.Holds, Rel.Holds, Rel.value, Ops.get, List.mem_cons, List.not_mem_nil, or_false,
      exists_eq_or_imp, exists_eq_left, forall_eq_or_imp, forall_eq, if_true, if_false, Bool.false_eq_true, false_and, exists_false,
      int_mod, int_in_none, int_in_some, ($h).q.in_none, ($h).q.in_some,
      (($h).q.mod 10).in_none, (($h).q.mod 10).in_some, (($h).q.mod 100).in_none, (($h).q.mod 100).in_some,
      (($h).q.mod 1000).in_none, (($h).q.mod 100000).in_some, (($h).q.mod 100000).in_none, (($h).q.mod 1000000).in_none]
    cases $nv:ident with
    | none =>
      have hf := hfrac rfl
      try simp only [within_some, within_none, Option.map_some, Option.map_none, reduceCtorEq, Option.some.injEq, false_or, or_false, false_and, and_false, not_false_eq_true, and_true, true_and, or_self]
      try omega
    | some k =>
      have hf := hint k rfl
      try simp only [within_some, within_none, Option.map_some, Option.map_none, reduceCtorEq, Option.some.injEq, false_or, or_false, false_and, and_false, not_false_eq_true, and_true, true_and, or_self]
      try omega)))

theorem excl_bm {o : Ops} {nv : Option Nat} (_ : Coherent o nv) : Exclusive o pub_bm.rules := by
  unfold pub_bm
  excl_triv

theorem excl_af {o : Ops} {nv : Option Nat} (_ : Coherent o nv) : Exclusive o pub_af.rules := by
  unfold pub_af
  excl_triv

theorem excl_ak {o : Ops} {nv : Option Nat} (_ : Coherent o nv) : Exclusive o pub_ak.rules := by
  unfold pub_ak
  excl_triv

theorem excl_am {o : Ops} {nv : Option Nat} (_ : Coherent o nv) : Exclusive o pub_am.rules := by
  unfold pub_am
  excl_triv

theorem excl_ast {o : Ops} {nv : Option Nat} (_ : Coherent o nv) : Exclusive o pub_ast.rules := by
  unfold pub_ast
  excl_triv

theorem excl_ceb {o : Ops} {nv : Option Nat} (_ : Coherent o nv) : Exclusive o pub_ceb.rules := by
  unfold pub_ceb
  excl_triv

theorem excl_da {o : Ops} {nv : Option Nat} (_ : Coherent o nv) : Exclusive o pub_da.rules := by
  unfold pub_da
  excl_triv

theorem excl_ff {o : Ops} {nv : Option Nat} (_ : Coherent o nv) : Exclusive o pub_ff.rules := by
  unfold pub_ff
  excl_triv

theorem excl_is {o : Ops} {nv : Option Nat} (_ : Coherent o nv) : Exclusive o pub_is.rules := by
  unfold pub_is
  excl_triv

theorem excl_mk {o : Ops} {nv : Option Nat} (_ : Coherent o nv) : Exclusive o pub_mk.rules := by
  unfold pub_mk
  excl_triv

theorem excl_si {o : Ops} {nv : Option Nat} (_ : Coherent o nv) : Exclusive o pub_si.rules := by
  unfold pub_si
  excl_triv

theorem excl_tzm {o : Ops} {nv : Option Nat} (_ : Coherent o nv) : Exclusive o pub_tzm.rules := by
  unfold pub_tzm
  excl_triv

theorem excl_blo {o : Ops} {nv : Option Nat} (h : Coherent o nv) : Exclusive o pub_blo.rules := by
  unfold pub_blo
  excl_tac h nv

theorem excl_bs {o : Ops} {nv : Option Nat} (h : Coherent o nv) : Exclusive o pub_bs.rules := by
  unfold pub_bs
  excl_tac h nv

theorem excl_ca {o : Ops} {nv : Option Nat} (h : Coherent o nv) : Exclusive o pub_ca.rules := by
  unfold pub_ca
  excl_tac h nv

theorem excl_es {o : Ops} {nv : Option Nat} (h : Coherent o nv) : Exclusive o pub_es.rules := by
  unfold pub_es
  excl_tac h nv

theorem excl_fr {o : Ops} {nv : Option Nat} (h : Coherent o nv) : Exclusive o pub_fr.rules := by
  unfold pub_fr
  excl_tac h nv

theorem excl_he {o : Ops} {nv : Option Nat} (h : Coherent o nv) : Exclusive o pub_he.rules := by
  unfold pub_he
  excl_tac h nv

theorem excl_iu {o : Ops} {nv : Option Nat} (h : Coherent o nv) : Exclusive o pub_iu.rules := by
  unfold pub_iu
  excl_tac h nv

theorem excl_lag {o : Ops} {nv : Option Nat} (h : Coherent o nv) : Exclusive o pub_lag.rules := by
  unfold pub_lag
  excl_tac h nv

theorem excl_lv {o : Ops} {nv : Option Nat} (h : Coherent o nv) : Exclusive o pub_lv.rules := by
  unfold pub_lv
  excl_tac h nv

theorem excl_mo {o : Ops} {nv : Option Nat} (h : Coherent o nv) : Exclusive o pub_mo.rules := by
  unfold pub_mo
  excl_tac h nv

theorem excl_pt {o : Ops} {nv : Option Nat} (h : Coherent o nv) : Exclusive o pub_pt.rules := by
  unfold pub_pt
  excl_tac h nv

theorem excl_shi {o : Ops} {nv : Option Nat} (h : Coherent o nv) : Exclusive o pub_shi.rules := by
  unfold pub_shi
  excl_tac h nv

theorem excl_be {o : Ops} {nv : Option Nat} (h : Coherent o nv) : Exclusive o pub_be.rules := by
  unfold pub_be
  excl_tac h nv

theorem excl_cs {o : Ops} {nv : Option Nat} (h : Coherent o nv) : Exclusive o pub_cs.rules := by
  unfold pub_cs
  excl_tac h nv

theorem excl_dsb {o : Ops} {nv : Option Nat} (h : Coherent o nv) : Exclusive o pub_dsb.rules := by
  unfold pub_dsb
  excl_tac h nv

theorem excl_gd {o : Ops} {nv : Option Nat} (h : Coherent o nv) : Exclusive o pub_gd.rules := by
  unfold pub_gd
  excl_tac h nv

theorem excl_lt {o : Ops} {nv : Option Nat} (h : Coherent o nv) : Exclusive o pub_lt.rules := by
  unfold pub_lt
  excl_tac h nv

theorem excl_pl {o : Ops} {nv : Option Nat} (h : Coherent o nv) : Exclusive o pub_pl.rules := by
  unfold pub_pl
  excl_tac h nv

theorem excl_ru {o : Ops} {nv : Option Nat} (h : Coherent o nv) : Exclusive o pub_ru.rules := by
  unfold pub_ru
  excl_tac h nv

theorem excl_sl {o : Ops} {nv : Option Nat} (h : Coherent o nv) : Exclusive o pub_sl.rules := by
  unfold pub_sl
  excl_tac h nv

theorem excl_br {o : Ops} {nv : Option Nat} (h : Coherent o nv) : Exclusive o pub_br.rules := by
  unfold pub_br
  excl_tac h nv

theorem excl_ga {o : Ops} {nv : Option Nat} (h : Coherent o nv) : Exclusive o pub_ga.rules := by
  unfold pub_ga
  excl_tac h nv

theorem excl_gv {o : Ops} {nv : Option Nat} (h : Coherent o nv) : Exclusive o pub_gv.rules := by
  unfold pub_gv
  excl_tac h nv

theorem excl_mt {o : Ops} {nv : Option Nat} (h : Coherent o nv) : Exclusive o pub_mt.rules := by
  unfold pub_mt
  excl_tac h nv

theorem excl_ar {o : Ops} {nv : Option Nat} (h : Coherent o nv) : Exclusive o pub_ar.rules := by
  unfold pub_ar
  excl_tac h nv

theorem excl_cy {o : Ops} {nv : Option Nat} (h : Coherent o nv) : Exclusive o pub_cy.rules := by
  unfold pub_cy
  excl_tac h nv

theorem excl_kw {o : Ops} {nv : Option Nat} (h : Coherent o nv) : Exclusive o pub_kw.rules := by
  unfold pub_kw
  excl_tac h nv

end Verif.Proofs.Cldr
