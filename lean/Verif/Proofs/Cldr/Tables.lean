import Verif.Proofs.Cldr.Builtin
/-! The table of the built-in rule sets against the table of the published rules. -/
namespace Verif.Proofs.Cldr
open Verif.Go Verif.Model.Cldr Verif.Spec.Cldr Verif.Cldr

/-- What is known about one built-in rule set. -/
structure Good (rs : RuleSet) (p : Published) : Prop where
  mem : ∀ ops, rs.form ops ∈ rs.categories
  cats : rs.categories = p.rules.map (·.1) ++ [.other]
  asc : rs.categories.Pairwise (fun a b => a.toNat < b.toNat)
  sel : ∀ ops o nv, Match ops o nv → Selects o p.rules (rs.form ops)

theorem ite_mem {P : Prop} [Decidable P] {c d : Category} {l : List Category} (h : c ∈ l) (h' : d ∈ l) :
    (if P then c else d) ∈ l := by split <;> assumption

/-- Two tables in the same order, with good rule sets; the first may have more languages. -/
inductive Paired : List (List String × RuleSet) → List (List String × Published) → Prop
  | nil : Paired [] []
  | cons {ls ls' rs p T P} : Good rs p → (∀ l ∈ ls', l ∈ ls) → Paired T P →
      Paired ((ls, rs) :: T) ((ls', p) :: P)

theorem Paired.good {T P} (h : Paired T P) :
    ∀ x ∈ T, ∃ y ∈ P, (∀ l ∈ y.1, l ∈ x.1) ∧ Good x.2 y.2 := by
  induction h with
  | nil => simp
  | cons g hl _ ih =>
    intro x hx
    rcases List.mem_cons.mp hx with rfl | hx
    · exact ⟨_, List.mem_cons_self, hl, g⟩
    · obtain ⟨y, hy, h⟩ := ih x hx
      exact ⟨y, List.mem_cons_of_mem _ hy, h⟩

theorem Paired.find {T P} (h : Paired T P) (hn : ((T.map (·.1)).flatten).Nodup) :
    ∀ y ∈ P, ∀ lang ∈ y.1, ∃ x ∈ T, lang ∈ x.1 ∧ T.find? (fun q => q.1.contains lang) = some x ∧
      Good x.2 y.2 := by
  induction h with
  | nil => simp
  | @cons ls ls' rs p T P g hsub _ ih =>
    intro y hy lang hl
    simp only [List.map_cons, List.flatten_cons, List.nodup_append] at hn
    rcases List.mem_cons.mp hy with rfl | hy
    · exact ⟨(ls, rs), List.mem_cons_self, hsub _ hl, by simp [show lang ∈ ls from hsub _ hl], g⟩
    · obtain ⟨x, hxT, hxl, hx, gx⟩ := ih hn.2.1 y hy lang hl
      refine ⟨x, List.mem_cons_of_mem _ hxT, hxl, ?_, gx⟩
      have hnot : ls.contains lang = false := by
        simp only [List.contains_eq_mem, decide_eq_false_iff_not]
        intro hc
        refine hn.2.2 lang hc lang ?_ rfl
        exact List.mem_flatten.mpr ⟨x.1, List.mem_map.mpr ⟨x, hxT, rfl⟩, hxl⟩
      rw [List.find?_cons]; simp only [hnot]; exact hx

/-- No language has two rule sets. -/
theorem langTable_nodup : ((langTable.map (·.1)).flatten).Nodup := by decide +kernel

theorem subset_self (l : List String) : ∀ x ∈ l, x ∈ l := fun _ h => h

theorem good_bm : Good rs_bm pub_bm where
  mem ops := by unfold rs_bm; repeat (first | exact List.mem_cons_self | refine ite_mem (by decide) ?_ | decide)
  cats := rfl
  asc := by decide
  sel _ _ _ h := sel_bm h

theorem good_af : Good rs_af pub_af where
  mem ops := by unfold rs_af; repeat (first | exact List.mem_cons_self | refine ite_mem (by decide) ?_ | decide)
  cats := rfl
  asc := by decide
  sel _ _ _ h := sel_af h

theorem good_ak : Good rs_ak pub_ak where
  mem ops := by unfold rs_ak; repeat (first | exact List.mem_cons_self | refine ite_mem (by decide) ?_ | decide)
  cats := rfl
  asc := by decide
  sel _ _ _ h := sel_ak h

theorem good_am : Good rs_am pub_am where
  mem ops := by unfold rs_am; repeat (first | exact List.mem_cons_self | refine ite_mem (by decide) ?_ | decide)
  cats := rfl
  asc := by decide
  sel _ _ _ h := sel_am h

theorem good_ast : Good rs_ast pub_ast where
  mem ops := by unfold rs_ast; repeat (first | exact List.mem_cons_self | refine ite_mem (by decide) ?_ | decide)
  cats := rfl
  asc := by decide
  sel _ _ _ h := sel_ast h

theorem good_ceb : Good rs_ceb pub_ceb where
  mem ops := by unfold rs_ceb; repeat (first | exact List.mem_cons_self | refine ite_mem (by decide) ?_ | decide)
  cats := rfl
  asc := by decide
  sel _ _ _ h := sel_ceb h

theorem good_da : Good rs_da pub_da where
  mem ops := by unfold rs_da; repeat (first | exact List.mem_cons_self | refine ite_mem (by decide) ?_ | decide)
  cats := rfl
  asc := by decide
  sel _ _ _ h := sel_da h

theorem good_ff : Good rs_ff pub_ff where
  mem ops := by unfold rs_ff; repeat (first | exact List.mem_cons_self | refine ite_mem (by decide) ?_ | decide)
  cats := rfl
  asc := by decide
  sel _ _ _ h := sel_ff h

theorem good_is : Good rs_is pub_is where
  mem ops := by unfold rs_is; repeat (first | exact List.mem_cons_self | refine ite_mem (by decide) ?_ | decide)
  cats := rfl
  asc := by decide
  sel _ _ _ h := sel_is h

theorem good_mk : Good rs_mk pub_mk where
  mem ops := by unfold rs_mk; repeat (first | exact List.mem_cons_self | refine ite_mem (by decide) ?_ | decide)
  cats := rfl
  asc := by decide
  sel _ _ _ h := sel_mk h

theorem good_si : Good rs_si pub_si where
  mem ops := by unfold rs_si; repeat (first | exact List.mem_cons_self | refine ite_mem (by decide) ?_ | decide)
  cats := rfl
  asc := by decide
  sel _ _ _ h := sel_si h

theorem good_tzm : Good rs_tzm pub_tzm where
  mem ops := by unfold rs_tzm; repeat (first | exact List.mem_cons_self | refine ite_mem (by decide) ?_ | decide)
  cats := rfl
  asc := by decide
  sel _ _ _ h := sel_tzm h

theorem good_blo : Good rs_blo pub_blo where
  mem ops := by unfold rs_blo; repeat (first | exact List.mem_cons_self | refine ite_mem (by decide) ?_ | decide)
  cats := rfl
  asc := by decide
  sel _ _ _ h := sel_blo h

theorem good_bs : Good rs_bs pub_bs where
  mem ops := by unfold rs_bs; repeat (first | exact List.mem_cons_self | refine ite_mem (by decide) ?_ | decide)
  cats := rfl
  asc := by decide
  sel _ _ _ h := sel_bs h

theorem good_ca : Good rs_ca pub_ca where
  mem ops := by unfold rs_ca; repeat (first | exact List.mem_cons_self | refine ite_mem (by decide) ?_ | decide)
  cats := rfl
  asc := by decide
  sel _ _ _ h := sel_ca h

theorem good_es : Good rs_es pub_es where
  mem ops := by unfold rs_es; repeat (first | exact List.mem_cons_self | refine ite_mem (by decide) ?_ | decide)
  cats := rfl
  asc := by decide
  sel _ _ _ h := sel_es h

theorem good_fr : Good rs_fr pub_fr where
  mem ops := by unfold rs_fr; repeat (first | exact List.mem_cons_self | refine ite_mem (by decide) ?_ | decide)
  cats := rfl
  asc := by decide
  sel _ _ _ h := sel_fr h

theorem good_he : Good rs_he pub_he where
  mem ops := by unfold rs_he; repeat (first | exact List.mem_cons_self | refine ite_mem (by decide) ?_ | decide)
  cats := rfl
  asc := by decide
  sel _ _ _ h := sel_he h

theorem good_iu : Good rs_iu pub_iu where
  mem ops := by unfold rs_iu; repeat (first | exact List.mem_cons_self | refine ite_mem (by decide) ?_ | decide)
  cats := rfl
  asc := by decide
  sel _ _ _ h := sel_iu h

theorem good_lag : Good rs_lag pub_lag where
  mem ops := by unfold rs_lag; repeat (first | exact List.mem_cons_self | refine ite_mem (by decide) ?_ | decide)
  cats := rfl
  asc := by decide
  sel _ _ _ h := sel_lag h

theorem good_lv : Good rs_lv pub_lv where
  mem ops := by unfold rs_lv; repeat (first | exact List.mem_cons_self | refine ite_mem (by decide) ?_ | decide)
  cats := rfl
  asc := by decide
  sel _ _ _ h := sel_lv h

theorem good_mo : Good rs_mo pub_mo where
  mem ops := by unfold rs_mo; repeat (first | exact List.mem_cons_self | refine ite_mem (by decide) ?_ | decide)
  cats := rfl
  asc := by decide
  sel _ _ _ h := sel_mo h

theorem good_pt : Good rs_pt pub_pt where
  mem ops := by unfold rs_pt; repeat (first | exact List.mem_cons_self | refine ite_mem (by decide) ?_ | decide)
  cats := rfl
  asc := by decide
  sel _ _ _ h := sel_pt h

theorem good_shi : Good rs_shi pub_shi where
  mem ops := by unfold rs_shi; repeat (first | exact List.mem_cons_self | refine ite_mem (by decide) ?_ | decide)
  cats := rfl
  asc := by decide
  sel _ _ _ h := sel_shi h

theorem good_be : Good rs_be pub_be where
  mem ops := by unfold rs_be; repeat (first | exact List.mem_cons_self | refine ite_mem (by decide) ?_ | decide)
  cats := rfl
  asc := by decide
  sel _ _ _ h := sel_be h

theorem good_cs : Good rs_cs pub_cs where
  mem ops := by unfold rs_cs; repeat (first | exact List.mem_cons_self | refine ite_mem (by decide) ?_ | decide)
  cats := rfl
  asc := by decide
  sel _ _ _ h := sel_cs h

theorem good_dsb : Good rs_dsb pub_dsb where
  mem ops := by unfold rs_dsb; repeat (first | exact List.mem_cons_self | refine ite_mem (by decide) ?_ | decide)
  cats := rfl
  asc := by decide
  sel _ _ _ h := sel_dsb h

theorem good_gd : Good rs_gd pub_gd where
  mem ops := by unfold rs_gd; repeat (first | exact List.mem_cons_self | refine ite_mem (by decide) ?_ | decide)
  cats := rfl
  asc := by decide
  sel _ _ _ h := sel_gd h

theorem good_lt : Good rs_lt pub_lt where
  mem ops := by unfold rs_lt; repeat (first | exact List.mem_cons_self | refine ite_mem (by decide) ?_ | decide)
  cats := rfl
  asc := by decide
  sel _ _ _ h := sel_lt h

theorem good_pl : Good rs_pl pub_pl where
  mem ops := by unfold rs_pl; repeat (first | exact List.mem_cons_self | refine ite_mem (by decide) ?_ | decide)
  cats := rfl
  asc := by decide
  sel _ _ _ h := sel_pl h

theorem good_ru : Good rs_ru pub_ru where
  mem ops := by unfold rs_ru; repeat (first | exact List.mem_cons_self | refine ite_mem (by decide) ?_ | decide)
  cats := rfl
  asc := by decide
  sel _ _ _ h := sel_ru h

theorem good_sl : Good rs_sl pub_sl where
  mem ops := by unfold rs_sl; repeat (first | exact List.mem_cons_self | refine ite_mem (by decide) ?_ | decide)
  cats := rfl
  asc := by decide
  sel _ _ _ h := sel_sl h

theorem good_br : Good rs_br pub_br where
  mem ops := by unfold rs_br; repeat (first | exact List.mem_cons_self | refine ite_mem (by decide) ?_ | decide)
  cats := rfl
  asc := by decide
  sel _ _ _ h := sel_br h

theorem good_ga : Good rs_ga pub_ga where
  mem ops := by unfold rs_ga; repeat (first | exact List.mem_cons_self | refine ite_mem (by decide) ?_ | decide)
  cats := rfl
  asc := by decide
  sel _ _ _ h := sel_ga h

theorem good_gv : Good rs_gv pub_gv where
  mem ops := by unfold rs_gv; repeat (first | exact List.mem_cons_self | refine ite_mem (by decide) ?_ | decide)
  cats := rfl
  asc := by decide
  sel _ _ _ h := sel_gv h

theorem good_mt : Good rs_mt pub_mt where
  mem ops := by unfold rs_mt; repeat (first | exact List.mem_cons_self | refine ite_mem (by decide) ?_ | decide)
  cats := rfl
  asc := by decide
  sel _ _ _ h := sel_mt h

theorem good_ar : Good rs_ar pub_ar where
  mem ops := by unfold rs_ar; repeat (first | exact List.mem_cons_self | refine ite_mem (by decide) ?_ | decide)
  cats := rfl
  asc := by decide
  sel _ _ _ h := sel_ar h

theorem good_cy : Good rs_cy pub_cy where
  mem ops := by unfold rs_cy; repeat (first | exact List.mem_cons_self | refine ite_mem (by decide) ?_ | decide)
  cats := rfl
  asc := by decide
  sel _ _ _ h := sel_cy h

theorem good_kw : Good rs_kw pub_kw where
  mem ops := by unfold rs_kw; repeat (first | exact List.mem_cons_self | refine ite_mem (by decide) ?_ | decide)
  cats := rfl
  asc := by decide
  sel _ _ _ h := sel_kw h

theorem paired : Paired langTable publishedFor :=
  .cons good_bm (subset_self _) <|
  .cons good_af (subset_self _) <|
  .cons good_ak (subset_self _) <|
  .cons good_am (subset_self _) <|
  .cons good_ast (subset_self _) <|
  .cons good_ceb (subset_self _) <|
  .cons good_da (subset_self _) <|
  .cons good_ff (subset_self _) <|
  .cons good_is (subset_self _) <|
  .cons good_mk (subset_self _) <|
  .cons good_si (subset_self _) <|
  .cons good_tzm (subset_self _) <|
  .cons good_blo (subset_self _) <|
  .cons good_bs (by decide) <|
  .cons good_ca (subset_self _) <|
  .cons good_es (subset_self _) <|
  .cons good_fr (subset_self _) <|
  .cons good_he (subset_self _) <|
  .cons good_iu (subset_self _) <|
  .cons good_lag (subset_self _) <|
  .cons good_lv (subset_self _) <|
  .cons good_mo (by decide) <|
  .cons good_pt (subset_self _) <|
  .cons good_shi (subset_self _) <|
  .cons good_be (subset_self _) <|
  .cons good_cs (subset_self _) <|
  .cons good_dsb (subset_self _) <|
  .cons good_gd (subset_self _) <|
  .cons good_lt (subset_self _) <|
  .cons good_pl (subset_self _) <|
  .cons good_ru (subset_self _) <|
  .cons good_sl (subset_self _) <|
  .cons good_br (subset_self _) <|
  .cons good_ga (subset_self _) <|
  .cons good_gv (subset_self _) <|
  .cons good_mt (subset_self _) <|
  .cons good_ar (subset_self _) <|
  .cons good_cy (subset_self _) <|
  .cons good_kw (subset_self _) <| .nil

end Verif.Proofs.Cldr
