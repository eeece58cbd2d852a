import Verif.Proofs.Shared
import Verif.Model.PoPlural.Evaluate
/-! Which pairs of rules belong to a language, by their positions in the two tables (generated). -/
namespace Verif.Proofs.Shared
open Verif.Spec.SharedPlurals
open Verif.Model.Cldr (RuleSet)
open Verif.Model.PoPlural (Rule)

/-- Position of the entry of a language in a table. -/
def place {α : Type} (table : List (List String × α)) (lang : String) : Option Nat :=
  table.findIdx? (fun p => p.1.contains lang)

theorem find_place {α : Type} (table : List (List String × α)) (lang : String) :
    (table.find? (fun p => p.1.contains lang)).map (·.2) =
      (place table lang).bind (fun i => table[i]?.map (·.2)) := by
  unfold place
  induction table with
  | nil => rfl
  | cons p t ih =>
    rw [List.find?_cons, List.findIdx?_cons]
    cases h : p.1.contains lang with
    | true => simp
    | false =>
      simp only [Bool.false_eq_true, if_false]
      rw [ih]
      cases t.findIdx? (fun p => p.1.contains lang) <;> simp

/-- The positions of the rules of a language in the two tables. -/
def shared : List (Nat × Nat) := [
  (1, 1), (1, 4), (1, 6), (2, 2), (2, 3), (2, 7), (2, 10), (23, 36), (6, 24), (6, 13), (6, 30),
  (7, 12), (7, 19), (0, 0), (20, 32), (8, 14), (8, 15), (3, 5), (9, 25), (24, 37), (17, 26),
  (17, 31), (10, 16), (10, 22), (21, 33), (18, 27), (19, 34), (11, 17), (11, 18), (4, 8),
  (4, 9), (25, 38), (12, 28), (13, 20), (22, 35), (14, 29), (15, 21), (16, 23), (5, 11)]

theorem shared_fits : ∀ p ∈ shared, ∃ e f, Model.PoPlural.langTable[p.1]? = some e ∧
    Model.Cldr.langTable[p.2]? = some f ∧ Fits e.2 f.2 := by
  unfold shared
  refine List.forall_mem_cons.mpr ⟨⟨_, _, rfl, rfl, fits_af_af⟩, ?_⟩
  refine List.forall_mem_cons.mpr ⟨⟨_, _, rfl, rfl, fits_af_ast⟩, ?_⟩
  refine List.forall_mem_cons.mpr ⟨⟨_, _, rfl, rfl, fits_af_da⟩, ?_⟩
  refine List.forall_mem_cons.mpr ⟨⟨_, _, rfl, rfl, fits_ak_ak⟩, ?_⟩
  refine List.forall_mem_cons.mpr ⟨⟨_, _, rfl, rfl, fits_ak_am⟩, ?_⟩
  refine List.forall_mem_cons.mpr ⟨⟨_, _, rfl, rfl, fits_ak_ff⟩, ?_⟩
  refine List.forall_mem_cons.mpr ⟨⟨_, _, rfl, rfl, fits_ak_si⟩, ?_⟩
  refine List.forall_mem_cons.mpr ⟨⟨_, _, rfl, rfl, fits_ar_ar⟩, ?_⟩
  refine List.forall_mem_cons.mpr ⟨⟨_, _, rfl, rfl, fits_be_be⟩, ?_⟩
  refine List.forall_mem_cons.mpr ⟨⟨_, _, rfl, rfl, fits_be_bs⟩, ?_⟩
  refine List.forall_mem_cons.mpr ⟨⟨_, _, rfl, rfl, fits_be_ru⟩, ?_⟩
  refine List.forall_mem_cons.mpr ⟨⟨_, _, rfl, rfl, fits_blo_blo⟩, ?_⟩
  refine List.forall_mem_cons.mpr ⟨⟨_, _, rfl, rfl, fits_blo_lag⟩, ?_⟩
  refine List.forall_mem_cons.mpr ⟨⟨_, _, rfl, rfl, fits_bm_bm⟩, ?_⟩
  refine List.forall_mem_cons.mpr ⟨⟨_, _, rfl, rfl, fits_br_br⟩, ?_⟩
  refine List.forall_mem_cons.mpr ⟨⟨_, _, rfl, rfl, fits_ca_ca⟩, ?_⟩
  refine List.forall_mem_cons.mpr ⟨⟨_, _, rfl, rfl, fits_ca_es⟩, ?_⟩
  refine List.forall_mem_cons.mpr ⟨⟨_, _, rfl, rfl, fits_ceb_ceb⟩, ?_⟩
  refine List.forall_mem_cons.mpr ⟨⟨_, _, rfl, rfl, fits_cs_cs⟩, ?_⟩
  refine List.forall_mem_cons.mpr ⟨⟨_, _, rfl, rfl, fits_cy_cy⟩, ?_⟩
  refine List.forall_mem_cons.mpr ⟨⟨_, _, rfl, rfl, fits_dsb_dsb⟩, ?_⟩
  refine List.forall_mem_cons.mpr ⟨⟨_, _, rfl, rfl, fits_dsb_sl⟩, ?_⟩
  refine List.forall_mem_cons.mpr ⟨⟨_, _, rfl, rfl, fits_fr_fr⟩, ?_⟩
  refine List.forall_mem_cons.mpr ⟨⟨_, _, rfl, rfl, fits_fr_pt⟩, ?_⟩
  refine List.forall_mem_cons.mpr ⟨⟨_, _, rfl, rfl, fits_ga_ga⟩, ?_⟩
  refine List.forall_mem_cons.mpr ⟨⟨_, _, rfl, rfl, fits_gd_gd⟩, ?_⟩
  refine List.forall_mem_cons.mpr ⟨⟨_, _, rfl, rfl, fits_gv_gv⟩, ?_⟩
  refine List.forall_mem_cons.mpr ⟨⟨_, _, rfl, rfl, fits_he_he⟩, ?_⟩
  refine List.forall_mem_cons.mpr ⟨⟨_, _, rfl, rfl, fits_he_iu⟩, ?_⟩
  refine List.forall_mem_cons.mpr ⟨⟨_, _, rfl, rfl, fits_is_is⟩, ?_⟩
  refine List.forall_mem_cons.mpr ⟨⟨_, _, rfl, rfl, fits_is_mk⟩, ?_⟩
  refine List.forall_mem_cons.mpr ⟨⟨_, _, rfl, rfl, fits_kw_kw⟩, ?_⟩
  refine List.forall_mem_cons.mpr ⟨⟨_, _, rfl, rfl, fits_lt_lt⟩, ?_⟩
  refine List.forall_mem_cons.mpr ⟨⟨_, _, rfl, rfl, fits_lv_lv⟩, ?_⟩
  refine List.forall_mem_cons.mpr ⟨⟨_, _, rfl, rfl, fits_mt_mt⟩, ?_⟩
  refine List.forall_mem_cons.mpr ⟨⟨_, _, rfl, rfl, fits_pl_pl⟩, ?_⟩
  refine List.forall_mem_cons.mpr ⟨⟨_, _, rfl, rfl, fits_ro_mo⟩, ?_⟩
  refine List.forall_mem_cons.mpr ⟨⟨_, _, rfl, rfl, fits_shi_shi⟩, ?_⟩
  refine List.forall_mem_cons.mpr ⟨⟨_, _, rfl, rfl, fits_tzm_tzm⟩, ?_⟩
  exact List.forall_mem_nil _

end Verif.Proofs.Shared
