import Verif.Proofs.Humanize.Since
import Verif.Proofs.Humanize.Leap
/-!
# TimeSince as a whole
-/
namespace Verif.Proofs.Humanize
open Verif.Go Verif.Model.Humanize Verif.Spec.Humanize Verif.Proofs.Go Verif.Proofs.Calendar

/-! ## Options -/

theorem getD_cons {α : Type} (l : List α) (a b : α) : ((a :: l).getLast?).getD b = (l.getLast?).getD a := by
  rw [List.getLast?_cons]; rfl

theorem fold_depth (opts : List TimeOption) : ∀ o : SinceOptions, (opts.foldl TimeOption.apply o).depth =
    ((opts.filterMap fun | .depth n => some n | _ => none).getLast?).getD o.depth := by
  induction opts with
  | nil => intro o; rfl
  | cons x rest ih =>
    intro o
    rw [List.foldl_cons, ih]
    cases x <;> simp only [List.filterMap_cons, TimeOption.apply, getD_cons]

theorem fold_reverse (opts : List TimeOption) : ∀ o : SinceOptions, (opts.foldl TimeOption.apply o).reverse =
    ((opts.filterMap fun | .reverse n => some n | _ => none).getLast?).getD o.reverse := by
  induction opts with
  | nil => intro o; rfl
  | cons x rest ih =>
    intro o
    rw [List.foldl_cons, ih]
    cases x <;> simp only [List.filterMap_cons, TimeOption.apply, getD_cons]

theorem fold_now (opts : List TimeOption) : ∀ o : SinceOptions, (opts.foldl TimeOption.apply o).now =
    ((opts.filterMap fun | .now n => some n | _ => none).getLast?).getD o.now := by
  induction opts with
  | nil => intro o; rfl
  | cons x rest ih =>
    intro o
    rw [List.foldl_cons, ih]
    cases x <;> simp only [List.filterMap_cons, TimeOption.apply, getD_cons]

theorem fold_strings (opts : List TimeOption) : ∀ o : SinceOptions, (opts.foldl TimeOption.apply o).timeStrings =
    ((opts.filterMap fun | .timeStrings n => some n | _ => none).getLast?).getD o.timeStrings := by
  induction opts with
  | nil => intro o; rfl
  | cons x rest ih =>
    intro o
    rw [List.foldl_cons, ih]
    cases x <;> simp only [List.filterMap_cons, TimeOption.apply, getD_cons]

theorem fold_adjacent (opts : List TimeOption) : ∀ o : SinceOptions, (opts.foldl TimeOption.apply o).requireAdjacent =
    (o.requireAdjacent && adjacentOf opts) := by
  induction opts with
  | nil => intro o; simp [adjacentOf]
  | cons x rest ih =>
    intro o
    rw [List.foldl_cons, ih]
    cases x <;> simp [adjacentOf, TimeOption.apply]

/-- What the options amount to. -/
theorem options_eq (clock : Time) (opts : List TimeOption) :
    (newTimeSinceOptions clock opts).depth = depthOf opts ∧
    (newTimeSinceOptions clock opts).reverse = reverseOf opts ∧
    (newTimeSinceOptions clock opts).requireAdjacent = adjacentOf opts ∧
    (newTimeSinceOptions clock opts).now = nowOf clock opts ∧
    (newTimeSinceOptions clock opts).timeStrings =
      (let m := ((opts.filterMap fun | .timeStrings n => some n | _ => none).getLast?).getD []
       if m = [] then timeSinceStrings else m) := by
  have h1 := fold_depth opts ⟨zeroTime, false, [], -1, true⟩
  have h2 := fold_reverse opts ⟨zeroTime, false, [], -1, true⟩
  have h3 := fold_adjacent opts ⟨zeroTime, false, [], -1, true⟩
  have h4 := fold_now opts ⟨zeroTime, false, [], -1, true⟩
  have h5 := fold_strings opts ⟨zeroTime, false, [], -1, true⟩
  simp only [Bool.true_and] at h1 h2 h3 h4 h5
  unfold newTimeSinceOptions
  generalize opts.foldl TimeOption.apply ⟨zeroTime, false, [], -1, true⟩ = o at *
  have hd : (if o.depth ≤ 0 then 2 else o.depth) = depthOf opts := by
    unfold depthOf
    rw [h1]
    cases (opts.filterMap fun | .depth n => some n | _ => none).getLast? with
    | none => simp
    | some n => simp
  have hn : (if o.now.isZero then clock else o.now) = nowOf clock opts := by
    unfold nowOf
    rw [h4]
    cases (opts.filterMap fun | .now n => some n | _ => none).getLast? with
    | none => rw [Option.getD_none, if_pos (by decide)]
    | some n => rfl
  have hr : o.reverse = reverseOf opts := h2
  rw [← hd, ← hr, ← h3, ← hn]
  simp only [← h5]
  by_cases c1 : o.timeStrings = [] <;> by_cases c2 : o.depth ≤ 0 <;> cases c3 : o.now.isZero <;> simp [c1, c2, c3]

/-! ## The text -/

/-- The texts with a message context. -/
def HasContext (strings : GoMap Bytes Entry) (context : Bytes) : Prop :=
  ∀ p ∈ sinceUnits, entryOf strings p.1 = ⟨context, b!"%[1]v " ++ p.1, b!"%[1]v " ++ p.1 ++ b!"s"⟩

theorem hasContext_since : HasContext timeSinceStrings [] := by unfold HasContext; decide +kernel
theorem hasContext_past : HasContext naturalPastSubstrings b!"naturaltime-past" := by unfold HasContext; decide +kernel
theorem hasContext_future : HasContext naturalFutureSubstrings b!"naturaltime-future" := by unfold HasContext; decide +kernel

/-- The seconds that are shown. -/
def shownSeconds (oor : F64 → Int) (ft : Time × Time) : Int :=
  wrap64 (wrap64 (ft.2.unix - ft.1.unix) - wrap64 (60 * 60 * 24 * leapAdjust oor ft.1.year ft.2.year))

theorem timeSinceTime_units (env : Env) (clock d : Time) (opts : List TimeOption) (context : Bytes)
    (hs : HasContext (newTimeSinceOptions clock opts).timeStrings context) :
    ∃ us : List ((Bytes × Int) × Int), Shows context (fun loc => timeSinceTime { env with loc := loc } clock d opts) us ∧
      (us.length : Int) ≤ depthOf opts ∧ (us.map Prod.fst).Sublist sinceUnits ∧
      (adjacentOf opts = true → us.map Prod.fst <:+: sinceUnits) ∧ (∀ p ∈ us, 0 < p.2) ∧
      (shownSeconds env.oor (fromTo clock d opts) ≤ 0 → us = []) ∧
      (60 ≤ shownSeconds env.oor (fromTo clock d opts) → us ≠ []) ∧
      (0 < shownSeconds env.oor (fromTo clock d opts) → shownSeconds env.oor (fromTo clock d opts) < 2 ^ 53 →
        10000 * totalSeconds us ≤ 10000 * shownSeconds env.oor (fromTo clock d opts) + 6 * lastSeconds us ∧
        (adjacentOf opts = false → 6 ≤ depthOf opts → shownSeconds env.oor (fromTo clock d opts) - totalSeconds us < 60)) := by
  obtain ⟨o1, o2, o3, o4, _⟩ := options_eq clock opts
  have hdp : 1 ≤ depthOf opts := by unfold depthOf; simp only []; split <;> omega
  have htext : ∀ loc : Loc, timeSinceTime { env with loc := loc } clock d opts =
      sinceText { env with loc := loc } (newTimeSinceOptions clock opts) (shownSeconds env.oor (fromTo clock d opts)) := by
    intro loc
    unfold timeSinceTime fromTo shownSeconds
    simp only [o2, o4]
  generalize hdel : shownSeconds env.oor (fromTo clock d opts) = delta at *
  have hmax : delta < 2 ^ 63 := by rw [← hdel]; unfold shownSeconds wrap64; omega
  have hzero : ∀ loc : Loc, zeroMinutes { env with loc := loc } (newTimeSinceOptions clock opts) =
      showUnit context loc ((b!"minute", 60), 0) := by
    intro loc
    unfold zeroMinutes showUnit
    have := hs (b!"minute", 60) (by decide)
    simp only at this
    simp only [this]
  by_cases h0 : delta ≤ 0
  · refine ⟨[], ?_, by simp; omega, by simp, by simp, by simp, by simp, by omega, by omega⟩
    intro loc
    show timeSinceTime { env with loc := loc } clock d opts = _
    rw [if_pos rfl, htext, sinceText, if_pos h0, hzero]
  · rcases sinceText_shape env.oor (adjacentOf opts) (depthOf opts) delta (by omega) hmax hdp with ⟨h1, h2⟩ | ⟨i, i1, i2, i3, i4⟩
    · refine ⟨[], ?_, by simp; omega, by simp, by simp, by simp, by simp, by omega, ?_⟩
      · intro loc
        show timeSinceTime { env with loc := loc } clock d opts = _
        rw [if_pos rfl, htext, h2 { env with loc := loc } _ rfl, hzero]
      · intro _ _
        simp only [totalSeconds, lastSeconds]
        omega
    · have hsub := (pick_sublist env.oor (adjacentOf opts) (depthOf opts) (sinceUnits.drop i) 0 delta).trans
        (List.drop_sublist i sinceUnits)
      refine ⟨pick env.oor (adjacentOf opts) (depthOf opts) (sinceUnits.drop i) 0 delta, ?_, ?_, hsub, ?_,
        pick_pos _ _ _ _ _ _, by omega, fun _ => i3, ?_⟩
      · intro loc
        show timeSinceTime { env with loc := loc } clock d opts = _
        rw [if_neg i3, htext, i4 { env with loc := loc } _ rfl o3 o1]
        congr 1
        apply List.map_congr_left
        intro p hp
        have hm : p.1 ∈ sinceUnits := hsub.subset (List.mem_map.mpr ⟨p, hp, rfl⟩)
        unfold unitText showUnit
        simp only [hs _ hm]
      · have := pick_length env.oor (adjacentOf opts) (depthOf opts) (sinceUnits.drop i) 0 delta (by omega)
        omega
      · intro ha
        rw [ha]
        have hp := pick_prefix env.oor (depthOf opts) (sinceUnits.drop i) 0 delta
        exact hp.isInfix.trans (List.drop_suffix i sinceUnits).isInfix
      · intro _ h53
        exact shown_bounds env.oor (adjacentOf opts) (depthOf opts) delta (by omega) h53 i i1 i2

/-! ## Against the elapsed time -/

theorem shownSeconds_le (oor : F64 → Int) (ft : Time × Time) (h1 : InRange ft.1) (h2 : InRange ft.2)
    (h : ft.1.unix ≤ ft.2.unix) (hb : ft.2.unix - ft.1.unix < 2 ^ 53) :
    shownSeconds oor ft = ft.2.unix - ft.1.unix - 86400 * leapAdjust oor ft.1.year ft.2.year ∧
      0 ≤ leapAdjust oor ft.1.year ft.2.year := by
  have r1 := year_range ft.1
  have r2 := year_range ft.2
  have o := year_order h2 h1 h
  have nn := leapAdjust_nonneg oor r1.1 r1.2 r2.1 r2.2 o.1
  refine ⟨?_, nn⟩
  have ub : leapAdjust oor ft.1.year ft.2.year ≤ 2 ^ 43 := by
    by_cases hy : ft.1.year ≤ ft.2.year
    · have hu := leapAdjust_upper oor r1.1 r1.2 r2.1 r2.2 hy
      by_cases hyy : ft.1.year + 2 ≤ ft.2.year
      · have := o.2 (by omega)
        omega
      · omega
    · rw [leapAdjust_near oor r1.1 r1.2 r2.1 r2.2 (by omega)]; omega
  unfold shownSeconds
  rw [wrap64_id (n := ft.2.unix - ft.1.unix) (by omega) (by omega), wrap64_id (n := 60 * 60 * 24 * _) (by omega) (by omega),
    wrap64_id (by omega) (by omega)]
  omega

/-- A minute or more is shown. -/
theorem shownSeconds_ge (oor : F64 → Int) (ft : Time × Time) (h1 : InRange ft.1) (h2 : InRange ft.2)
    (h : ft.1.unix + 60 ≤ ft.2.unix) (hb : ft.2.unix - ft.1.unix < 2 ^ 62) : 60 ≤ shownSeconds oor ft := by
  have r1 := year_range ft.1
  have r2 := year_range ft.2
  have o := year_order h2 h1 (by omega)
  have nn := leapAdjust_nonneg oor r1.1 r1.2 r2.1 r2.2 o.1
  have ub : 86400 * leapAdjust oor ft.1.year ft.2.year ≤ 2 ^ 62 ∧
      60 ≤ ft.2.unix - ft.1.unix - 86400 * leapAdjust oor ft.1.year ft.2.year := by
    by_cases hyy : ft.1.year + 2 ≤ ft.2.year
    · have hu := leapAdjust_upper oor r1.1 r1.2 r2.1 r2.2 (by omega)
      have := o.2 (by omega)
      omega
    · rw [leapAdjust_near oor r1.1 r1.2 r2.1 r2.2 (by omega)]; omega
  unfold shownSeconds
  rw [wrap64_id (n := ft.2.unix - ft.1.unix) (by omega) (by omega), wrap64_id (n := 60 * 60 * 24 * _) (by omega) (by omega),
    wrap64_id (by omega) (by omega)]
  omega

theorem shownSeconds_future (oor : F64 → Int) (ft : Time × Time) (h1 : InRange ft.1) (h2 : InRange ft.2)
    (h : ft.2.unix ≤ ft.1.unix) (hb : -(2 ^ 62) < ft.2.unix - ft.1.unix) : shownSeconds oor ft ≤ 0 := by
  have r1 := year_range ft.1
  have r2 := year_range ft.2
  have o := year_order h1 h2 h
  have key : -(2 ^ 62) ≤ 86400 * leapAdjust oor ft.1.year ft.2.year ∧ leapAdjust oor ft.1.year ft.2.year ≤ 1 ∧
      ft.2.unix - ft.1.unix ≤ 86400 * leapAdjust oor ft.1.year ft.2.year := by
    by_cases hy : ft.2.year + 2 ≤ ft.1.year
    · have hl := leapAdjust_lower oor r1.1 r1.2 r2.1 r2.2 (by omega)
      have := o.2 hy
      omega
    · rw [leapAdjust_near oor r1.1 r1.2 r2.1 r2.2 (by omega)]; omega
  unfold shownSeconds
  rw [wrap64_id (n := ft.2.unix - ft.1.unix) (by omega) (by omega), wrap64_id (n := 60 * 60 * 24 * _) (by omega) (by omega),
    wrap64_id (by omega) (by omega)]
  omega

end Verif.Proofs.Humanize
