import Verif.Model.Humanize.Date
import Verif.Spec.Since
import Verif.Proofs.Humanize.FloorDiv
/-!
# TimeSince
-/
namespace Verif.Proofs.Humanize
open Verif.Go Verif.Model.Humanize Verif.Spec.Humanize Verif.Proofs.Go Verif.Proofs.Calendar

/-- `sort.Search` returns an index whose predecessor fails and which itself holds, unless it is the length. -/
theorem searchLoop_spec (f : Nat → Bool) (n : Nat) : ∀ (fuel i j : Nat), j < fuel + i → i ≤ j → j ≤ n →
    (i = 0 ∨ f (i - 1) = false) → (j = n ∨ f j = true) →
    let r := searchLoop f fuel i j
    r ≤ n ∧ (r = 0 ∨ f (r - 1) = false) ∧ (r = n ∨ f r = true) := by
  intro fuel
  induction fuel with
  | zero => intro i j h1 h2; omega
  | succ fuel ih =>
    intro i j h1 h2 h3 h4 h5
    simp only [searchLoop]
    by_cases hij : i < j
    · rw [if_pos hij]
      cases hf : f ((i + j) / 2) with
      | true => exact ih i ((i + j) / 2) (by omega) (by omega) (by omega) h4 (.inr hf)
      | false => exact ih ((i + j) / 2 + 1) j (by omega) (by omega) h3 (.inr (by simpa using hf)) h5
    · rw [if_neg hij]
      have : i = j := by omega
      subst this
      exact ⟨h3, h4, h5⟩

theorem sortSearch_spec (f : Nat → Bool) (n : Nat) : sortSearch n f ≤ n ∧
    (sortSearch n f = 0 ∨ f (sortSearch n f - 1) = false) ∧ (sortSearch n f = n ∨ f (sortSearch n f) = true) :=
  searchLoop_spec f n (n + 1) 0 n (by omega) (by omega) (by omega) (.inl rfl) (.inl rfl)

/-- The float64 of a non-negative int64. -/
theorem ofInt_fin {d : Int} (h0 : 0 ≤ d) (h : d < 2 ^ 63) :
    ∃ m e : Int, F64.ofInt d = .fin m e ∧ 0 ≤ ratOf m e ∧ ratOf m e ≤ 2 ^ 63 ∧ ((d : Int) < 2 ^ 53 → ratOf m e = d) ∧
      (∀ y, Rep y → y ≤ d → y ≤ ratOf m e) := by
  have hd0 : (0 : ℚ) ≤ d := by exact_mod_cast h0
  have hd1 : (d : ℚ) ≤ 2 ^ 63 := by exact_mod_cast h.le
  have f : Fits (d : ℚ) := fits_le hd0 hd1 (by norm_num)
  obtain ⟨m, e, h1, h2⟩ := ofRat_fin f
  refine ⟨m, e, by rw [ofInt_eq_ofRat (by omega), h1], ?_, ?_, ?_, ?_⟩
  · rw [h2]; exact rnd_nonneg hd0 f
  · rw [h2]; exact rnd_le ⟨1, 63, by norm_num, by norm_num, by norm_num⟩ hd0 f hd1
  · intro hs
    rw [h2]
    obtain ⟨n, rfl⟩ := Int.eq_ofNat_of_zero_le h0
    have := rnd_of_rep (rep_nat (p := n) (by omega)) (by exact_mod_cast f)
    exact_mod_cast this
  · intro y hy hyd
    rw [h2]; exact le_rnd hy hd0 f hyd

/-- Seconds of a unit. -/
def UnitSeconds (s : Int) : Prop := 60 ≤ s ∧ s ≤ 31536000

theorem div_bound {x : ℚ} {s : Int} (hs : UnitSeconds s) (h : x ≤ 2 ^ 63) : x / s ≤ 2 ^ 60 := by
  have h1 : (60 : ℚ) ≤ s := by exact_mod_cast hs.1
  rw [div_le_iff₀ (by linarith)]
  have : (2 : ℚ) ^ 60 * 60 ≤ 2 ^ 60 * s := by nlinarith
  norm_num at h this ⊢
  linarith

theorem unitCount_nonneg (oor : F64 → Int) {d s : Int} (h0 : 0 ≤ d) (h : d < 2 ^ 63) (hs : UnitSeconds s) :
    0 ≤ unitCount oor d s := by
  obtain ⟨m, e, h1, h2, h3, _⟩ := ofInt_fin h0 h
  unfold unitCount
  rw [h1]
  exact floorDivision_ge oor (by have := hs.1; omega) (by have := hs.1; have := hs.2; omega) (div_bound hs h3) 0 (by omega) (by simpa using h2)

theorem unitCount_pos (oor : F64 → Int) {d s : Int} (h0 : s ≤ d) (h : d < 2 ^ 63) (hs : UnitSeconds s) :
    1 ≤ unitCount oor d s := by
  have a1 := hs.1
  have a2 := hs.2
  obtain ⟨m, e, h1, h2, h3, _, h5⟩ := ofInt_fin (d := d) (by omega) h
  unfold unitCount
  rw [h1]
  obtain ⟨n, rfl⟩ := Int.eq_ofNat_of_zero_le (show 0 ≤ s by omega)
  have hr : (n : ℚ) ≤ ratOf m e := h5 n (rep_nat (by omega)) (by exact_mod_cast h0)
  exact floorDivision_ge oor (by omega) (by omega) (div_bound hs h3) 1 (by omega) (by push_cast; linarith)

/-- The count is the quotient, or one more if the remainder is nearly a unit. -/
theorem unitCount_bounds (oor : F64 → Int) {d s : Int} (h0 : 0 ≤ d) (h : d < 2 ^ 53) (hs : UnitSeconds s)
    (hq : d < 2 ^ 38 * s - s) :
    d < (unitCount oor d s + 1) * s ∧ 10000 * (unitCount oor d s * s) ≤ 10000 * d + 6 * s := by
  have a1 := hs.1
  have a2 := hs.2
  obtain ⟨m, e, h1, h2, h3, h4, h5⟩ := ofInt_fin (d := d) h0 (by omega)
  have hv := h4 h
  unfold unitCount
  rw [h1]
  have hd := Int.mul_ediv_add_emod d s
  have hm0 := Int.emod_nonneg d (show s ≠ 0 by omega)
  have hm1 := Int.emod_lt_of_pos d (show 0 < s by omega)
  have hq0 : 0 ≤ d / s := Int.ediv_nonneg h0 (by omega)
  have hq1 : d / s < 2 ^ 38 - 1 := by
    apply Int.ediv_lt_of_lt_mul (by omega)
    rw [Int.sub_mul]; omega
  obtain ⟨q, hqe⟩ := Int.eq_ofNat_of_zero_le hq0
  rw [hqe] at hd hq1
  generalize d % s = r at *
  have cd : (d : ℚ) = s * q + r := by exact_mod_cast hd.symm
  have cr0 : (0 : ℚ) ≤ r := by exact_mod_cast hm0
  have cr1 : (r : ℚ) < s := by exact_mod_cast hm1
  have cs : (0 : ℚ) < s := by exact_mod_cast (show 0 < s by omega)
  have ge := floorDivision_ge oor (m := m) (e := e) (s := s) (by omega) (by omega) (div_bound hs h3) q (by omega)
    (by rw [hv, cd]; nlinarith)
  have le1 := floorDivision_le oor (m := m) (e := e) (s := s) (by omega) (by omega) h2 (div_bound hs h3) (q + 1) (by omega)
    (by rw [hv, cd]; push_cast; nlinarith)
  have le0 : 10000 * r ≤ 9994 * s → floorDivision oor (.fin m e) (.ofInt s) ≤ q := by
    intro hr
    have hrq : 10000 * (r : ℚ) ≤ 9994 * s := by exact_mod_cast hr
    exact floorDivision_le oor (m := m) (e := e) (s := s) (by omega) (by omega) h2 (div_bound hs h3) q (by omega)
      (by rw [hv, cd]; nlinarith)
  generalize floorDivision oor (.fin m e) (.ofInt s) = c at *
  push_cast at le1
  have hcase : c = q ∨ (c = q + 1 ∧ 9994 * s < 10000 * r) := by
    by_cases hr : 10000 * r ≤ 9994 * s
    · have := le0 hr; left; omega
    · by_cases hc : c = q
      · exact .inl hc
      · right; omega
  rcases hcase with rfl | ⟨rfl, hr⟩
  · constructor <;> nlinarith
  · constructor <;> nlinarith

theorem unitCount_zero (oor : F64 → Int) {d s : Int} (h : d < 2 ^ 63) (hs : UnitSeconds s)
    (hc : unitCount oor d s = 0) : d < s := by
  by_contra hn
  have := unitCount_pos oor (d := d) (s := s) (by omega) h hs
  omega

theorem unitCount_neg (oor : F64 → Int) {d s : Int} (h0 : d ≤ 0) (h : -(2 ^ 53) < d) (hs : UnitSeconds s) :
    unitCount oor d s ≤ 0 :=
  floorDivision_neg oor (by have := hs.1; omega) (by have := hs.1; have := hs.2; omega) h0 h

/-! ## The loop -/

/-- The units and counts that the loop shows. -/
def pick (oor : F64 → Int) (adjacent : Bool) (depth : Int) : List (Bytes × Int) → Int → Int → List ((Bytes × Int) × Int)
  | [], _, _ => []
  | (name, seconds) :: rest, currentDepth, since =>
    if currentDepth < depth then
      let count := unitCount oor since seconds
      if count ≤ 0 then
        if adjacent then [] else pick oor adjacent depth rest currentDepth since
      else
        ((name, seconds), count) ::
          pick oor adjacent depth rest (currentDepth + 1) (wrap64 (since - wrap64 (seconds * count)))
    else []

/-- The text of a unit with its count. -/
def unitText (loc : Loc) (strings : GoMap Bytes Entry) (p : (Bytes × Int) × Int) : Bytes :=
  let entry := entryOf strings p.1.1
  loc.npGetf entry.context entry.singular entry.plural p.2 [.int p.2]

theorem sinceLoop_eq (env : Env) (o : SinceOptions) : ∀ (l : List (Bytes × Int)) (cd since : Int),
    sinceLoop env o l cd since =
      (pick env.oor o.requireAdjacent o.depth l cd since).map (unitText env.loc o.timeStrings) := by
  intro l
  induction l with
  | nil => intro cd since; rfl
  | cons p rest ih =>
    intro cd since
    obtain ⟨name, seconds⟩ := p
    simp only [sinceLoop, pick]
    split
    · split
      · split
        · rfl
        · exact ih _ _
      · rw [List.map_cons, ih]; rfl
    · rfl

theorem pick_length (oor : F64 → Int) (adj : Bool) (depth : Int) : ∀ (l : List (Bytes × Int)) (cd since : Int),
    cd ≤ depth → ((pick oor adj depth l cd since).length : Int) + cd ≤ depth := by
  intro l
  induction l with
  | nil => intro cd since h; simpa [pick] using h
  | cons p rest ih =>
    intro cd since h
    obtain ⟨name, seconds⟩ := p
    simp only [pick]
    split
    · split
      · split
        · simpa using h
        · exact ih _ _ h
      · have := ih (cd + 1) (wrap64 (since - wrap64 (seconds * unitCount oor since seconds))) (by omega)
        simp only [List.length_cons]
        push_cast
        omega
    · simpa using h

theorem pick_sublist (oor : F64 → Int) (adj : Bool) (depth : Int) : ∀ (l : List (Bytes × Int)) (cd since : Int),
    ((pick oor adj depth l cd since).map Prod.fst).Sublist l := by
  intro l
  induction l with
  | nil => intro cd since; simp [pick]
  | cons p rest ih =>
    intro cd since
    obtain ⟨name, seconds⟩ := p
    simp only [pick]
    split
    · split
      · split
        · simp
        · exact (ih _ _).cons _
      · rw [List.map_cons]; exact (ih _ _).cons_cons _
    · simp

theorem pick_prefix (oor : F64 → Int) (depth : Int) : ∀ (l : List (Bytes × Int)) (cd since : Int),
    ((pick oor true depth l cd since).map Prod.fst) <+: l := by
  intro l
  induction l with
  | nil => intro cd since; simp [pick]
  | cons p rest ih =>
    intro cd since
    obtain ⟨name, seconds⟩ := p
    simp only [pick, if_true]
    split
    · split
      · exact List.nil_prefix
      · rw [List.map_cons]; exact List.cons_prefix_cons.mpr ⟨rfl, ih _ _⟩
    · exact List.nil_prefix

theorem pick_pos (oor : F64 → Int) (adj : Bool) (depth : Int) : ∀ (l : List (Bytes × Int)) (cd since : Int),
    ∀ p ∈ pick oor adj depth l cd since, 0 < p.2 := by
  intro l
  induction l with
  | nil => intro cd since p hp; simp [pick] at hp
  | cons p rest ih =>
    intro cd since
    obtain ⟨name, seconds⟩ := p
    simp only [pick]
    split
    · split
      · split
        · intro p hp; simp at hp
        · exact ih _ _
      · next hc =>
        intro p hp
        rcases List.mem_cons.mp hp with rfl | hp
        · exact Int.not_le.mp hc
        · exact ih _ _ p hp
    · intro p hp; simp at hp

theorem pick_neg (oor : F64 → Int) (adj : Bool) (depth : Int) : ∀ (l : List (Bytes × Int)) (cd since : Int),
    (∀ p ∈ l, UnitSeconds p.2) → since ≤ 0 → -(2 ^ 53) < since → pick oor adj depth l cd since = [] := by
  intro l
  induction l with
  | nil => intro cd since _ _ _; rfl
  | cons p rest ih =>
    intro cd since hl h0 h1
    obtain ⟨name, seconds⟩ := p
    have hs := hl _ List.mem_cons_self
    simp only [pick]
    split
    · rw [if_pos (unitCount_neg oor h0 h1 hs)]
      split
      · rfl
      · exact ih _ _ (fun p hp => hl p (List.mem_cons_of_mem _ hp)) h0 h1
    · rfl

theorem lastSeconds_nonneg : ∀ us : List ((Bytes × Int) × Int), (∀ p ∈ us, 0 ≤ p.1.2) → 0 ≤ lastSeconds us
  | [], _ => by simp [lastSeconds]
  | [p], h => h p List.mem_cons_self
  | _ :: q :: rest, h => lastSeconds_nonneg (q :: rest) fun p hp => h p (List.mem_cons_of_mem _ hp)

/-- What is shown exceeds the time by at most six ten-thousandths of the last unit. -/
theorem pick_total (oor : F64 → Int) (adj : Bool) (depth : Int) : ∀ (l : List (Bytes × Int)) (cd since : Int),
    (∀ p ∈ l, UnitSeconds p.2) → 0 ≤ since → since < 2 ^ 53 → (∀ p ∈ l.head?, since < 2 ^ 38 * p.2 - p.2) →
    10000 * totalSeconds (pick oor adj depth l cd since) ≤ 10000 * since + 6 * lastSeconds (pick oor adj depth l cd since) := by
  intro l
  induction l with
  | nil => intro cd since _ h0 _ _; simp only [pick, totalSeconds, lastSeconds]; omega
  | cons p rest ih =>
    intro cd since hl h0 h1 hq
    obtain ⟨name, seconds⟩ := p
    have hs : UnitSeconds seconds := hl _ List.mem_cons_self
    have hrest : ∀ p ∈ rest, UnitSeconds p.2 := fun p hp => hl p (List.mem_cons_of_mem _ hp)
    have hq' := hq (name, seconds) (by simp)
    simp only at hq'
    obtain ⟨b1, b2⟩ := unitCount_bounds oor h0 h1 hs hq'
    have a1 := hs.1
    have a2 := hs.2
    have small : ∀ t : Int, t < seconds → ∀ p ∈ rest.head?, t < 2 ^ 38 * p.2 - p.2 := by
      intro t ht p hp
      have := (hrest p (List.mem_of_head? hp)).1
      omega
    simp only [pick]
    split
    · split
      · next hc =>
        split
        · simp only [totalSeconds, lastSeconds]; omega
        · refine ih _ _ hrest h0 h1 (small since ?_)
          have : (unitCount oor since seconds + 1) * seconds ≤ 1 * seconds := Int.mul_le_mul_of_nonneg_right (by omega) (by omega)
          omega
      · next hc =>
        generalize hcount : unitCount oor since seconds = c at *
        have e1 : seconds * c = c * seconds := Int.mul_comm _ _
        have hpos : 0 ≤ c * seconds := Int.mul_nonneg (by omega) (by omega)
        have hw : wrap64 (since - wrap64 (seconds * c)) = since - c * seconds := by
          rw [e1, wrap64_id (n := c * seconds) (by omega) (by omega), wrap64_id (by omega) (by omega)]
        rw [hw]
        by_cases hneg : since - c * seconds ≤ 0
        · rw [pick_neg oor adj depth rest _ _ hrest hneg (by omega)]
          simp only [totalSeconds, lastSeconds]
          omega
        · have hlt : since - c * seconds < seconds := by rw [Int.add_mul] at b1; omega
          have := ih (cd + 1) (since - c * seconds) hrest (by omega) (by omega) (small _ hlt)
          generalize hus : pick oor adj depth rest (cd + 1) (since - c * seconds) = us at *
          have hl0 : 0 ≤ lastSeconds us := by
            apply lastSeconds_nonneg
            intro p hp
            have hm : p.1 ∈ rest := (pick_sublist oor adj depth rest (cd + 1) (since - c * seconds)).subset
              (List.mem_map.mpr ⟨p, by rw [hus]; exact hp, rfl⟩)
            have := (hrest _ hm).1
            omega
          cases us with
          | nil => simp only [totalSeconds, lastSeconds] at *; omega
          | cons q us' =>
            have e2 : lastSeconds (((name, seconds), c) :: q :: us') = lastSeconds (q :: us') := rfl
            have e3 : totalSeconds (((name, seconds), c) :: q :: us') = seconds * c + totalSeconds (q :: us') := rfl
            rw [e2, e3]
            omega
    · simp only [totalSeconds, lastSeconds]; omega

/-- With room for every unit, less than the smallest unit is left. -/
theorem pick_within (oor : F64 → Int) (depth : Int) : ∀ (l : List (Bytes × Int)) (cd since : Int) (last : Bytes × Int),
    (∀ p ∈ l, UnitSeconds p.2) → -(2 ^ 53) < since → since < 2 ^ 53 → (∀ p ∈ l.head?, since < 2 ^ 38 * p.2 - p.2) →
    l.getLast? = some last → cd + l.length ≤ depth →
    since - totalSeconds (pick oor false depth l cd since) < last.2 := by
  intro l
  induction l with
  | nil => intro cd since last _ _ _ _ h; simp at h
  | cons p rest ih =>
    intro cd since last hl h0 h1 hq hlast hdep
    obtain ⟨name, seconds⟩ := p
    have hs : UnitSeconds seconds := hl _ List.mem_cons_self
    have hrest : ∀ p ∈ rest, UnitSeconds p.2 := fun p hp => hl p (List.mem_cons_of_mem _ hp)
    have hq' := hq (name, seconds) (by simp)
    simp only at hq'
    have a1 := hs.1
    have a2 := hs.2
    by_cases hneg : since ≤ 0
    · rw [pick_neg oor false depth _ _ _ hl hneg h0]
      have hm : last ∈ (name, seconds) :: rest := List.mem_of_getLast? hlast
      have := (hl _ hm).1
      simp only [totalSeconds]
      omega
    obtain ⟨b1, b2⟩ := unitCount_bounds oor (by omega) h1 hs hq'
    have small : ∀ t : Int, t < seconds → ∀ p ∈ rest.head?, t < 2 ^ 38 * p.2 - p.2 := by
      intro t ht p hp
      have := (hrest p (List.mem_of_head? hp)).1
      omega
    rw [List.length_cons] at hdep
    push_cast at hdep
    -- what is left after this unit
    have key : ∀ (cd' t : Int), cd' ≤ cd + 1 → t < seconds → -(2 ^ 53) < t →
        t - totalSeconds (pick oor false depth rest cd' t) < last.2 := by
      intro cd' t hcd ht ht'
      cases hr : rest with
      | nil =>
        rw [hr] at hlast
        simp at hlast
        subst hlast
        simp only [pick, totalSeconds]
        omega
      | cons q rest' =>
        rw [← hr]
        refine ih cd' t last hrest ht' (by omega) (small t ht) ?_ (by omega)
        rw [hr] at hlast ⊢
        rwa [List.getLast?_cons_cons] at hlast
    simp only [pick, Bool.false_eq_true, if_false]
    rw [if_pos (by omega)]
    split
    · next hc =>
      refine key cd since (by omega) ?_ h0
      have : (unitCount oor since seconds + 1) * seconds ≤ 1 * seconds := Int.mul_le_mul_of_nonneg_right (by omega) (by omega)
      omega
    · next hc =>
      generalize hcount : unitCount oor since seconds = c at *
      have e1 : seconds * c = c * seconds := Int.mul_comm _ _
      have hpos : 0 ≤ c * seconds := Int.mul_nonneg (by omega) (by omega)
      have hw : wrap64 (since - wrap64 (seconds * c)) = since - c * seconds := by
        rw [e1, wrap64_id (n := c * seconds) (by omega) (by omega), wrap64_id (by omega) (by omega)]
      rw [hw]
      rw [Int.add_mul] at b1
      have := key (cd + 1) (since - c * seconds) (by omega) (by omega) (by omega)
      simp only [totalSeconds]
      omega

/-! ## The text -/

theorem chunks_eq : timeSinceChunks = sinceUnits := by decide +kernel

theorem units_seconds : ∀ p ∈ sinceUnits, UnitSeconds p.2 := by
  unfold UnitSeconds
  decide +kernel

theorem sinceText_shape (oor : F64 → Int) (adj : Bool) (depth delta : Int) (h0 : 0 < delta) (h : delta < 2 ^ 63)
    (hd : 1 ≤ depth) :
    (delta < 60 ∧ ∀ (env : Env) (o : SinceOptions), env.oor = oor → sinceText env o delta = zeroMinutes env o) ∨
    ∃ i : Nat, i < 6 ∧ (i = 0 ∨ ∀ p ∈ sinceUnits[i - 1]?, delta < p.2) ∧
      pick oor adj depth (sinceUnits.drop i) 0 delta ≠ [] ∧
      ∀ (env : Env) (o : SinceOptions), env.oor = oor → o.requireAdjacent = adj → o.depth = depth →
        sinceText env o delta = join (env.loc.get b!", ")
          ((pick oor adj depth (sinceUnits.drop i) 0 delta).map (unitText env.loc o.timeStrings)) := by
  let f : Nat → Bool := fun i => decide (unitCount oor delta (sinceUnits.getD i (b!"", 1)).2 ≠ 0)
  obtain ⟨s1, s2, s3⟩ := sortSearch_spec f 6
  have htext : ∀ (env : Env) (o : SinceOptions), env.oor = oor → sinceText env o delta =
      if sortSearch 6 f = 6 then zeroMinutes env o
      else join (env.loc.get b!", ") (sinceLoop env o (sinceUnits.drop (sortSearch 6 f)) 0 delta) := by
    intro env o he
    unfold sinceText
    rw [if_neg (by omega), chunks_eq, he]
    rfl
  generalize sortSearch 6 f = i at *
  have hlen : sinceUnits.length = 6 := by decide
  have hget : ∀ k, (hk : k < 6) → ∃ p, sinceUnits[k]? = some p ∧ sinceUnits.getD k (b!"", 1) = p ∧ p ∈ sinceUnits := by
    intro k hk
    have hk' : k < sinceUnits.length := by omega
    exact ⟨sinceUnits[k], List.getElem?_eq_getElem hk', by rw [List.getD_eq_getElem?_getD, List.getElem?_eq_getElem hk']; rfl,
      List.getElem_mem hk'⟩
  by_cases hi : i = 6
  · left
    subst hi
    rcases s2 with s2 | s2
    · omega
    · refine ⟨?_, fun env o he => by rw [htext env o he, if_pos rfl]⟩
      have hz : unitCount oor delta 60 = 0 := by simpa [f, sinceUnits] using s2
      exact unitCount_zero oor h (by unfold UnitSeconds; omega) hz
  · right
    refine ⟨i, by omega, ?_, ?_, ?_⟩
    · rcases s2 with s2 | s2
      · exact .inl s2
      · by_cases hi0 : i = 0
        · exact .inl hi0
        · right
          intro p hp
          obtain ⟨q, q1, q2, q3⟩ := hget (i - 1) (by omega)
          rw [q1] at hp
          simp only [Option.mem_def, Option.some.injEq] at hp
          subst hp
          have hz : unitCount oor delta q.2 = 0 := by
            simp only [f, q2] at s2
            simpa using s2
          exact unitCount_zero oor h (units_seconds q q3) hz
    · rcases s3 with s3 | s3
      · omega
      · obtain ⟨q, q1, q2, q3⟩ := hget i (by omega)
        have hz : unitCount oor delta q.2 ≠ 0 := by
          simp only [f, q2] at s3
          simpa using s3
        have hnn := unitCount_nonneg oor h0.le h (units_seconds q q3)
        have hdrop : sinceUnits.drop i = q :: sinceUnits.drop (i + 1) := by
          have hk' : i < sinceUnits.length := by omega
          rw [List.drop_eq_getElem_cons hk']
          rw [List.getElem?_eq_getElem hk'] at q1
          injection q1 with q1
          rw [q1]
        obtain ⟨name, seconds⟩ := q
        rw [hdrop]
        simp only [pick]
        simp only at hz hnn
        rw [if_pos (by omega), if_neg (by omega)]
        exact List.cons_ne_nil _ _
    · intro env o he ha hdp
      rw [htext env o he, if_neg hi, sinceLoop_eq, he, ha, hdp]

/-- What can be said about the units that are shown for a number of seconds. -/
theorem shown_bounds (oor : F64 → Int) (adj : Bool) (depth delta : Int) (h0 : 0 < delta) (h : delta < 2 ^ 53)
    (i : Nat) (hi : i < 6) (hprev : i = 0 ∨ ∀ p ∈ sinceUnits[i - 1]?, delta < p.2) :
    10000 * totalSeconds (pick oor adj depth (sinceUnits.drop i) 0 delta) ≤
        10000 * delta + 6 * lastSeconds (pick oor adj depth (sinceUnits.drop i) 0 delta) ∧
      (adj = false → 6 ≤ depth → delta - totalSeconds (pick oor adj depth (sinceUnits.drop i) 0 delta) < 60) := by
  have hlen : sinceUnits.length = 6 := by decide
  have hunits : ∀ p ∈ sinceUnits.drop i, UnitSeconds p.2 := fun p hp => units_seconds p (List.mem_of_mem_drop hp)
  have hhead : ∀ p ∈ (sinceUnits.drop i).head?, delta < 2 ^ 38 * p.2 - p.2 := by
    intro p hp
    rcases hprev with rfl | hprev
    · have : p = (b!"year", 31536000) := by simpa [sinceUnits, eq_comm] using hp
      subst this
      simp only
      omega
    · have hk : i - 1 < sinceUnits.length := by omega
      have h1 := hprev _ (List.getElem?_eq_getElem hk)
      have h2 := (units_seconds _ (List.getElem_mem hk)).2
      have h3 := (hunits p (List.mem_of_head? hp)).1
      omega
  refine ⟨pick_total oor adj depth _ 0 delta hunits h0.le h hhead, ?_⟩
  intro ha hdep
  subst ha
  have hlast : (sinceUnits.drop i).getLast? = some (b!"minute", 60) := by
    have : ∀ i : Fin 6, (sinceUnits.drop i.val).getLast? = some (b!"minute", 60) := by decide +kernel
    exact this ⟨i, hi⟩
  have := pick_within oor depth _ 0 delta _ hunits (by omega) h hhead hlast (by rw [List.length_drop]; omega)
  simpa using this

end Verif.Proofs.Humanize
