import Verif.Model.Cldr.Evaluation
import Verif.Spec.Cldr
/-! What the comparisons of the model and of the specification say about a number that is an integer
or clearly not an integer. -/
namespace Verif.Proofs.Cldr
open Verif.Go Verif.Model.Cldr Verif.Spec.Cldr Verif.Cldr

/-- The float is the integer `k` (`some k`), or farther from every integer than the tolerance of
`FloatEqual` (`none`). -/
def NV (x : F64) : Option Nat → Prop
  | some k => ∃ m e, x = .fin m e ∧ fUpper m e = k * fLower e
  | none => ∃ m e, x = .fin m e ∧ 0 ≤ m ∧
      ∀ j : Int, 4722366482869645 * fLower e < (j * fLower e - fUpper m e).natAbs * 2 ^ 72

/-- The fraction is the integer `k` (`some k`), or not an integer (`none`). -/
def QV (q : Q) : Option Nat → Prop
  | some k => 0 < q.den ∧ q.Is k
  | none => 0 < q.den ∧ ∀ k, ¬ q.Is k

theorem fLower_pos (e : Int) : 0 < fLower e := Nat.pow_pos (by omega)

theorem round53_lt {n : Nat} (h : n < 2 ^ 53) : round53 n = n := by
  unfold round53
  rw [if_pos h]

theorem fInt_small {k : Int} (h0 : 0 ≤ k) (h : k < 2 ^ 53) : fInt k = k := by
  obtain ⟨n, rfl⟩ := Int.eq_ofNat_of_zero_le h0
  unfold fInt
  have : (n : Int).natAbs = n := by simp
  rw [this, round53_lt (by omega)]
  cases n with
  | zero => simp
  | succ n => rw [Int.sign_natCast_of_ne_zero (by omega)]; omega

theorem NV.eqInt {x : F64} {nv : Option Nat} (h : NV x nv) {c : Nat} (hc : c < 2 ^ 53) :
    x.eqInt c = true ↔ nv = some c := by
  cases nv with
  | some k =>
    obtain ⟨m, e, rfl, hu⟩ := h
    have hp := fLower_pos e
    simp only [F64.eqInt, beq_iff_eq, hu, fInt_small (Int.natCast_nonneg c) (by omega),
      Option.some.injEq]
    constructor
    · intro h'
      have := Int.eq_of_mul_eq_mul_right (by omega) h'
      omega
    · rintro rfl; rfl
  | none =>
    obtain ⟨m, e, rfl, _, hf⟩ := h
    simp only [F64.eqInt, beq_iff_eq, fInt_small (Int.natCast_nonneg c) (by omega), reduceCtorEq,
      iff_false]
    intro h'
    have := hf c
    rw [h'] at this
    simp at this

theorem NV.floatEqual {x : F64} {nv : Option Nat} (h : NV x nv) {c : Nat} (hc : c < 2 ^ 53) :
    floatEqual c x = true ↔ nv = some c := by
  cases nv with
  | some k =>
    obtain ⟨m, e, rfl, hu⟩ := h
    have hp := fLower_pos e
    simp only [Model.Cldr.floatEqual, decide_eq_true_eq, hu, fInt_small (Int.natCast_nonneg c) (by omega),
      Option.some.injEq]
    rw [← Int.sub_mul, Int.natAbs_mul, Int.natAbs_natCast, Nat.mul_right_comm]
    constructor
    · intro h'
      have h2 : ((c : Int) - k).natAbs * 2 ^ 72 ≤ 4722366482869645 := Nat.le_of_mul_le_mul_right h' hp
      omega
    · rintro rfl; simp
  | none =>
    obtain ⟨m, e, rfl, _, hf⟩ := h
    have := hf c
    simp only [Model.Cldr.floatEqual, decide_eq_true_eq, fInt_small (Int.natCast_nonneg c) (by omega),
      reduceCtorEq, iff_false]
    omega

theorem NV.geInt {x : F64} {k : Nat} (h : NV x (some k)) {c : Nat} (hc : c < 2 ^ 53) :
    x.geInt c = true ↔ c ≤ k := by
  obtain ⟨m, e, rfl, hu⟩ := h
  have hp := fLower_pos e
  simp only [F64.geInt, decide_eq_true_eq, hu, fInt_small (Int.natCast_nonneg c) (by omega)]
  constructor
  · intro h'
    have := Int.le_of_mul_le_mul_right h' (by omega)
    omega
  · intro h'
    exact Int.mul_le_mul_of_nonneg_right (by omega) (by omega)

theorem NV.leInt {x : F64} {k : Nat} (h : NV x (some k)) {c : Nat} (hc : c < 2 ^ 53) :
    x.leInt c = true ↔ k ≤ c := by
  obtain ⟨m, e, rfl, hu⟩ := h
  have hp := fLower_pos e
  simp only [F64.leInt, decide_eq_true_eq, hu, fInt_small (Int.natCast_nonneg c) (by omega)]
  constructor
  · intro h'
    have := Int.le_of_mul_le_mul_right h' (by omega)
    omega
  · intro h'
    exact Int.mul_le_mul_of_nonneg_right (by omega) (by omega)

/-- `lo ≤ number ≤ hi`. -/
def within (nv : Option Nat) (lo hi : Nat) : Prop := ∃ k, nv = some k ∧ lo ≤ k ∧ k ≤ hi

theorem NV.inRange1 {x : F64} {nv : Option Nat} (h : NV x nv) {lo hi : Nat} (hh : hi < 2 ^ 53) :
    (x.geInt lo && x.leInt hi &&
      (List.range ((hi : Int) - lo + 1).toNat).any fun i => Model.Cldr.floatEqual ((lo : Int) + i) x) = true ↔
      within nv lo hi := by
  have key : ∀ i : Nat, (lo : Int) + i = ((lo + i : Nat) : Int) := by intro i; omega
  simp only [Bool.and_eq_true, List.any_eq_true, List.mem_range]
  constructor
  · rintro ⟨_, i, hi', hf⟩
    rw [key, h.floatEqual (by omega)] at hf
    exact ⟨_, hf, by omega, by omega⟩
  · rintro ⟨k, rfl, h1, h2⟩
    refine ⟨⟨(h.geInt (by omega)).mpr h1, (h.leInt hh).mpr h2⟩, k - lo, by omega, ?_⟩
    rw [key, h.floatEqual (by omega)]
    simp; omega

theorem NV.mod {x : F64} {nv : Option Nat} (h : NV x nv) {d : Nat} (h0 : 0 < d) (hd : d < 2 ^ 53) :
    NV (x.mod d) (nv.map (· % d)) := by
  have hfd : fInt (d : Int) = d := fInt_small (Int.natCast_nonneg d) (by omega)
  cases nv with
  | some k =>
    obtain ⟨m, e, rfl, hu⟩ := h
    refine ⟨(fUpper m e).tmod ((d : Int) * fLower e), -((-e).toNat : Int), ?_, ?_⟩
    · simp only [F64.mod, hfd]
      rw [if_neg (by omega)]
    · simp only [fUpper, fLower] at hu ⊢
      have : (-((-e).toNat : Int)).toNat = 0 := by omega
      have h2 : (- -((-e).toNat : Int)).toNat = (-e).toNat := by omega
      rw [this, h2, hu, Int.pow_zero, Int.mul_one]
      generalize 2 ^ (-e).toNat = L
      rw [← Int.natCast_mul, ← Int.natCast_mul, ← Int.natCast_mul, ← Int.ofNat_tmod, Nat.mul_mod_mul_right]
  | none =>
    obtain ⟨m, e, rfl, hm, hf⟩ := h
    have hp := fLower_pos e
    refine ⟨(fUpper m e).tmod ((d : Int) * fLower e), -((-e).toNat : Int), ?_, ?_, ?_⟩
    · simp only [F64.mod, hfd]
      rw [if_neg (by omega)]
    · apply Int.tmod_nonneg
      exact Int.mul_nonneg hm (Int.pow_nonneg (by omega))
    · intro j
      have hl : fLower (-((-e).toNat : Int)) = fLower e := by
        unfold fLower; congr 1; omega
      have hup : ∀ r : Int, fUpper r (-((-e).toNat : Int)) = r := by
        intro r; unfold fUpper
        have : (-((-e).toNat : Int)).toNat = 0 := by omega
        rw [this]; simp
      rw [hl, hup]
      have hdecomp := Int.mul_tdiv_add_tmod (fUpper m e) ((d : Int) * fLower e)
      have := hf (j + d * (fUpper m e).tdiv ((d : Int) * fLower e))
      have e1 : (j + d * (fUpper m e).tdiv ((d : Int) * fLower e)) * fLower e - fUpper m e =
          j * fLower e - (fUpper m e).tmod ((d : Int) * fLower e) := by
        rw [Int.add_mul]
        have : (d : Int) * (fUpper m e).tdiv ((d : Int) * fLower e) * fLower e =
          (d : Int) * fLower e * (fUpper m e).tdiv ((d : Int) * fLower e) := by
          rw [Int.mul_right_comm]
        rw [this]
        omega
      rw [e1] at this
      exact this

theorem QV.is {q : Q} {nv : Option Nat} (h : QV q nv) (c : Nat) : q.Is c ↔ nv = some c := by
  cases nv with
  | some k =>
    obtain ⟨hp, hk⟩ := h
    unfold Q.Is at *
    constructor
    · intro h'
      rw [hk] at h'
      exact congrArg some (Nat.eq_of_mul_eq_mul_right hp h')
    · intro h'; cases h'; exact hk
  | none => simp [h.2 c]

theorem QV.in_some {q : Q} {nv : Option Nat} (h : QV q nv) (lo hi : Nat) :
    q.In (lo, some hi) ↔ within nv lo hi := by
  unfold Q.In within
  constructor
  · rintro ⟨k, a, b, c⟩
    exact ⟨k, (h.is k).mp c, a, b⟩
  · rintro ⟨k, a, b, c⟩
    exact ⟨k, b, c, (h.is k).mpr a⟩

theorem QV.in_none {q : Q} {nv : Option Nat} (h : QV q nv) (c : Nat) :
    q.In (c, none) ↔ nv = some c := by
  unfold Q.In
  constructor
  · rintro ⟨k, a, b, h'⟩
    have : k = c := by simp at a b; omega
    subst this
    exact (h.is k).mp h'
  · intro h'
    exact ⟨c, Nat.le_refl _, Nat.le_refl _, (h.is c).mpr h'⟩

theorem QV.mod {q : Q} {nv : Option Nat} (h : QV q nv) (d : Nat) :
    QV (q.mod d) (nv.map (· % d)) := by
  cases nv with
  | some k =>
    refine ⟨h.1, ?_⟩
    have := h.2
    unfold Q.Is Q.mod at *
    simp only []
    rw [this, Nat.mul_mod_mul_right]
  | none =>
    refine ⟨h.1, ?_⟩
    intro j hj
    unfold Q.Is Q.mod at hj
    simp only [] at hj
    apply h.2 (j + d * (q.num / (d * q.den)))
    unfold Q.Is
    have := Nat.div_add_mod q.num (d * q.den)
    rw [hj] at this
    rw [Nat.add_mul]
    have e : d * (q.num / (d * q.den)) * q.den = d * q.den * (q.num / (d * q.den)) := by
      rw [Nat.mul_right_comm]
    omega

theorem qv_nat (k : Nat) : QV ⟨k, 1⟩ (some k) := ⟨Nat.one_pos, by simp [Q.Is]⟩

/-- The operands of the model are those of the specification: the integers are equal, the absolute
value is the same integer, or both are not integers and the float is farther from every integer than
the tolerance. -/
structure Match (ops : Operands) (o : Ops) (nv : Option Nat) : Prop where
  n : NV ops.n nv
  q : QV o.n nv
  i : ops.i = o.i
  v : ops.v = o.v
  w : ops.w = o.w
  f : ops.f = o.f
  t : ops.t = o.t
  c : ops.c = o.e

theorem sel_cons {o : Ops} {P : Prop} [Decidable P] {c d : Category} {cond : Cond}
    {rest : List (Category × Cond)} (h : P ↔ Cond.Holds cond o) (hs : Selects o rest d) :
    Selects o ((c, cond) :: rest) (if P then c else d) := by
  split
  · rename_i hp; exact .hit (h.mp hp)
  · rename_i hp; exact .skip (fun hc => hp (h.mpr hc)) hs

end Verif.Proofs.Cldr
