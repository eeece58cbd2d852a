import Verif.Proofs.GoText
import Verif.Proofs.Cldr.Builtin
import Verif.Proofs.Cldr.Parse
import Verif.Model.Cldr.Generator
/-! The Go conditions that the generator writes mean what the rules mean. -/
namespace Verif.Proofs.Cldr.Generator
open Verif.Go Verif.Spec.GoCode Verif.Model.Cldr.Generator
open Verif.Proofs.GoCode (gram_le)
open Verif.Proofs.GoText
open Verif.Model.Cldr (Operands Item ExprNode Node isFloatInRange isFloatOneOf)
open Verif.Spec.Cldr (Opd Rel Cond Ops Q dec itemWF)
open Verif.Proofs.Cldr (NV QV within Match astItem astExpr astRel astConj astCond)

theorem T_dec (n : Nat) : T (dec n) = [.int n] := by
  have hv : decVal (dec n) = n := dec_val n
  rw [T_digits (dec_ne n) (dec_digit n), hv]
  rcases Nat.eq_zero_or_pos n with rfl | hp
  · right; decide
  · left
    obtain ⟨c', r, e, hne⟩ := dec_head hp
    rw [e]
    intro h
    cases h
    exact hne rfl

theorem formatInt_nat (n : Nat) : formatInt (n : Int) = dec n := by
  have : ¬ ((n : Int) < 0) := by omega
  simp [formatInt, this, dec]

variable {ops : Operands}

/-! ## Operands -/

/-- The text is an operand of a comparison; its value is the number `nv`. -/
def Num (ops : Operands) (isFloat : Bool) (s : List Char) (nv : Option Nat) : Prop :=
  .nl ∉ T s ∧ ∃ e, Gram 5 (T s) e ∧
    (if isFloat then tys (goEnv ops) e = some [.float] ∧ ∃ x, vals (goEnv ops) e = some [.float x] ∧ NV x nv
      else tys (goEnv ops) e = some [.int] ∧ ∃ k : Nat, vals (goEnv ops) e = some [.int k] ∧ nv = some k)

theorem goEnv_fnOf1 (f : List Char) : (goEnv ops).fnOf (.name f) = goFn [f] := rfl
theorem goEnv_fnOf2 (p f : List Char) : (goEnv ops).fnOf (.sel p f) = goFn [p, f] := rfl

theorem num_opd {o : Ops} {nv : Option Nat} (hm : Match ops o nv) (p : Opd) :
    ∃ s nv', goOperandName p.text = some s ∧ QV (o.get p) nv' ∧ Num ops (decide (p.text = ['n'])) s nv' ∧
      ∃ x y, T s = [.name x, .dot, .name y] := by
  cases p with
  | n =>
    refine ⟨"ops.N".toList, nv, rfl, hm.q, ⟨by decide, .sel "ops".toList "N".toList, ?_, ?_⟩, "ops".toList, "N".toList, by decide⟩
    · exact gram_le (Gram.sel _ _) (by omega)
    · exact ⟨rfl, ops.n, rfl, hm.n⟩
  | i =>
    refine ⟨"ops.I".toList, some o.i, rfl, qv_nat _, ⟨by decide, .sel "ops".toList "I".toList, ?_, ?_⟩, "ops".toList, "I".toList, by decide⟩
    · exact gram_le (Gram.sel _ _) (by omega)
    · exact ⟨rfl, o.i, by rw [← hm.i]; rfl, rfl⟩
  | v =>
    refine ⟨"ops.V".toList, some o.v, rfl, qv_nat _, ⟨by decide, .sel "ops".toList "V".toList, ?_, ?_⟩, "ops".toList, "V".toList, by decide⟩
    · exact gram_le (Gram.sel _ _) (by omega)
    · exact ⟨rfl, o.v, by rw [← hm.v]; rfl, rfl⟩
  | w =>
    refine ⟨"ops.W".toList, some o.w, rfl, qv_nat _, ⟨by decide, .sel "ops".toList "W".toList, ?_, ?_⟩, "ops".toList, "W".toList, by decide⟩
    · exact gram_le (Gram.sel _ _) (by omega)
    · exact ⟨rfl, o.w, by rw [← hm.w]; rfl, rfl⟩
  | f =>
    refine ⟨"ops.F".toList, some o.f, rfl, qv_nat _, ⟨by decide, .sel "ops".toList "F".toList, ?_, ?_⟩, "ops".toList, "F".toList, by decide⟩
    · exact gram_le (Gram.sel _ _) (by omega)
    · exact ⟨rfl, o.f, by rw [← hm.f]; rfl, rfl⟩
  | t =>
    refine ⟨"ops.T".toList, some o.t, rfl, qv_nat _, ⟨by decide, .sel "ops".toList "T".toList, ?_, ?_⟩, "ops".toList, "T".toList, by decide⟩
    · exact gram_le (Gram.sel _ _) (by omega)
    · exact ⟨rfl, o.t, by rw [← hm.t]; rfl, rfl⟩
  | e =>
    refine ⟨"ops.C".toList, some o.e, rfl, qv_nat _, ⟨by decide, .sel "ops".toList "C".toList, ?_, ?_⟩, "ops".toList, "C".toList, by decide⟩
    · exact gram_le (Gram.sel _ _) (by omega)
    · exact ⟨rfl, o.e, by rw [← hm.c]; rfl, rfl⟩

/-- Arguments after a first one. -/
def args (e : Expr) : List Nat → Expr
  | [] => e
  | n :: ns => args (.bin .comma e (.int n)) ns

def argToks : List Nat → List Tok
  | [] => []
  | n :: ns => .op .comma :: .int n :: argToks ns

theorem gram_args : ∀ (ns : List Nat) {ts : List Tok} {e : Expr}, Gram 0 ts e → Gram 0 (ts ++ argToks ns) (args e ns)
  | [], ts, e, h => by simpa [argToks, args] using h
  | n :: ns, ts, e, h => by
    have h1 : Gram 0 (ts ++ [.op .comma, .int n]) (.bin .comma e (.int n)) :=
      Gram.bin .comma h (gram_le (Gram.int n) (by decide))
    have := gram_args ns h1
    simpa [argToks, args] using this

theorem vals_args {Γ : Env} : ∀ (ns : List Nat) {e : Expr} {vs : List Val}, vals Γ e = some vs →
    vals Γ (args e ns) = some (vs ++ ns.map .const)
  | [], e, vs, h => by simp [args, h]
  | n :: ns, e, vs, h => by
    have : vals Γ (.bin .comma e (.int n)) = some (vs ++ [.const n]) := by simp [vals, h, one]
    simp [args, vals_args ns this]

theorem tys_args {Γ : Env} : ∀ (ns : List Nat) {e : Expr} {vs : List Ty}, tys Γ e = some vs →
    tys Γ (args e ns) = some (vs ++ ns.map .const)
  | [], e, vs, h => by simp [args, h]
  | n :: ns, e, vs, h => by
    have : tys Γ (.bin .comma e (.int n)) = some (vs ++ [.const n]) := by simp [tys, h, one]
    simp [args, tys_args ns this]

theorem argToks_nl (ns : List Nat) : .nl ∉ argToks ns := by
  induction ns with
  | nil => simp [argToks]
  | cons n ns ih => simp [argToks, ih]

theorem T_join : ∀ (n : Nat) (ns : List Nat), T (joinComma ((n :: ns).map dec)) = .int n :: argToks ns
  | n, [] => by simp [joinComma, T_dec, argToks]
  | n, m :: ns => by
    have e : joinComma ((n :: m :: ns).map dec) = dec n ++ ",".toList ++ joinComma ((m :: ns).map dec) := by
      simp [joinComma]
    rw [e, T_mid _ _ _ ⟨',', by decide, by decide⟩ ⟨',', by decide, by decide⟩, T_dec, T_join m ns]
    have : T ",".toList = [.op .comma] := by decide
    rw [this]; simp [argToks]

theorem mapM_toInt_const (ns : List Nat) : (ns.map Val.const).mapM Val.toInt = some (ns.map (fun n : Nat => (n : Int))) := by
  induction ns with
  | nil => rfl
  | cons n ns ih => simp [List.mapM_cons, Val.toInt, ih]

theorem num_expr {o : Ops} {nv : Option Nat} (hm : Match ops o nv) {r : Rel} (hmod : ∀ m, r.mod = some m → 0 < m ∧ m < 2 ^ 53) :
    ∃ s nv', compileExpr (astExpr r) = some s ∧ QV (r.value o) nv' ∧ Num ops (isFloatOperand (astExpr r)) s nv' := by
  obtain ⟨s, nv', hs, hq, ⟨hn, e, hg, hrest⟩, x, y, hT⟩ := num_opd hm r.opd
  unfold astExpr Rel.value
  cases hr : r.mod with
  | none => exact ⟨s, nv', hs, hq, hn, e, hg, hrest⟩
  | some m =>
    obtain ⟨hm0, hm53⟩ := hmod m hr
    by_cases hf : r.opd.text = ['n']
    · rw [if_pos (by simpa using hf)] at hrest
      obtain ⟨ht, z, hv, hz⟩ := hrest
      refine ⟨"math.Mod(".toList ++ s ++ ", ".toList ++ dec m ++ ")".toList, nv'.map (· % m), ?_, hq.mod m, ?_⟩
      · rw [hf] at hs; simp [compileExpr, hs, hf, formatInt_nat]
      · have hTT : T ("math.Mod(".toList ++ s ++ ", ".toList ++ dec m ++ ")".toList) =
            [.name "math".toList, .dot, .name "Mod".toList] ++ .lp :: (T s ++ argToks [m]) ++ [.rp] := by
          rw [T_suf _ _ ⟨')', by decide, by decide⟩, T_mid _ _ _ ⟨',', by decide, by decide⟩ ⟨' ', by decide, by decide⟩,
            T_pre _ _ ⟨'(', by decide, by decide⟩, T_dec]
          have h1 : T "math.Mod(".toList = [.name "math".toList, .dot, .name "Mod".toList, .lp] := by decide
          have h2 : T ", ".toList = [.op .comma] := by decide
          have h3 : T ")".toList = [.rp] := by decide
          rw [h1, h2, h3]
          simp [argToks]
        refine ⟨by rw [hTT]; simp [hn, argToks], .call (.sel "math".toList "Mod".toList) (args e [m]), ?_, ?_⟩
        · rw [hTT]
          exact gram_le (Gram.call (Gram.sel _ _) (gram_args [m] (gram_le hg (by omega)))) (by omega)
        · rw [if_pos (by simp [isFloatOperand, hf])]
          have e1 := tys_args (Γ := goEnv ops) [m] ht
          have e2 := vals_args (Γ := goEnv ops) [m] hv
          have hfn : goFn ["math".toList, "Mod".toList] = some fnMod := rfl
          refine ⟨?_, z.mod m, ?_, hz.mod hm0 hm53⟩
          · simp only [tys, goEnv_fnOf2, hfn, e1]
            simp [fnMod, fitsAll, Ty.fits]
          · simp only [vals, goEnv_fnOf2, hfn, e2]
            simp [fnMod, hm53]
    · rw [if_neg (by simpa using hf)] at hrest
      obtain ⟨ht, k, hv, hk⟩ := hrest
      refine ⟨s ++ " % ".toList ++ dec m, nv'.map (· % m), ?_, hq.mod m, ?_⟩
      · simp [compileExpr, hs, hf, formatInt_nat]
      · have hTT : T (s ++ " % ".toList ++ dec m) = T s ++ .op .rem :: [.int m] := by
          rw [T_mid _ _ _ ⟨' ', by decide, by decide⟩ ⟨' ', by decide, by decide⟩, T_dec]
          have h1 : T " % ".toList = [.op .rem] := by decide
          rw [h1]; simp
        refine ⟨by rw [hTT]; simp [hn], .bin .rem e (.int m), ?_, ?_⟩
        · rw [hTT]
          exact Gram.bin .rem hg (gram_le (Gram.int m) (by decide))
        · rw [if_neg (by simp [isFloatOperand, hf])]
          have hm1 : m ≠ 0 := by omega
          have hm2 : ¬ (2 ^ 63 ≤ m) := by omega
          refine ⟨by simp [tys, ht, one, binTy, hm1]; omega, k % m, ?_, by simp [hk]⟩
          simp [vals, hv, one, binVal, Val.toInt, hm1]
          rfl

/-! ## Comparisons -/

theorem Num.cmp {s : List Char} {k : Nat} (h : Num ops false s (some k)) (o : Op) (sep : List Char)
    (hr : ∃ c, sep.head? = some c ∧ softR c = true) (hl : ∃ c, sep.getLast? = some c ∧ softL c = true)
    (hT : T sep = [.op o]) (ho : o = .eq ∨ o = .ne ∨ o = .le ∨ o = .ge) {n : Nat} (hn : n < 2 ^ 53) :
    Means (goEnv ops) 3 (s ++ sep ++ dec n) (cmpInt o k n = true) := by
  obtain ⟨nl, e, hg, hrest⟩ := h
  rw [if_neg (by decide)] at hrest
  obtain ⟨ht, k', hv, hk⟩ := hrest
  cases hk
  have hTT : T (s ++ sep ++ dec n) = T s ++ .op o :: [.int n] := by
    rw [T_mid _ _ _ hr hl, T_dec, hT]; simp
  have h63 : n < 2 ^ 63 := by omega
  have hp : o.prec = 3 := by rcases ho with rfl | rfl | rfl | rfl <;> rfl
  have hG : Gram o.prec (T s ++ .op o :: [.int n]) (.bin o e (.int n)) :=
    Gram.bin o (gram_le hg (by omega)) (gram_le (Gram.int n) (by omega))
  rw [hp] at hG
  refine ⟨by rw [hTT]; simp [nl], .bin o e (.int n), by rw [hTT]; exact hG, ?_, cmpInt o k n, ?_, Iff.rfl⟩
  · have h63' : n < 9223372036854775808 := h63
    rcases ho with rfl | rfl | rfl | rfl <;> simp [tys, ht, one, binTy, Ty.fits, h63']
  · rcases ho with rfl | rfl | rfl | rfl <;> simp [vals, hv, one, binVal, Val.toInt]

theorem Num.eq {f : Bool} {s : List Char} {nv : Option Nat} (h : Num ops f s nv) {n : Nat} (hn : n < 2 ^ 53) :
    Means (goEnv ops) 3 (s ++ " == ".toList ++ dec n) (nv = some n) := by
  cases f with
  | false =>
    obtain ⟨k, rfl⟩ : ∃ k, nv = some k := by
      obtain ⟨_, e, _, hr⟩ := h
      obtain ⟨_, k, _, hk⟩ := hr
      exact ⟨k, hk⟩
    exact (h.cmp .eq " == ".toList ⟨' ', by decide, by decide⟩ ⟨' ', by decide, by decide⟩ (by decide)
      (Or.inl rfl) hn).iff (by simp [cmpInt]; omega)
  | true =>
    obtain ⟨nl, e, hg, ht, x, hv, hx⟩ := h
    have hTT : T (s ++ " == ".toList ++ dec n) = T s ++ .op .eq :: [.int n] := by
      rw [T_mid _ _ _ ⟨' ', by decide, by decide⟩ ⟨' ', by decide, by decide⟩, T_dec]
      have : T " == ".toList = [.op .eq] := by decide
      rw [this]; simp
    refine ⟨by rw [hTT]; simp [nl], .bin .eq e (.int n), ?_, ?_, x.eqInt n, ?_, hx.eqInt hn⟩
    · rw [hTT]; exact Gram.bin .eq (gram_le hg (by decide)) (gram_le (Gram.int n) (by decide))
    · simp [tys, ht, one, binTy]
    · simp [vals, hv, one, binVal]

theorem Num.ne {f : Bool} {s : List Char} {nv : Option Nat} (h : Num ops f s nv) {n : Nat} (hn : n < 2 ^ 53) :
    Means (goEnv ops) 3 (s ++ " != ".toList ++ dec n) (¬ nv = some n) := by
  cases f with
  | false =>
    obtain ⟨k, rfl⟩ : ∃ k, nv = some k := by
      obtain ⟨_, e, _, hr⟩ := h
      obtain ⟨_, k, _, hk⟩ := hr
      exact ⟨k, hk⟩
    exact (h.cmp .ne " != ".toList ⟨' ', by decide, by decide⟩ ⟨' ', by decide, by decide⟩ (by decide)
      (Or.inr (Or.inl rfl)) hn).iff (by simp [cmpInt]; omega)
  | true =>
    obtain ⟨nl, e, hg, ht, x, hv, hx⟩ := h
    have hTT : T (s ++ " != ".toList ++ dec n) = T s ++ .op .ne :: [.int n] := by
      rw [T_mid _ _ _ ⟨' ', by decide, by decide⟩ ⟨' ', by decide, by decide⟩, T_dec]
      have : T " != ".toList = [.op .ne] := by decide
      rw [this]; simp
    refine ⟨by rw [hTT]; simp [nl], .bin .ne e (.int n), ?_, ?_, !x.eqInt n, ?_, ?_⟩
    · rw [hTT]; exact Gram.bin .ne (gram_le hg (by decide)) (gram_le (Gram.int n) (by decide))
    · simp [tys, ht, one, binTy]
    · simp [vals, hv, one, binVal]
    · rw [← hx.eqInt hn]; simp

theorem Num.range {s : List Char} {nv : Option Nat} (h : Num ops false s nv) {lo hi : Nat} (hl : lo < 2 ^ 53)
    (hh : hi < 2 ^ 53) :
    Means (goEnv ops) 7 ("(".toList ++ s ++ " >= ".toList ++ dec lo ++ " && ".toList ++ s ++ " <= ".toList ++ dec hi ++ ")".toList)
      (within nv lo hi) := by
  obtain ⟨k, rfl⟩ : ∃ k, nv = some k := by
    obtain ⟨_, e, _, hr⟩ := h
    obtain ⟨_, k, _, hk⟩ := hr
    exact ⟨k, hk⟩
  have h1 := (h.cmp .ge " >= ".toList ⟨' ', by decide, by decide⟩ ⟨' ', by decide, by decide⟩ (by decide)
    (by simp) hl)
  have h2 := (h.cmp .le " <= ".toList ⟨' ', by decide, by decide⟩ ⟨' ', by decide, by decide⟩ (by decide)
    (by simp) hh)
  have h3 := (((h1.le (l := 2) (by omega)).and h2).le (l := 1) (by omega)).paren
  have h4 := h3.iff (Q := within (some k) lo hi) (by rw [within_some]; simp [cmpInt])
  simpa only [List.append_assoc] using h4

/-! ## Calls -/

theorem T_call (f pre s : List Char) (hp : ∃ c, pre.getLast? = some c ∧ softL c = true) (hf : T pre = [.name f, .lp])
    (n : Nat) (ns : List Nat) :
    T (pre ++ s ++ ", ".toList ++ joinComma ((n :: ns).map dec) ++ ")".toList) =
      [.name f] ++ .lp :: (T s ++ argToks (n :: ns)) ++ [.rp] := by
  rw [T_suf _ _ ⟨')', by decide, by decide⟩, T_mid _ _ _ ⟨',', by decide, by decide⟩ ⟨' ', by decide, by decide⟩,
    T_pre _ _ hp, T_join, hf]
  have h2 : T ", ".toList = [.op .comma] := by decide
  have h3 : T ")".toList = [.rp] := by decide
  rw [h2, h3]
  simp [argToks]

/-- A call of one of the two float functions. -/
theorem Num.call {s : List Char} {nv : Option Nat} (h : Num ops true s nv) (f pre : List Char)
    (hp : ∃ c, pre.getLast? = some c ∧ softL c = true) (hf : T pre = [.name f, .lp]) {fn : Fn}
    (hfn : goFn [f] = some fn) (h1 : fn.params = [.float]) (h2 : fn.more = some .int) (h3 : fn.result = .bool)
    {ns : List Nat} (hns : ns ≠ []) (hb : ∀ n ∈ ns, n < 2 ^ 53) {P : Prop}
    (hrun : ∀ x, NV x nv → ∃ b, fn.run (.float x :: ns.map .const) = some (.bool b) ∧ (b = true ↔ P)) :
    Means (goEnv ops) 7 (pre ++ s ++ ", ".toList ++ joinComma (ns.map dec) ++ ")".toList) P := by
  obtain ⟨nl, e, hg, ht, x, hv, hx⟩ := h
  cases ns with
  | nil => exact absurd rfl hns
  | cons n ns =>
    have hTT := T_call f pre s hp hf n ns
    obtain ⟨b, hbr, hbi⟩ := hrun x hx
    have e1 := tys_args (Γ := goEnv ops) (n :: ns) ht
    have e2 := vals_args (Γ := goEnv ops) (n :: ns) hv
    refine ⟨by rw [hTT]; simp [nl, argToks_nl], .call (.name f) (args e (n :: ns)), ?_, ?_, b, ?_, hbi⟩
    · rw [hTT]
      exact Gram.call (Gram.name f) (gram_args (n :: ns) (gram_le hg (by omega)))
    · have hfit : fitsAll fn.params fn.more ([Ty.float] ++ (n :: ns).map .const) = true := by
        rw [h1, h2]
        simp only [fitsAll, List.singleton_append, Bool.and_eq_true, List.all_eq_true]
        refine ⟨by decide, ?_⟩
        intro t ht
        obtain ⟨m, hm, rfl⟩ := List.mem_map.mp ht
        have := hb m hm
        simp only [Ty.fits, decide_eq_true_eq]
        omega
      simp only [tys, goEnv_fnOf1, hfn, e1]
      rw [if_pos hfit, h3]
    · simp only [vals, goEnv_fnOf1, hfn, e2, List.singleton_append]
      rw [hbr]; rfl

theorem oneOf_iff {x : F64} {nv : Option Nat} (h : NV x nv) : ∀ {ns : List Nat}, (∀ n ∈ ns, n < 2 ^ 53) →
    (isFloatOneOf x (ns.map fun n : Nat => (n : Int)) = true ↔ ∃ n ∈ ns, nv = some n)
  | [], _ => by simp [isFloatOneOf]
  | n :: ns, hb => by
    have := hb n (List.mem_cons_self ..)
    rw [List.map_cons, h.oneOf_cons (by omega) (by omega), oneOf_iff h fun m hm => hb m (List.mem_cons_of_mem _ hm)]
    simp

def flat : List (Nat × Nat) → List Nat
  | [] => []
  | (lo, hi) :: rs => lo :: hi :: flat rs

theorem pairs_flat : ∀ rs : List (Nat × Nat),
    pairs ((flat rs).map fun n : Nat => (n : Int)) = some (rs.map fun p => ((p.1 : Int), (p.2 : Int)))
  | [] => rfl
  | (lo, hi) :: rs => by simp [flat, pairs, pairs_flat rs]

theorem inRange_iff {x : F64} {nv : Option Nat} (h : NV x nv) : ∀ {rs : List (Nat × Nat)},
    (∀ p ∈ rs, p.1 < 2 ^ 53 ∧ p.2 < 2 ^ 53) →
    (isFloatInRange x (rs.map fun p => ((p.1 : Int), (p.2 : Int))) = true ↔ ∃ p ∈ rs, within nv p.1 p.2)
  | [], _ => by simp [isFloatInRange]
  | p :: rs, hb => by
    have := hb p (List.mem_cons_self ..)
    rw [List.map_cons, h.range_cons (by omega) (by omega) (by omega),
      inRange_iff h fun m hm => hb m (List.mem_cons_of_mem _ hm)]
    simp

theorem flat_ne {rs : List (Nat × Nat)} (h : rs ≠ []) : flat rs ≠ [] := by
  cases rs with
  | nil => exact absurd rfl h
  | cons p rs => simp [flat]

theorem flat_lt : ∀ {rs : List (Nat × Nat)}, (∀ p ∈ rs, p.1 < 2 ^ 53 ∧ p.2 < 2 ^ 53) → ∀ n ∈ flat rs, n < 2 ^ 53
  | [], _, n, hn => nomatch hn
  | (lo, hi) :: rs, hb, n, hn => by
    have := hb _ (List.mem_cons_self ..)
    simp only [flat, List.mem_cons] at hn
    rcases hn with rfl | rfl | hn
    · exact this.1
    · exact this.2
    · exact flat_lt (fun p hp => hb p (List.mem_cons_of_mem _ hp)) n hn

theorem Num.inRange {s : List Char} {nv : Option Nat} (h : Num ops true s nv) {rs : List (Nat × Nat)} (h0 : rs ≠ [])
    (hb : ∀ p ∈ rs, p.1 < 2 ^ 53 ∧ p.2 < 2 ^ 53) :
    Means (goEnv ops) 7 ("isFloatInRange(".toList ++ s ++ ", ".toList ++ joinComma ((flat rs).map dec) ++ ")".toList)
      (∃ p ∈ rs, within nv p.1 p.2) := by
  refine h.call "isFloatInRange".toList _ ⟨'(', by decide, by decide⟩ (by decide) (fn := fnInRange) rfl rfl rfl rfl
    (flat_ne h0) (flat_lt hb) ?_
  intro x hx
  refine ⟨isFloatInRange x (rs.map fun p => ((p.1 : Int), (p.2 : Int))), ?_, inRange_iff hx hb⟩
  simp only [fnInRange, mapM_toInt_const, pairs_flat]
  rw [if_pos]
  simp only [List.all_eq_true, List.mem_map, decide_eq_true_eq]
  rintro _ ⟨p, hp, rfl⟩
  have := hb p hp
  simp only []
  omega

theorem Num.oneOf {s : List Char} {nv : Option Nat} (h : Num ops true s nv) {ns : List Nat} (h0 : ns ≠ [])
    (hb : ∀ n ∈ ns, n < 2 ^ 53) :
    Means (goEnv ops) 7 ("isFloatOneOf(".toList ++ s ++ ", ".toList ++ joinComma (ns.map dec) ++ ")".toList)
      (∃ n ∈ ns, nv = some n) := by
  refine h.call "isFloatOneOf".toList _ ⟨'(', by decide, by decide⟩ (by decide) (fn := fnOneOf) rfl rfl rfl rfl
    h0 hb ?_
  intro x hx
  refine ⟨isFloatOneOf x (ns.map fun n : Nat => (n : Int)), ?_, oneOf_iff hx hb⟩
  simp only [fnOneOf, mapM_toInt_const]
  rfl

theorem Num.contains {s : List Char} {nv : Option Nat} (h : Num ops false s nv) {ns : List Nat} (h0 : ns ≠ [])
    (hb : ∀ n ∈ ns, n < 2 ^ 53) :
    Means (goEnv ops) 7 ("slices.Contains([]int64{".toList ++ joinComma (ns.map dec) ++ "}, ".toList ++ s ++ ")".toList)
      (∃ n ∈ ns, nv = some n) := by
  obtain ⟨nl, e, hg, ht, k, hv, rfl⟩ := h
  cases ns with
  | nil => exact absurd rfl h0
  | cons n ns =>
    have hTT : T ("slices.Contains([]int64{".toList ++ joinComma ((n :: ns).map dec) ++ "}, ".toList ++ s ++ ")".toList) =
        [.name "slices".toList, .dot, .name "Contains".toList] ++ .lp ::
          ((.lbr :: .rbr :: .name "int64".toList :: .lb :: ([.int n] ++ argToks ns) ++ [.rb]) ++ .op .comma :: T s) ++ [.rp] := by
      rw [T_suf _ _ ⟨')', by decide, by decide⟩, T_mid _ _ _ ⟨'}', by decide, by decide⟩ ⟨' ', by decide, by decide⟩,
        T_pre _ _ ⟨'{', by decide, by decide⟩, T_join]
      have h1 : T "slices.Contains([]int64{".toList = [.name "slices".toList, .dot, .name "Contains".toList, .lp, .lbr, .rbr,
        .name "int64".toList, .lb] := by decide
      have h2 : T "}, ".toList = [.rb, .op .comma] := by decide
      have h3 : T ")".toList = [.rp] := by decide
      rw [h1, h2, h3]
      simp
    have t1 : tys (goEnv ops) (args (.int n) ns) = some ((n :: ns).map .const) := tys_args (vs := [.const n]) ns rfl
    have v1 : vals (goEnv ops) (args (.int n) ns) = some ((n :: ns).map .const) := vals_args (vs := [.const n]) ns rfl
    have hfn : goFn ["slices".toList, "Contains".toList] = some fnContains := rfl
    refine ⟨by rw [hTT]; simp [nl, argToks_nl], .call (.sel "slices".toList "Contains".toList)
      (.bin .comma (.slice "int64".toList (args (.int n) ns)) e), ?_, ?_,
      ((n :: ns).map fun n : Nat => (n : Int)).contains (k : Int), ?_, ?_⟩
    · rw [hTT]
      refine Gram.call (Gram.sel _ _) (Gram.bin .comma ?_ (gram_le hg (by decide)))
      exact gram_le (Gram.slice _ (gram_args ns (gram_le (Gram.int n) (by omega)))) (by decide)
    · have hall : ((n :: ns).map Ty.const).all (fun t => t.fits .int) = true := by
        simp only [List.all_eq_true, List.mem_map]
        rintro _ ⟨m, hm, rfl⟩
        have := hb m hm
        simp only [Ty.fits, decide_eq_true_eq]
        omega
      have hs : tys (goEnv ops) (.slice "int64".toList (args (.int n) ns)) = some [.ints] := by
        simp only [tys, t1]
        rw [if_pos ⟨rfl, hall⟩]
      simp only [tys, goEnv_fnOf2, hfn] at hs ⊢
      simp only [hs, ht, one]
      simp [fnContains, fitsAll, Ty.fits]
    · simp only [vals, goEnv_fnOf2, hfn, v1, mapM_toInt_const, hv, one]
      simp [fnContains, Val.toInt]
    · simp only [List.contains_iff_mem, List.mem_map]
      constructor
      · rintro ⟨m, hm, he⟩
        exact ⟨m, hm, by congr 1; omega⟩
      · rintro ⟨m, hm, he⟩
        cases he
        exact ⟨_, hm, rfl⟩

theorem eachEqual_means {nv : Option Nat} (h : Num ops false "ops.I".toList nv) : ∀ {ns : List Nat}, ns ≠ [] →
    (∀ n ∈ ns, n < 2 ^ 53) → ∀ {acc : List Char} {P : Prop}, Means (goEnv ops) 1 acc P →
    Means (goEnv ops) 1 (acc ++ " || ".toList ++ eachEqual (ns.map dec)) (P ∨ ∃ n ∈ ns, nv = some n)
  | [], h0, _, _, _, _ => absurd rfl h0
  | [n], _, hb, acc, P, hacc => by
    have h1 := h.eq (hb n (List.mem_cons_self ..))
    exact (hacc.or (h1.le (by omega))).iff (by simp)
  | n :: m :: ns, _, hb, acc, P, hacc => by
    have h1 := h.eq (hb n (List.mem_cons_self ..))
    have h2 := eachEqual_means h (ns := m :: ns) (by simp) (fun x hx => hb x (List.mem_cons_of_mem _ hx))
      (hacc.or (h1.le (by omega)))
    have h3 := h2.iff (Q := P ∨ ∃ k ∈ n :: m :: ns, nv = some k) (by simp [or_assoc])
    have e : eachEqual ((n :: m :: ns).map dec) =
        "ops.I".toList ++ " == ".toList ++ dec n ++ " || ".toList ++ eachEqual ((m :: ns).map dec) := rfl
    rw [e]
    simpa only [List.append_assoc] using h3

theorem eachEqual_all {nv : Option Nat} (h : Num ops false "ops.I".toList nv) {n m : Nat} {ns : List Nat}
    (hb : ∀ x ∈ n :: m :: ns, x < 2 ^ 53) :
    Means (goEnv ops) 1 (eachEqual ((n :: m :: ns).map dec)) (∃ x ∈ n :: m :: ns, nv = some x) := by
  have h1 := (h.eq (hb n (List.mem_cons_self ..))).le (l := 1) (by omega)
  have h2 := eachEqual_means h (ns := m :: ns) (by simp) (fun x hx => hb x (List.mem_cons_of_mem _ hx)) h1
  exact h2.iff (by simp)

theorem valuesText_means {f : Bool} {s : List Char} {nv : Option Nat} (h : Num ops f s nv) {n m : Nat} {ns : List Nat}
    (hb : ∀ x ∈ n :: m :: ns, x < 2 ^ 53) :
    Means (goEnv ops) 7 (valuesText s f ((n :: m :: ns).map dec)) (∃ x ∈ n :: m :: ns, nv = some x) := by
  unfold valuesText
  cases f with
  | true => rw [if_pos rfl]; exact h.oneOf (by simp) hb
  | false =>
    rw [if_neg (by decide)]
    split
    · rename_i hc
      rw [hc.2] at h
      exact (eachEqual_all h hb).paren
    · exact h.contains (by simp) hb

/-! ## Relations -/

/-- The single values of a range list. -/
def singles : List (Nat × Option Nat) → List Nat
  | [] => []
  | (v, none) :: its => v :: singles its
  | (_, some _) :: its => singles its

/-- The ranges of a range list. -/
def ranges : List (Nat × Option Nat) → List (Nat × Nat)
  | [] => []
  | (_, none) :: its => ranges its
  | (lo, some hi) :: its => (lo, hi) :: ranges its

theorem singleValues_eq : ∀ its : List (Nat × Option Nat), singleValues (its.map astItem) = (singles its).map dec
  | [] => rfl
  | (v, none) :: its => by simp [singleValues, astItem, singles, formatInt_nat, singleValues_eq its]
  | (lo, some hi) :: its => by simp [singleValues, astItem, singles, singleValues_eq its]

theorem valueRanges_eq : ∀ its : List (Nat × Option Nat), valueRanges (its.map astItem) = (flat (ranges its)).map dec
  | [] => rfl
  | (v, none) :: its => by simp [valueRanges, astItem, ranges, valueRanges_eq its]
  | (lo, some hi) :: its => by simp [valueRanges, astItem, ranges, flat, formatInt_nat, valueRanges_eq its]

theorem items_in {q : Q} {nv : Option Nat} (h : QV q nv) : ∀ its : List (Nat × Option Nat),
    (∃ it ∈ its, q.In it) ↔ (∃ p ∈ ranges its, within nv p.1 p.2) ∨ ∃ n ∈ singles its, nv = some n
  | [] => by simp [ranges, singles]
  | (v, none) :: its => by
    simp only [List.mem_cons, exists_eq_or_imp, ranges, singles, h.in_none, items_in h its]
    constructor
    · rintro (a | a | a)
      · exact .inr (.inl a)
      · exact .inl a
      · exact .inr (.inr a)
    · rintro (a | a | a)
      · exact .inr (.inl a)
      · exact .inl a
      · exact .inr (.inr a)
  | (lo, some hi) :: its => by
    simp only [List.mem_cons, exists_eq_or_imp, ranges, singles, h.in_some, items_in h its, or_assoc]

theorem singles_lt : ∀ {its : List (Nat × Option Nat)}, (∀ it ∈ its, itemWF (2 ^ 53) it) → ∀ n ∈ singles its, n < 2 ^ 53
  | [], _, n, hn => nomatch hn
  | (v, none) :: its, hw, n, hn => by
    simp only [singles, List.mem_cons] at hn
    rcases hn with rfl | hn
    · exact hw _ (List.mem_cons_self ..)
    · exact singles_lt (fun it h => hw it (List.mem_cons_of_mem _ h)) n hn
  | (_, some _) :: its, hw, n, hn => singles_lt (fun it h => hw it (List.mem_cons_of_mem _ h)) n hn

theorem ranges_lt : ∀ {its : List (Nat × Option Nat)}, (∀ it ∈ its, itemWF (2 ^ 53) it) →
    ∀ p ∈ ranges its, p.1 < 2 ^ 53 ∧ p.2 < 2 ^ 53
  | [], _, n, hn => nomatch hn
  | (v, none) :: its, hw, n, hn => ranges_lt (fun it h => hw it (List.mem_cons_of_mem _ h)) n hn
  | (lo, some hi) :: its, hw, n, hn => by
    simp only [ranges, List.mem_cons] at hn
    rcases hn with rfl | hn
    · have := hw _ (List.mem_cons_self ..)
      simp only [itemWF] at this
      simp only []
      omega
    · exact ranges_lt (fun it h => hw it (List.mem_cons_of_mem _ h)) n hn

theorem isPrefixOf_append : ∀ (a b : List Char), a.isPrefixOf (a ++ b) = true
  | [], b => by simp
  | c :: a, b => by simp [isPrefixOf_append a b]

theorem contains_append (sub : List Char) : ∀ (a b : List Char), Model.Cldr.Generator.contains sub (a ++ sub ++ b) = true
  | [], b => by
    rw [List.nil_append]
    cases sub with
    | nil => cases b <;> simp [Model.Cldr.Generator.contains]
    | cons c sub =>
      have := isPrefixOf_append (c :: sub) b
      rw [List.cons_append] at this ⊢
      rw [Model.Cldr.Generator.contains, this]; rfl
  | c :: a, b => by
    simp only [List.cons_append, Model.Cldr.Generator.contains]
    rw [contains_append sub a b, Bool.or_true]

theorem wrap_multi {neg : Bool} {res : List Char} {P : Prop} (hc : Model.Cldr.Generator.contains " || ".toList res = true)
    (h : Means (goEnv ops) 1 res P) : Means (goEnv ops) 3 (wrap neg res) (if neg then ¬ P else P) := by
  unfold wrap
  cases neg with
  | false =>
    rw [if_pos rfl, if_pos hc]
    exact (h.spaced.le (by omega)).iff (by simp)
  | true =>
    rw [if_neg (by decide), if_pos hc]
    have := (h.spaced.le (l := 6) (by omega)).not (by simp)
    exact (this.le (by omega)).iff (by simp)

theorem wrap_single {neg : Bool} {res : List Char} {P : Prop} (h : Means (goEnv ops) 7 res P) (hh : res.head? ≠ some '=') :
    Means (goEnv ops) 3 (wrap neg res) (if neg then ¬ P else P) := by
  cases hc : Model.Cldr.Generator.contains " || ".toList res with
  | true => exact wrap_multi hc (h.le (by omega))
  | false =>
    unfold wrap
    cases neg with
    | false =>
      rw [if_pos rfl, if_neg (by rw [hc]; decide)]
      exact (h.le (by omega)).iff (by simp)
    | true =>
      rw [if_neg (by decide), if_neg (by rw [hc]; decide)]
      exact (((h.le (l := 6) (by omega)).not hh).le (by omega)).iff (by simp)

theorem wrap_pos {res : List Char} {P : Prop} (h : Means (goEnv ops) 3 res P) : Means (goEnv ops) 3 (wrap false res) P := by
  cases hc : Model.Cldr.Generator.contains " || ".toList res with
  | true => exact (wrap_multi (neg := false) hc (h.le (by omega))).iff (by simp)
  | false =>
    unfold wrap
    rw [if_pos rfl, if_neg (by rw [hc]; decide)]
    exact h

theorem rangesText_means {f : Bool} {s : List Char} {nv : Option Nat} (h : Num ops f s nv) {rs : List (Nat × Nat)}
    (h0 : rs ≠ []) (hb : ∀ p ∈ rs, p.1 < 2 ^ 53 ∧ p.2 < 2 ^ 53) (h1 : f = false → rs.length ≤ 1) :
    Means (goEnv ops) 7 (rangesText s f ((flat rs).map dec)) (∃ p ∈ rs, within nv p.1 p.2) ∧
      (rangesText s f ((flat rs).map dec)).head? ≠ some '=' := by
  cases rs with
  | nil => exact absurd rfl h0
  | cons p rs =>
    obtain ⟨lo, hi⟩ := p
    cases f with
    | false =>
      have : rs = [] := by
        have := h1 rfl
        simp only [List.length_cons] at this
        exact List.length_eq_zero_iff.mp (by omega)
      subst this
      have hp := hb _ (List.mem_cons_self ..)
      refine ⟨(h.range hp.1 hp.2).iff (by simp), ?_⟩
      simp [rangesText, flat]
    | true =>
      have e : rangesText s true ((flat ((lo, hi) :: rs)).map dec) =
          "isFloatInRange(".toList ++ s ++ ", ".toList ++ joinComma ((flat ((lo, hi) :: rs)).map dec) ++ ")".toList := by
        cases rs <;> rfl
      rw [e]
      exact ⟨h.inRange h0 hb, by simp⟩

theorem valuesText_head (s : List Char) (f : Bool) (vs : List (List Char)) : (valuesText s f vs).head? ≠ some '=' := by
  unfold valuesText
  split
  · simp
  · split <;> simp

theorem rel_means {o : Ops} {nv : Option Nat} (hm : Match ops o nv) {r : Rel} (hw : r.WF (2 ^ 53))
    (h1 : r.opd ≠ .n → (ranges r.items).length ≤ 1) :
    ∃ s, compileNode (astRel r) = some s ∧ Means (goEnv ops) 3 s (r.Holds o) := by
  obtain ⟨s, nv', hs, hq, hnum⟩ := num_expr hm hw.2.2
  have hH : r.Holds o ↔ (if r.neg then ¬ ((∃ p ∈ ranges r.items, within nv' p.1 p.2) ∨ ∃ n ∈ singles r.items, nv' = some n)
      else ((∃ p ∈ ranges r.items, within nv' p.1 p.2) ∨ ∃ n ∈ singles r.items, nv' = some n)) := by
    unfold Rel.Holds
    rw [items_in hq]
  have hf : isFloatOperand (astExpr r) = false → (ranges r.items).length ≤ 1 := by
    intro hf
    refine h1 ?_
    intro hn
    revert hf
    unfold astExpr
    cases r.mod <;> simp [isFloatOperand, hn, Opd.text]
  have hbs := singles_lt hw.2.1
  have hbr := ranges_lt hw.2.1
  simp only [astRel, compileNode, compileRel, hs, singleValues_eq, valueRanges_eq]
  cases hS : singles r.items with
  | nil =>
    have hR : ranges r.items ≠ [] := by
      intro hR
      apply hw.1
      cases hi : r.items with
      | nil => rfl
      | cons it its =>
        rw [hi] at hS hR
        obtain ⟨a, b⟩ := it
        cases b <;> simp [singles, ranges] at hS hR
    obtain ⟨hM, hh⟩ := rangesText_means hnum hR hbr hf
    refine ⟨_, rfl, (wrap_single hM hh).iff ?_⟩
    rw [hH, hS]; simp
  | cons v vs =>
    rw [hS] at hbs hH
    cases vs with
    | nil =>
      simp only [List.map_cons, List.map_nil]
      have hv := hbs v (List.mem_cons_self ..)
      by_cases hR : ranges r.items = []
      · have hflat : (flat (ranges r.items)).map dec = [] := by rw [hR]; rfl
        rw [hR] at hH
        cases hn : r.neg with
        | true =>
          rw [if_pos ⟨hflat, rfl⟩]
          refine ⟨_, rfl, (hnum.ne hv).iff ?_⟩
          rw [hH, hn]; simp
        | false =>
          rw [if_neg (by simp), if_pos hflat]
          refine ⟨_, rfl, (wrap_pos (res := rangesText s _ _ ++ s ++ _ ++ _) ?_ ).iff (P := nv' = some v) ?_⟩
          · rw [hflat]
            exact hnum.eq hv
          · rw [hH, hn]; simp
      · have hflat : ¬ (flat (ranges r.items)).map dec = [] := by
          intro h; exact flat_ne hR (List.map_eq_nil_iff.mp h)
        rw [if_neg (fun h => hflat h.1), if_neg hflat]
        obtain ⟨hM, hh⟩ := rangesText_means hnum hR hbr hf
        have := (hM.le (l := 1) (by omega)).or ((hnum.eq hv).le (l := 2) (by omega))
        refine ⟨_, rfl, (wrap_multi ?_ (P := (∃ p ∈ ranges r.items, within nv' p.1 p.2) ∨ nv' = some v) ?_).iff ?_⟩
        · have := contains_append " || ".toList (rangesText s (isFloatOperand (astExpr r)) ((flat (ranges r.items)).map dec))
            (s ++ " == ".toList ++ dec v)
          simpa only [List.append_assoc] using this
        · simpa only [List.append_assoc] using this
        · rw [hH]; simp
    | cons v2 vs =>
      simp only [List.map_cons]
      have hV := valuesText_means hnum hbs
      simp only [List.map_cons] at hV
      by_cases hR : ranges r.items = []
      · have hflat : (flat (ranges r.items)).map dec = [] := by rw [hR]; rfl
        rw [hR] at hH
        rw [if_pos hflat]
        refine ⟨_, rfl, (wrap_single (P := ∃ x ∈ v :: v2 :: vs, nv' = some x) ?_ ?_).iff ?_⟩
        · rw [hflat]; exact hV
        · rw [hflat]; exact valuesText_head _ _ _
        · rw [hH]; simp
      · have hflat : ¬ (flat (ranges r.items)).map dec = [] := by
          intro h; exact flat_ne hR (List.map_eq_nil_iff.mp h)
        rw [if_neg hflat]
        obtain ⟨hM, hh⟩ := rangesText_means hnum hR hbr hf
        have := (hM.le (l := 1) (by omega)).or (hV.le (l := 2) (by omega))
        refine ⟨_, rfl, (wrap_multi ?_ this).iff ?_⟩
        · exact contains_append _ _ _
        · rw [hH]

/-! ## Conjunctions and disjunctions -/

theorem conj_means {o : Ops} {nv : Option Nat} (hm : Match ops o nv) : ∀ {c : List Rel}, c ≠ [] →
    (∀ r ∈ c, r.WF (2 ^ 53) ∧ (r.opd ≠ .n → (ranges r.items).length ≤ 1)) →
    ∃ s, compileNode (astConj c) = some s ∧ Means (goEnv ops) 2 s (∀ r ∈ c, r.Holds o) ∧
      ∀ {acc : List Char} {P : Prop}, Means (goEnv ops) 2 acc P →
        Means (goEnv ops) 2 (acc ++ " && ".toList ++ s) (P ∧ ∀ r ∈ c, r.Holds o)
  | [], h0, _ => absurd rfl h0
  | [r], _, hw => by
    obtain ⟨s, hs, hM⟩ := rel_means hm (hw r (List.mem_cons_self ..)).1 (hw r (List.mem_cons_self ..)).2
    refine ⟨s, hs, (hM.le (by omega)).iff (by simp), fun ha => (ha.and hM).iff (by simp)⟩
  | r :: r2 :: rs, _, hw => by
    obtain ⟨s, hs, hM⟩ := rel_means hm (hw r (List.mem_cons_self ..)).1 (hw r (List.mem_cons_self ..)).2
    obtain ⟨t, ht, _, hA⟩ := conj_means hm (c := r2 :: rs) (by simp) fun x hx => hw x (List.mem_cons_of_mem _ hx)
    refine ⟨s ++ " && ".toList ++ t, ?_, ?_, ?_⟩
    · simp only [astConj, compileNode, hs, ht]
    · exact (hA (hM.le (by omega))).iff (by simp)
    · intro acc P ha
      have := (hA (ha.and hM)).iff (Q := P ∧ ∀ x ∈ r :: r2 :: rs, x.Holds o) (by simp [and_assoc])
      simpa only [List.append_assoc] using this

theorem cond_means {o : Ops} {nv : Option Nat} (hm : Match ops o nv) : ∀ {c : Cond}, c ≠ [] →
    (∀ conj ∈ c, conj ≠ [] ∧ ∀ r ∈ conj, r.WF (2 ^ 53) ∧ (r.opd ≠ .n → (ranges r.items).length ≤ 1)) →
    ∃ s, compileNode (astCond c) = some s ∧ Means (goEnv ops) 1 s (c.Holds o) ∧
      ∀ {acc : List Char} {P : Prop}, Means (goEnv ops) 1 acc P →
        Means (goEnv ops) 1 (acc ++ " || ".toList ++ s) (P ∨ c.Holds o)
  | [], h0, _ => absurd rfl h0
  | [r], _, hw => by
    obtain ⟨s, hs, hM, _⟩ := conj_means hm (hw r (List.mem_cons_self ..)).1 (hw r (List.mem_cons_self ..)).2
    refine ⟨s, hs, (hM.le (by omega)).iff (by simp [Cond.Holds]), fun ha => (ha.or hM).iff (by simp [Cond.Holds])⟩
  | r :: r2 :: rs, _, hw => by
    obtain ⟨s, hs, hM, _⟩ := conj_means hm (hw r (List.mem_cons_self ..)).1 (hw r (List.mem_cons_self ..)).2
    obtain ⟨t, ht, _, hA⟩ := cond_means hm (c := r2 :: rs) (by simp) fun x hx => hw x (List.mem_cons_of_mem _ hx)
    refine ⟨s ++ " || ".toList ++ t, ?_, ?_, ?_⟩
    · simp only [astCond, compileNode, hs, ht]
    · exact (hA (hM.le (by omega))).iff (by simp [Cond.Holds])
    · intro acc P ha
      have := (hA (ha.or hM)).iff (Q := P ∨ Cond.Holds (r :: r2 :: rs) o) (by simp [Cond.Holds, or_assoc])
      simpa only [List.append_assoc] using this

end Verif.Proofs.Cldr.Generator
