import Verif.Model.PoPlural.Evaluate
import Verif.Proofs.PoPlural.Table
/-! Rules: built-in replacement, rounding, and helpers for concrete formulas. -/
namespace Verif.Proofs.PoPlural
open Verif.Model.PoPlural Verif.Spec.PoPlural Verif.Go

theorem eval_val1 {e : Expr} (hs : Small e) (m : Int) : evaluate (toNode e) m = val1 e m := by
  induction e with
  | n => rfl
  | num k =>
    have : k < 2 ^ 63 := hs
    simp only [toNode, evaluate, val1, sat, if_pos this]
  | cond c t e ihc iht ihe =>
    simp only [toNode, evaluate, val1, ihc hs.1, iht hs.2.1, ihe hs.2.2]
  | bin o x y ihx ihy =>
    have h1 := ihx hs.1
    have h2 := ihy hs.2
    cases o <;> simp only [toNode, opOf, evaluate, val1, h1, h2, ofBool_truth, Bool.decide_and,
      Bool.decide_or]

/-- A built-in rule chosen for a plain formula computes the value of the formula. -/
theorem builtin_plain {text : List Char} {k : Nat} {e : Expr} (h : Formula text k e)
    (hp : Plain 0 e) {f : Forms} (hf : astParse text = .ok f) {r : Rule}
    (hr : getBuiltInForRawRule (compileToString f) = some r) :
    r.nPlurals = f.nPlurals ∧ ∀ m, r.form m = evaluate f.root m := by
  obtain ⟨n, h1, h2⟩ := astParse_complete h
  rw [h1] at hf
  cases hf
  have hpn : PlainN 0 n := (h2.plain 0).mp (plain_toNode e 0 hp)
  obtain ⟨e', g1, g2⟩ := compile_formula ⟨sat k, n⟩ (sat_range k).1 hpn
  obtain ⟨n', k1, k2⟩ := astParse_complete g1
  unfold getBuiltInForRawRule at hr
  obtain ⟨p, hfind, rfl⟩ := Option.map_eq_some_iff.mp hr
  have hmem := List.mem_of_find?_eq_some hfind
  have hkey : p.1 = compileToString ⟨sat k, n⟩ := by
    have := List.find?_some hfind
    simpa using this
  obtain ⟨f', q1, q2, q3⟩ := table_ok p hmem
  rw [hkey, k1] at q1
  cases q1
  refine ⟨?_, ?_⟩
  · rw [← q2]
    have := sat_range k
    simp only [sat] at this ⊢
    split at this <;> split <;> omega
  · intro m
    rw [q3 m]
    exact (Re.trans (.symm k2) g2).eval m

/-! Concrete formulas -/

/-- White space and tokens of a formula, as a list to compute with. -/
def render (tail : List Char) : List (List Char × T) → List Char
  | [] => tail
  | (w, t) :: l => w ++ t.text ++ render tail l

def wfB : T → Bool
  | .word k s => s.map Char.toLower == k.name
  | .num ds => ds != [] && ds.all Char.isDigit
  | _ => true

def noMergeB (t : T) (s : List Char) : Bool :=
  match s with
  | [] => true
  | c :: _ =>
    match t with
    | .word _ _ => !(c.isAlpha || c == '_')
    | .num _ => !(c.isDigit || c == '_')
    | .assign => c != '='
    | .bin .gt => c != '='
    | .bin .lt => c != '='
    | _ => true

def blankB (c : Char) : Bool := c == ' ' || c == '\t' || c == '\n'

def checkB (tail : List Char) : List (List Char × T) → Bool
  | [] => tail.all blankB
  | (w, t) :: l => w.all blankB && wfB t && noMergeB t (render tail l) && checkB tail l

theorem blankB_iff {c : Char} (h : blankB c = true) : Blank c := by
  simpa [blankB, Blank, or_assoc] using h

theorem noMergeB_iff {t : T} {s : List Char} (h : noMergeB t s = true) : NoMerge t s := by
  cases s with
  | nil =>
    cases t with
    | bin o => cases o <;> simp [NoMerge]
    | _ => simp [NoMerge]
  | cons c s =>
    cases t with
    | bin o => cases o <;> simp_all [NoMerge, noMergeB]
    | _ => simp_all [NoMerge, noMergeB]

theorem wfB_iff {t : T} (h : wfB t = true) : t.WF := by
  cases t with
  | word k s => simp only [wfB, beq_iff_eq] at h; exact h
  | num ds =>
    simp only [wfB, Bool.and_eq_true, bne_iff_ne, List.all_eq_true] at h
    exact h
  | _ => trivial

theorem spells_render (tail : List Char) (l : List (List Char × T)) (h : checkB tail l = true) :
    Spells (l.map (·.2)) (render tail l) := by
  induction l with
  | nil =>
    refine .nil _ ?_
    simp only [checkB, List.all_eq_true] at h
    intro c hc
    exact blankB_iff (h c hc)
  | cons p l ih =>
    obtain ⟨w, t⟩ := p
    simp only [checkB, Bool.and_eq_true, List.all_eq_true] at h
    obtain ⟨⟨⟨h1, h2⟩, h3⟩, h4⟩ := h
    exact .cons w t _ _ (fun c hc => blankB_iff (h1 c hc)) (wfB_iff h2) (noMergeB_iff h3) (ih h4)

/-! Every expression has a rendering -/

/-- Tokens of an expression with all parentheses. -/
def tokens : Expr → List T
  | .n => [.word .n ['n']]
  | .num k => [.num (natDec k)]
  | .bin o x y => .lp :: (tokens x ++ .bin o :: tokens y) ++ [.rp]
  | .cond c t e => .lp :: (tokens c ++ .quest :: (tokens t ++ .colon :: tokens e)) ++ [.rp]

theorem der_tokens (e : Expr) : Der 6 (tokens e) e := by
  induction e with
  | n => exact .n _
  | num k =>
    have := Der.num (natDec k)
    rw [(natDec_spec k).2.2] at this
    exact this
  | bin o x y ihx ihy =>
    refine .paren ?_
    cases o
    case and => exact der_le (by omega) (.and (der_le (by omega) ihx) (der_le (by omega) ihy))
    case or => exact der_le (by omega) (.or (der_le (by omega) ihx) (der_le (by omega) ihy))
    case rem => exact der_le (by omega) (.rem ihx ihy)
    case eq => exact der_le (l' := 3) (by omega) (.eq trivial (der_le (by omega) ihx) (der_le (by omega) ihy))
    case ne => exact der_le (l' := 3) (by omega) (.eq trivial (der_le (by omega) ihx) (der_le (by omega) ihy))
    all_goals exact der_le (l' := 4) (by omega) (.rel trivial (der_le (by omega) ihx) (der_le (by omega) ihy))
  | cond c t e ihc iht ihe =>
    exact .paren (.cond (der_le (by omega) ihc) (der_le (by omega) iht) (der_le (by omega) ihe))

theorem tokens_wf (e : Expr) : ∀ t ∈ tokens e, t.WF := by
  induction e with
  | n => intro t ht; simp [tokens] at ht; subst ht; rfl
  | num k =>
    intro t ht
    simp [tokens] at ht
    subst ht
    exact ⟨(natDec_spec k).1, (natDec_spec k).2.1⟩
  | bin o x y ihx ihy =>
    intro t ht
    simp [tokens] at ht
    rcases ht with rfl | h | rfl | h | rfl
    · trivial
    · exact ihx t h
    · trivial
    · exact ihy t h
    · trivial
  | cond c t e ihc iht ihe =>
    intro u hu
    simp [tokens] at hu
    rcases hu with rfl | h | rfl | h | rfl | h | rfl
    · trivial
    · exact ihc u h
    · trivial
    · exact iht u h
    · trivial
    · exact ihe u h
    · trivial

/-- Tokens separated by blanks are spelled. -/
theorem spells_spaced (ts : List T) (h : ∀ t ∈ ts, t.WF) :
    ∃ s, Spells ts (' ' :: s) := by
  induction ts with
  | nil => exact ⟨[], .nil _ (by intro c hc; simp at hc; left; exact hc)⟩
  | cons t ts ih =>
    obtain ⟨s, hs⟩ := ih (fun u hu => h u (by simp [hu]))
    refine ⟨t.text ++ ' ' :: s, ?_⟩
    have := spells_tok (h t (by simp)) (safe_noMerge t _ (safe_blank s)) hs
    exact spells_blank this

theorem formula_exists (k : Nat) (e : Expr) : ∃ text, Formula text k e := by
  have hwf : ∀ t ∈ (T.word .nplurals "nplurals".toList :: .assign :: .num (natDec k) :: .semi ::
      .word .plural "plural".toList :: .assign :: (tokens e ++ [.semi])), t.WF := by
    intro t ht
    simp only [List.mem_cons, List.mem_append, List.not_mem_nil, or_false] at ht
    rcases ht with rfl | rfl | rfl | rfl | rfl | rfl | h | rfl
    · show List.map _ _ = _; decide
    · trivial
    · exact ⟨(natDec_spec k).1, (natDec_spec k).2.1⟩
    · trivial
    · show List.map _ _ = _; decide
    · trivial
    · exact tokens_wf e t h
    · trivial
  obtain ⟨s, hs⟩ := spells_spaced _ hwf
  exact ⟨' ' :: s, _, _, _, _, hs, (natDec_spec k).2.2.symm, der_le (by omega) (der_tokens e)⟩

/-! Rounding -/

theorem halfEven_spec (a d k : Nat) (hd : 0 < d)
    (h1 : 2 * k * d ≤ 2 * a + d) (h2 : 2 * a ≤ 2 * k * d + d)
    (h3 : (2 * k * d = 2 * a + d ∨ 2 * a = 2 * k * d + d) → k % 2 = 0) : halfEven a d = k := by
  unfold halfEven
  have hdm := Nat.div_add_mod a d
  have hlt := Nat.mod_lt a hd
  generalize hq : a / d = q at *
  generalize a % d = r at *
  -- `a = d * q + r`, and `k` is `q` or `q + 1`
  have e1 : 2 * k * d = 2 * (k * d) := Nat.mul_assoc 2 k d
  rw [e1] at h1 h2 h3
  have hk : k = q ∨ k = q + 1 := by
    rcases Nat.lt_or_ge k q with hlt' | hge
    · have : (k + 1) * d ≤ q * d := Nat.mul_le_mul_right d hlt'
      rw [Nat.add_mul, Nat.one_mul] at this
      have hc : d * q = q * d := Nat.mul_comm d q
      -- then 2a ≥ 2 k d + 2 d + 2 r
      omega
    · rcases Nat.lt_or_ge (q + 1) k with hgt | hle
      · have : (q + 1 + 1) * d ≤ k * d := Nat.mul_le_mul_right d hgt
        rw [Nat.add_mul, Nat.add_mul, Nat.one_mul] at this
        have hc : d * q = q * d := Nat.mul_comm d q
        omega
      · omega
  have hc : d * q = q * d := Nat.mul_comm d q
  rcases hk with rfl | rfl
  · simp only
    rcases Nat.lt_trichotomy (2 * r) d with h | h | h
    · rw [if_pos h]
    · have := h3 (by omega)
      rw [if_neg (by omega), if_neg (by omega), if_pos this]
    · omega
  · rw [Nat.add_mul, Nat.one_mul] at h1 h2 h3
    simp only
    rcases Nat.lt_trichotomy (2 * r) d with h | h | h
    · omega
    · have := h3 (by omega)
      rw [if_neg (by omega), if_neg (by omega), if_neg (by omega)]
    · rw [if_neg (by omega), if_pos h]

theorem round53_small (n : Nat) (h : n ≤ 2 ^ 53) : round53 n = n := by
  unfold round53
  by_cases h1 : n < 2 ^ 53
  · rw [if_pos h1]
  · have : n = 2 ^ 53 := by omega
    subst this
    decide

theorem abs_round_int {oor : F64 → Int} {m e : Int} {k : Nat} (h : RoundsTo m e k) (hk : k < 2 ^ 63) :
    ((F64.fin m e).abs.roundToEven).toInt64 oor = k := by
  unfold RoundsTo at h
  simp only [F64.abs, F64.roundToEven]
  by_cases he : 0 ≤ e
  · rw [if_pos he] at h
    rw [if_pos he]
    simp only [F64.toInt64]
    have hv : ((m.natAbs : Int) * 2 ^ e.toNat) = k := by
      rw [h]; simp
    simp only [Int.le_refl, if_true, Int.toNat_zero, Int.pow_zero, Int.mul_one, hv]
    rw [if_pos (by omega)]
  · rw [if_neg he] at h
    rw [if_neg he]
    simp only at h
    obtain ⟨⟨h1, h2⟩, h3⟩ := h
    have := halfEven_spec m.natAbs (2 ^ (-e).toNat) k (Nat.pow_pos (by omega)) h1 h2 h3
    simp only [F64.toInt64, Int.natAbs_natCast, this, Int.le_refl, if_true, Int.toNat_zero,
      Int.pow_zero, Int.mul_one]
    have hv : (m.natAbs : Int).sign * (k : Int) = k := by
      by_cases h0 : m.natAbs = 0
      · rw [h0] at this ⊢
        have : k = 0 := by rw [← this]; simp [halfEven]
        simp [this]
      · have : (m.natAbs : Int).sign = 1 := Int.sign_eq_one_of_pos (by omega)
        rw [this]; omega
    rw [hv, if_pos (by omega)]

end Verif.Proofs.PoPlural
