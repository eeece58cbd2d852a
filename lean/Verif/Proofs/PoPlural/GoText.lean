import Verif.Model.PoPlural.GoText
import Verif.Proofs.PoPlural.Generator
import Verif.Proofs.PoPlural.Rule
/-! The functions of builtin_gen.go, read as Go, compute their formulas. -/
namespace Verif.Proofs.PoPlural.GoText
open Verif.Model.PoPlural Verif.Model.PoPlural.Generator Verif.Proofs.PoPlural Verif.Proofs.PoPlural.Generator
open Verif.Spec.GoCode (lex Function)
open Verif.Proofs.GoCode (parseBody parseBody_iff)
open Verif.Spec.PoPlural

/-! ## From trees back to formulas -/

/-- All numbers are below the largest int64, so that none of them is the result of an overflow. -/
def lowN : Node → Prop
  | .operand => True
  | .value v => v < 2 ^ 63 - 1
  | .binary x _ y => lowN x ∧ lowN y
  | .question c t f => lowN c ∧ lowN t ∧ lowN f

theorem re_low {x y : Node} (h : Re x y) : lowN x ↔ lowN y := by
  induction h with
  | refl => rfl
  | symm _ ih => exact ih.symm
  | trans _ _ i1 i2 => exact i1.trans i2
  | bin _ _ i1 i2 => simp only [lowN, i1, i2]
  | cond _ _ _ i1 i2 i3 => simp only [lowN, i1, i2, i3]
  | assoc _ => simp only [lowN, and_assoc]

theorem low_num {k : Nat} (h : sat k < 2 ^ 63 - 1) : k < 2 ^ 63 := by
  unfold sat at h
  split at h
  · assumption
  · omega

theorem low_small : ∀ {e : Spec.PoPlural.Expr}, lowN (toNode e) → Small e
  | .n, _ => trivial
  | .num _, h => low_num h
  | .bin _ _ _, h => ⟨low_small h.1, low_small h.2⟩
  | .cond _ _ _, h => ⟨low_small h.1, low_small h.2.1, low_small h.2.2⟩

theorem node_term : ∀ {e : Spec.PoPlural.Expr}, termN (toNode e) → Term e
  | .n, _ => trivial
  | .num _, _ => trivial
  | .bin o x y, h => by
    obtain ⟨ho, hx, hy⟩ := h
    cases o <;> try cases ho
    cases y <;> try exact hy.elim
    case num k =>
      refine ⟨node_term hx, ?_⟩
      rintro rfl
      exact absurd hy.1 (by decide)
  | .cond _ _ _, h => h.elim

theorem node_test : ∀ {e : Spec.PoPlural.Expr}, testN (toNode e) → Test e
  | .n, h => h.elim
  | .num _, h => h.elim
  | .bin o x y, h => by
    cases o
    case and => exact ⟨node_test h.1, node_test h.2⟩
    case or => exact ⟨node_test h.1, node_test h.2⟩
    case rem => exact h.elim
    all_goals exact ⟨node_term h.1, node_term h.2⟩
  | .cond _ _ _, h => h.elim

theorem node_ladder : ∀ {e : Spec.PoPlural.Expr}, ladderN (toNode e) → Ladder e
  | .n, h => h.elim
  | .num _, h => h.elim
  | .bin _ _ _, h => h.elim
  | .cond c t f, h => by
    obtain ⟨hc, ht, hf⟩ := h
    cases t <;> try exact ht.elim
    case num k =>
      cases f
      case num j => exact node_test hc
      case n => exact (hf.elim id id).elim
      case bin => exact (hf.elim id id).elim
      case cond => exact ⟨node_test hc, hf.elim False.elim node_ladder⟩

/-! ## Usual formulas have a value -/

theorem term_total (m : Int) : ∀ {e : Spec.PoPlural.Expr}, Term e → ∃ v, cval e m = some v
  | .n, _ => ⟨_, rfl⟩
  | .num _, _ => ⟨_, rfl⟩
  | .bin o x y, h => by
    cases o <;> cases y <;> try exact h.elim
    case rem.num k =>
      have h' : Term x ∧ k ≠ 0 := h
      obtain ⟨v, hv⟩ := term_total m h'.1
      have : ¬ ((k : Int) = 0) := by have := h'.2; omega
      exact ⟨v.tmod k, by simp [cval, hv, h'.2]⟩
  | .cond _ _ _, h => h.elim

theorem test_total (m : Int) : ∀ {e : Spec.PoPlural.Expr}, Test e → ∃ v, cval e m = some v
  | .n, h => h.elim
  | .num _, h => h.elim
  | .bin o x y, h => by
    cases o
    case and =>
      obtain ⟨a, ha⟩ := test_total m h.1
      obtain ⟨b, hb⟩ := test_total m h.2
      by_cases h0 : a = 0 <;> simp [cval, ha, hb, h0]
    case or =>
      obtain ⟨a, ha⟩ := test_total m h.1
      obtain ⟨b, hb⟩ := test_total m h.2
      by_cases h0 : a = 0 <;> simp [cval, ha, hb, h0]
    case rem => exact h.elim
    all_goals
      obtain ⟨a, ha⟩ := term_total m h.1
      obtain ⟨b, hb⟩ := term_total m h.2
      simp [cval, ha, hb]
  | .cond _ _ _, h => h.elim

theorem ladder_total (m : Int) : ∀ {e : Spec.PoPlural.Expr}, Ladder e → ∃ v, cval e m = some v
  | .n, h => h.elim
  | .num _, h => h.elim
  | .bin _ _ _, h => h.elim
  | .cond c t f, h => by
    cases t <;> try exact h.elim
    case num k =>
      have key : Test c ∧ ∃ w, cval f m = some w := by
        cases f
        case num j => exact ⟨h, _, rfl⟩
        case n => exact h.2.elim
        all_goals exact ⟨h.1, ladder_total m h.2⟩
      obtain ⟨a, ha⟩ := test_total m key.1
      obtain ⟨w, hw⟩ := key.2
      by_cases h0 : a = 0
      · exact ⟨w, by simp [cval, ha, h0, hw]⟩
      · exact ⟨k, by simp [cval, ha, h0]⟩

/-! ## The built-in rule, from the tree -/

theorem builtin_node {f : Forms} (h0 : 0 ≤ f.nPlurals) (h63 : f.nPlurals < 2 ^ 63) (hp : PlainN 0 f.root) {r : Rule}
    (hr : getBuiltInForRawRule (compileToString f) = some r) :
    r.nPlurals = f.nPlurals ∧ ∀ m, r.form m = evaluate f.root m := by
  obtain ⟨e', g1, g2⟩ := compile_formula f h0 hp
  obtain ⟨n', k1, k2⟩ := astParse_complete g1
  unfold getBuiltInForRawRule at hr
  obtain ⟨p, hfind, rfl⟩ := Option.map_eq_some_iff.mp hr
  have hmem := List.mem_of_find?_eq_some hfind
  have hkey : p.1 = compileToString f := by
    have := List.find?_some hfind
    simpa using this
  obtain ⟨f', q1, q2, q3⟩ := table_ok p hmem
  rw [hkey, k1] at q1
  cases q1
  refine ⟨?_, ?_⟩
  · rw [← q2]
    simp only [sat]
    split <;> omega
  · intro m
    rw [q3 m]
    exact (Re.trans (.symm k2) g2).eval m

/-! ## Checks -/

def lowB : Node → Bool
  | .operand => true
  | .value v => decide (v < 2 ^ 63 - 1)
  | .binary x _ y => lowB x && lowB y
  | .question c t f => lowB c && (lowB t && lowB f)

theorem lowB_iff : ∀ {x : Node}, lowB x = true → lowN x
  | .operand, _ => trivial
  | .value _, h => of_decide_eq_true (p := _ < _) h
  | .binary _ _ _, h => by
    simp only [lowB, Bool.and_eq_true] at h
    exact ⟨lowB_iff h.1, lowB_iff h.2⟩
  | .question _ _ _, h => by
    simp only [lowB, Bool.and_eq_true] at h
    exact ⟨lowB_iff h.1, lowB_iff h.2.1, lowB_iff h.2.2⟩

def termB : Node → Bool
  | .operand => true
  | .value v => decide (0 ≤ v ∧ v < 2 ^ 63)
  | .binary x .rem (.value v) => termB x && decide (0 < v ∧ v < 2 ^ 63)
  | _ => false

theorem termB_iff : ∀ {x : Node}, termB x = true → termN x
  | .operand, _ => trivial
  | .value v, h => of_decide_eq_true (p := _ ∧ _) h
  | .binary x o y, h => by
    cases o <;> cases y <;> simp only [termB, Bool.and_eq_true, decide_eq_true_eq, reduceCtorEq] at h
    case rem.value v => exact ⟨rfl, termB_iff h.1, h.2⟩
  | .question _ _ _, h => by simp [termB] at h

def testB : Node → Bool
  | .binary x .and y => testB x && testB y
  | .binary x .or y => testB x && testB y
  | .binary _ .rem _ => false
  | .binary x _ y => termB x && termB y
  | _ => false

theorem testB_iff : ∀ {x : Node}, testB x = true → testN x
  | .operand, h => by simp [testB] at h
  | .value v, h => by simp [testB] at h
  | .binary x o y, h => by
    cases o <;> simp only [testB, Bool.and_eq_true, reduceCtorEq] at h
    case and => exact ⟨testB_iff h.1, testB_iff h.2⟩
    case or => exact ⟨testB_iff h.1, testB_iff h.2⟩
    all_goals exact ⟨termB_iff h.1, termB_iff h.2⟩
  | .question _ _ _, h => by simp [testB] at h

def ladderB : Node → Bool
  | .question c (.value t) (.value f) => testB c && decide (0 ≤ t ∧ t < 2 ^ 63) && decide (0 ≤ f ∧ f < 2 ^ 63)
  | .question c (.value t) f => testB c && decide (0 ≤ t ∧ t < 2 ^ 63) && ladderB f
  | _ => false

theorem ladderB_iff : ∀ {x : Node}, ladderB x = true → ladderN x
  | .operand, h => by simp [ladderB] at h
  | .value v, h => by simp [ladderB] at h
  | .binary x o y, h => by simp [ladderB] at h
  | .question c t f, h => by
    cases t <;> try (simp [ladderB] at h; done)
    case value v =>
      cases f <;> simp only [ladderB, Bool.and_eq_true, decide_eq_true_eq] at h
      case value w => exact ⟨testB_iff h.1.1, h.1.2, .inl h.2⟩
      all_goals exact ⟨testB_iff h.1.1, h.1.2, .inr (ladderB_iff h.2)⟩

def plainB : Nat → Node → Bool
  | _, .operand => true
  | _, .value v => decide (0 ≤ v ∧ v < 2 ^ 63)
  | l, .binary x o y =>
    match o with
    | .or => plainB 1 x && plainB 1 y
    | .and => decide (l ≤ 2) && (plainB 2 x && plainB 2 y)
    | .eq => decide (l ≤ 3) && (plainB 4 x && plainB 4 y)
    | .ne => decide (l ≤ 3) && (plainB 4 x && plainB 4 y)
    | .rem => decide (l ≤ 5) && (plainB 6 x && plainB 6 y)
    | _ => decide (l ≤ 4) && (plainB 5 x && plainB 5 y)
  | l, .question c t e => decide (l ≤ 0) && (plainB 1 c && (plainB 0 t && plainB 0 e))

theorem plainB_iff : ∀ {x : Node} {l : Nat}, plainB l x = true → PlainN l x
  | .operand, _, _ => trivial
  | .value v, _, h => of_decide_eq_true (p := _ ∧ _) h
  | .binary x o y, l, h => by
    cases o <;> simp only [plainB, Bool.and_eq_true, decide_eq_true_eq] at h
    case or => exact ⟨plainB_iff h.1, plainB_iff h.2⟩
    all_goals exact ⟨h.1, plainB_iff h.2.1, plainB_iff h.2.2⟩
  | .question c t e, l, h => by
    simp only [plainB, Bool.and_eq_true, decide_eq_true_eq] at h
    exact ⟨h.1, plainB_iff h.2.1, plainB_iff h.2.2.1, plainB_iff h.2.2.2⟩

/-- The shape of a tree with `k` plurals. -/
def shapeB (k : Int) (x : Node) : Bool :=
  (decide (k = 1) && decide (x = .value 0)) || (decide (k = 2) && testB x) || (decide (3 ≤ k) && ladderB x)

/-- A function of the file: the formula is usual, it is in the table, and the text of the function is read as
what the generator writes for the formula. -/
def okB (p : List Char × List Char) : Bool :=
  match astParse p.1 with
  | .ok f =>
    decide ('\x00' ∉ p.1 ∧ '_' ∉ p.1) && decide (f.nPlurals < 2 ^ 63 - 1) && lowB f.root && plainB 0 f.root &&
      shapeB f.nPlurals f.root && (getBuiltInForRawRule (compileToString f)).isSome &&
      (match parseBody ((lex p.2).length + 1) (lex p.2),
          parseBody ((lex (compileForms f)).length + 1) (lex (compileForms f)) with
        | some (k, []), some (k', []) => decide (k = k')
        | _, _ => false)
  | .error _ => false

theorem texts_ok : ∀ p ∈ goTexts, okB p = true := by decide +kernel

theorem okB_sound {p : List Char × List Char} (h : okB p = true) :
    ∃ k e f r, Formula p.1 k e ∧ Usual k e ∧ astParse p.1 = .ok f ∧
      getBuiltInForRawRule (compileToString f) = some r ∧ r.nPlurals = k ∧
      ∀ m, ∃ v, cval e m = some v ∧ Function (goEnv m) p.2 v ∧ r.form m = v := by
  unfold okB at h
  split at h
  · rename_i f hf
    simp only [Bool.and_eq_true, decide_eq_true_eq] at h
    obtain ⟨⟨⟨⟨⟨⟨hc, hk⟩, hl⟩, hpl⟩, hsh⟩, hb⟩, hbody⟩ := h
    obtain ⟨k, e, hform⟩ := astParse_sound hc hf
    obtain ⟨n, hn, hre⟩ := astParse_complete hform
    rw [hn] at hf
    cases hf
    simp only at hk hl hpl hsh hb
    have hk63 : k < 2 ^ 63 := low_num hk
    have hsat : sat k = k := by simp only [sat, if_pos hk63]
    have hs : Small e := low_small ((re_low hre).mpr (lowB_iff hl))
    obtain ⟨r, hr⟩ := Option.isSome_iff_exists.mp hb
    obtain ⟨hrn, hrf⟩ := builtin_node (f := ⟨sat k, n⟩) (sat_range k).1 (sat_range k).2 (plainB_iff hpl) hr
    rw [hsat] at hsh
    simp only [shapeB, Bool.or_eq_true, Bool.and_eq_true, decide_eq_true_eq] at hsh
    have key : Usual k e ∧ Boolean e ∧ ∀ m, ∃ v, cval e m = some v ∧ (k = 1 → v = 0) := by
      rcases hsh with (⟨h1, h2⟩ | ⟨h1, h2⟩) | ⟨h1, h2⟩
      · have hz : e = .num 0 := by
          have hnat : natConst (toNode e) := (re_shape hre).2.1.mpr (by rw [h2]; exact ⟨by decide, by decide⟩)
          cases e <;> try exact hnat.elim
          case num j =>
            have := hre.eval 0
            rw [h2] at this
            simp only [toNode, evaluate, sat] at this
            split at this
            · have : j = 0 := by omega
              rw [this]
            · exact absurd this (by decide)
        refine ⟨.inl (by omega), by rw [hz]; trivial, fun m => ⟨0, by rw [hz]; rfl, fun _ => rfl⟩⟩
      · have ht := node_test ((re_shape hre).2.2.2.1.mpr (testB_iff h2))
        refine ⟨.inr (.inl ⟨by omega, ht⟩), (test_boolean ht).2, fun m => ?_⟩
        obtain ⟨v, hv⟩ := test_total m ht
        exact ⟨v, hv, fun h => by omega⟩
      · have ht := node_ladder ((re_shape hre).2.2.2.2.mpr (ladderB_iff h2))
        refine ⟨.inr (.inr ⟨by omega, ht⟩), ladder_boolean ht, fun m => ?_⟩
        obtain ⟨v, hv⟩ := ladder_total m ht
        exact ⟨v, hv, fun h => by omega⟩
    obtain ⟨hu, hbool, hval⟩ := key
    refine ⟨k, e, ⟨sat k, n⟩, r, hform, hu, hn, hr, by rw [hrn, hsat], fun m => ?_⟩
    obtain ⟨v, hv, h0⟩ := hval m
    refine ⟨v, hv, ?_, ?_⟩
    · obtain ⟨s, hs1, hs2⟩ := generated hform hk63 hs hu hv h0
      have hs' : s = compileForms ⟨sat k, n⟩ := by
        simp only [compiled, hn, Option.some.injEq] at hs1
        exact hs1.symm
      subst hs'
      obtain ⟨c, hc1, hc2⟩ := hs2
      split at hbody
      · rename_i c1 c2 e1 e2
        simp only [decide_eq_true_eq] at hbody
        subst hbody
        have := parseBody_iff.mp e2
        have he : c = c1 := Verif.Proofs.GoCode.body_unique hc1 this
        exact ⟨c, by rw [he]; exact parseBody_iff.mp e1, hc2⟩
      · exact absurd hbody (by decide)
    · rw [hrf m]
      show evaluate n m = v
      rw [← hre.eval m]
      exact eval_cval hs hbool hv
  · cases h

/-- Every key of the table is the normal form of the formula of one of the functions. -/
theorem keys_covered : ∀ key ∈ rawTable.map (·.1), ∃ p ∈ goTexts,
    (match astParse p.1 with
      | .ok f => compileToString f == key
      | .error _ => false) = true := by
  decide +kernel

end Verif.Proofs.PoPlural.GoText
