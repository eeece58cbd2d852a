import Verif.Proofs.GoText
import Verif.Proofs.PoPlural.Compile
import Verif.Model.PoPlural.Generator
import Verif.Spec.PoGenerator
/-! The Go functions that the generator writes compute the value of the formula. -/
namespace Verif.Proofs.PoPlural.Generator
open Verif.Spec.GoCode Verif.Proofs.GoText Verif.Model.PoPlural.Generator
open Verif.Proofs.GoCode (gram_le)
open Verif.Model.PoPlural (Node Forms evaluate astParse decLE natDec intDec truth)
open Verif.Proofs.PoPlural (Re toNode sat truth_eq_one)

/-! ## Numerals -/

theorem decLE_last (f n : Nat) (h : n < f) (h0 : 0 < n) : (decLE f n).getLast? ≠ some '0' := by
  have digit : ∀ d : Fin 10, d.val ≠ 0 → Char.ofNat (48 + d.val) ≠ '0' := by decide
  induction f generalizing n with
  | zero => omega
  | succ f ih =>
    unfold decLE
    by_cases h1 : n / 10 = 0
    · rw [if_pos h1]
      intro he
      simp only [List.getLast?_singleton, Option.some.injEq] at he
      exact digit ⟨n % 10, by omega⟩ (by simp only []; omega) he
    · rw [if_neg h1]
      have h2 := ih (n / 10) (by omega) (by omega)
      have h3 := (decLE_spec f (n / 10) (by omega)).1
      rw [List.getLast?_cons]
      cases hg : (decLE f (n / 10)).getLast? with
      | none => exact absurd (List.getLast?_eq_none_iff.mp hg) h3
      | some c =>
        rw [hg] at h2
        simpa using h2

theorem T_natDec (n : Nat) : T (natDec n) = [.int n] := by
  obtain ⟨h0, hd, hv⟩ := natDec_spec n
  have hv' : decVal (natDec n) = n := hv
  rw [T_digits h0 hd, hv']
  rcases Nat.eq_zero_or_pos n with rfl | hp
  · right; decide
  · left
    unfold natDec
    rw [List.head?_reverse]
    exact decLE_last (n + 1) n (by omega) hp

theorem T_intDec (n : Nat) : T (intDec n) = [.int n] := by
  have : ¬ ((n : Int) < 0) := by omega
  simp only [intDec, if_neg this, Int.natAbs_natCast]
  exact T_natDec n

/-! ## Shapes of trees -/

def posConst : Node → Prop
  | .value v => 0 < v ∧ v < 2 ^ 63
  | _ => False

def natConst : Node → Prop
  | .value v => 0 ≤ v ∧ v < 2 ^ 63
  | _ => False

def termN : Node → Prop
  | .operand => True
  | .value v => 0 ≤ v ∧ v < 2 ^ 63
  | .binary x o y => o = .rem ∧ termN x ∧ posConst y
  | .question _ _ _ => False

def testN : Node → Prop
  | .binary x o y =>
    match o with
    | .and => testN x ∧ testN y
    | .or => testN x ∧ testN y
    | .rem => False
    | _ => termN x ∧ termN y
  | _ => False

def ladderN : Node → Prop
  | .question c t f => testN c ∧ natConst t ∧ (natConst f ∨ ladderN f)
  | _ => False

theorem re_shape {x y : Node} (h : Re x y) : (posConst x ↔ posConst y) ∧ (natConst x ↔ natConst y) ∧
    (termN x ↔ termN y) ∧ (testN x ↔ testN y) ∧ (ladderN x ↔ ladderN y) := by
  induction h with
  | refl => exact ⟨Iff.rfl, Iff.rfl, Iff.rfl, Iff.rfl, Iff.rfl⟩
  | symm _ ih => exact ⟨ih.1.symm, ih.2.1.symm, ih.2.2.1.symm, ih.2.2.2.1.symm, ih.2.2.2.2.symm⟩
  | trans _ _ i1 i2 =>
    exact ⟨i1.1.trans i2.1, i1.2.1.trans i2.2.1, i1.2.2.1.trans i2.2.2.1, i1.2.2.2.1.trans i2.2.2.2.1,
      i1.2.2.2.2.trans i2.2.2.2.2⟩
  | @bin x x' o y y' _ _ i1 i2 =>
    refine ⟨Iff.rfl, Iff.rfl, ?_, ?_, Iff.rfl⟩
    · simp only [termN, i1.2.2.1, i2.1]
    · cases o <;> simp only [testN, i1.2.2.1, i2.2.2.1, i1.2.2.2.1, i2.2.2.2.1]
  | cond _ _ _ i1 i2 i3 =>
    refine ⟨Iff.rfl, Iff.rfl, Iff.rfl, Iff.rfl, ?_⟩
    simp only [ladderN, i1.2.2.2.1, i2.2.1, i3.2.1, i3.2.2.2.2]
  | assoc ho =>
    refine ⟨Iff.rfl, Iff.rfl, ?_, ?_, Iff.rfl⟩
    · rcases ho with rfl | rfl <;> simp [termN]
    · rcases ho with rfl | rfl <;> simp [testN, and_assoc]

open Verif.Spec.PoPlural in
theorem term_node : ∀ {e : Spec.PoPlural.Expr}, Term e → Small e → termN (toNode e)
  | .n, _, _ => trivial
  | .num k, _, hs => by
    have hs' : k < 2 ^ 63 := hs
    simp only [toNode, termN, sat, if_pos hs']
    omega
  | .bin o x y, h, hs => by
    cases o <;> cases y <;> try exact h.elim
    case rem.num k =>
      have hs' : k < 2 ^ 63 := hs.2
      have h' : Term x ∧ k ≠ 0 := h
      refine ⟨rfl, term_node h'.1 hs.1, ?_⟩
      simp only [toNode, posConst, sat, if_pos hs']
      omega
  | .cond _ _ _, h, _ => h.elim

open Verif.Spec.PoPlural in
theorem test_node : ∀ {e : Spec.PoPlural.Expr}, Test e → Small e → testN (toNode e)
  | .n, h, _ => h.elim
  | .num k, h, _ => h.elim
  | .bin o x y, h, hs => by
    cases o
    case and => exact ⟨test_node h.1 hs.1, test_node h.2 hs.2⟩
    case or => exact ⟨test_node h.1 hs.1, test_node h.2 hs.2⟩
    case rem => exact h.elim
    all_goals exact ⟨term_node h.1 hs.1, term_node h.2 hs.2⟩
  | .cond _ _ _, h, _ => h.elim

theorem num_node {k : Nat} (h : k < 2 ^ 63) : natConst (toNode (.num k)) := by
  simp only [toNode, natConst, sat, if_pos h]
  omega

open Verif.Spec.PoPlural in
theorem ladder_node : ∀ {e : Spec.PoPlural.Expr}, Ladder e → Small e → ladderN (toNode e)
  | .n, h, _ => h.elim
  | .num k, h, _ => h.elim
  | .bin _ _ _, h, _ => h.elim
  | .cond c t f, h, hs => by
    cases t <;> try exact h.elim
    case num k =>
      cases f
      case num j =>
        have h' : Test c := h
        exact ⟨test_node h' hs.1, num_node hs.2.1, .inl (num_node hs.2.2)⟩
      case n => exact h.2.elim
      all_goals exact ⟨test_node h.1 hs.1, num_node hs.2.1, .inr (ladder_node h.2 hs.2.2)⟩

open Verif.Spec.PoPlural in
theorem term_boolean : ∀ {e : Spec.PoPlural.Expr}, Term e → Boolean e
  | .n, _ => trivial
  | .num k, _ => trivial
  | .bin o x y, h => by
    cases o <;> cases y <;> try exact h.elim
    case rem.num k =>
      have h' : Term x ∧ k ≠ 0 := h
      exact ⟨term_boolean h'.1, trivial⟩
  | .cond _ _ _, h => h.elim

open Verif.Spec.PoPlural in
theorem test_boolean : ∀ {e : Spec.PoPlural.Expr}, Test e → Logical e ∧ Boolean e
  | .n, h => h.elim
  | .num k, h => h.elim
  | .bin o x y, h => by
    cases o
    case and =>
      have h1 := test_boolean h.1
      have h2 := test_boolean h.2
      exact ⟨trivial, h1.1, h2.1, h1.2, h2.2⟩
    case or =>
      have h1 := test_boolean h.1
      have h2 := test_boolean h.2
      exact ⟨trivial, h1.1, h2.1, h1.2, h2.2⟩
    case rem => exact h.elim
    all_goals exact ⟨trivial, term_boolean h.1, term_boolean h.2⟩
  | .cond _ _ _, h => h.elim

open Verif.Spec.PoPlural in
theorem ladder_boolean : ∀ {e : Spec.PoPlural.Expr}, Ladder e → Boolean e
  | .n, h => h.elim
  | .num k, h => h.elim
  | .bin _ _ _, h => h.elim
  | .cond c t f, h => by
    cases t <;> try exact h.elim
    case num k =>
      cases f
      case num j =>
        have h' : Test c := h
        exact ⟨(test_boolean h').1, (test_boolean h').2, trivial, trivial⟩
      case n => exact h.2.elim
      all_goals exact ⟨(test_boolean h.1).1, (test_boolean h.1).2, trivial, ladder_boolean h.2⟩

/-! ## Terms and tests -/

/-- The text is a term with the value `i`. -/
def NumP (m : Int) (s : List Char) (i : Int) : Prop :=
  .nl ∉ T s ∧ ∃ e, Gram 5 (T s) e ∧
    ((tys (goEnv m) e = some [.int] ∧ vals (goEnv m) e = some [.int i]) ∨
      ∃ k : Nat, k < 2 ^ 63 ∧ tys (goEnv m) e = some [.const k] ∧ vals (goEnv m) e = some [.const k] ∧ i = k)

theorem term_text (m : Int) : ∀ {x : Node}, termN x → NumP m (compileBinary x) (evaluate x m)
  | .operand, _ => by
    refine ⟨by decide, .name ['n'], gram_le (Gram.name _) (by omega), .inl ⟨rfl, rfl⟩⟩
  | .value v, h => by
    obtain ⟨k, rfl⟩ := Int.eq_ofNat_of_zero_le h.1
    have hT : T (compileBinary (.value k)) = [.int k] := T_intDec k
    have hk : k < 2 ^ 63 := by have := h.2; omega
    exact ⟨by rw [hT]; simp, .int k, by rw [hT]; exact gram_le (Gram.int k) (by omega), .inr ⟨k, hk, rfl, rfl, rfl⟩⟩
  | .binary x o y, h => by
    obtain ⟨rfl, hx, hy⟩ := h
    cases y with
    | value v =>
      obtain ⟨hv0, hv⟩ := hy
      obtain ⟨k, rfl⟩ := Int.eq_ofNat_of_zero_le (Int.le_of_lt hv0)
      obtain ⟨nl, e, hg, hr⟩ := term_text m hx
      have hT : T (compileBinary (.binary x .rem (.value k))) = T (compileBinary x) ++ .op .rem :: [.int k] := by
        have e1 : compileBinary (.binary x .rem (.value k)) = compileBinary x ++ "%".toList ++ intDec k := rfl
        rw [e1, T_mid _ _ _ ⟨'%', by decide, by decide⟩ ⟨'%', by decide, by decide⟩, T_intDec]
        have : T "%".toList = [.op .rem] := by decide
        rw [this]; simp
      have hk0 : k ≠ 0 := by omega
      have hk1 : ¬ (2 ^ 63 ≤ k) := by omega
      refine ⟨by rw [hT]; simp [nl], .bin .rem e (.int k), ?_, ?_⟩
      · rw [hT]; exact Gram.bin .rem hg (gram_le (Gram.int k) (by decide))
      · rcases hr with ⟨ht, hv⟩ | ⟨j, hj, ht, hv, he⟩
        · refine .inl ⟨?_, ?_⟩
          · simp [tys, ht, one, binTy, hk0]; omega
          · simp [vals, hv, one, binVal, Val.toInt, hk0, evaluate]
        · refine .inr ⟨j % k, ?_, ?_, ?_, ?_⟩
          · exact Nat.lt_of_le_of_lt (Nat.mod_le j k) hj
          · simp [tys, ht, one, binTy, hk0]
          · simp [vals, hv, one, binVal, hk0]
          · have : ((k : Int)) ≠ 0 := by omega
            simp only [evaluate, he, if_neg this]
            rfl
    | _ => exact hy.elim

/-- Comparison operators. -/
def cmpOp : Model.PoPlural.Op → Option Op
  | .eq => some .eq
  | .ne => some .ne
  | .gt => some .gt
  | .ge => some .ge
  | .lt => some .lt
  | .le => some .le
  | _ => none

theorem cmp_text {m : Int} {a b : List Char} {i j : Int} (ha : NumP m a i) (hb : NumP m b j)
    {o : Model.PoPlural.Op} {p : Op} (ho : cmpOp o = some p) :
    Means (goEnv m) 3 (a ++ goOp o ++ b) (cmpInt p i j = true) := by
  obtain ⟨na, ea, ga, ra⟩ := ha
  obtain ⟨nb, eb, gb, rb⟩ := hb
  have hT : T (a ++ goOp o ++ b) = T a ++ .op p :: T b := by
    have hsep : T (goOp o) = [.op p] ∧ (∃ c, (goOp o).head? = some c ∧ softR c = true) ∧
        ∃ c, (goOp o).getLast? = some c ∧ softL c = true := by
      cases o <;> cases ho <;> exact ⟨by decide, ⟨' ', by decide, by decide⟩, ⟨' ', by decide, by decide⟩⟩
    rw [T_mid _ _ _ hsep.2.1 hsep.2.2, hsep.1]; simp
  have hp : p.prec = 3 := by cases o <;> cases ho <;> rfl
  have hG : Gram p.prec (T a ++ .op p :: T b) (.bin p ea eb) :=
    Gram.bin p (gram_le ga (by omega)) (gram_le gb (by omega))
  rw [hp] at hG
  have fits : ∀ {k : Nat}, k < 2 ^ 63 → k < 9223372036854775808 := fun h => h
  refine ⟨by rw [hT]; simp [na, nb], .bin p ea eb, by rw [hT]; exact hG, ?_, cmpInt p i j, ?_, Iff.rfl⟩
  · rcases ra with ⟨ta, va⟩ | ⟨k, hk, ta, va, rfl⟩ <;> rcases rb with ⟨tb, vb⟩ | ⟨l, hl, tb, vb, rfl⟩ <;>
      cases o <;> cases ho <;> first
        | (have := fits hk; simp [tys, ta, tb, one, binTy, Ty.fits, this]; done)
        | (have := fits hl; simp [tys, ta, tb, one, binTy, Ty.fits, this]; done)
        | (simp [tys, ta, tb, one, binTy, Ty.fits]; done)
  · rcases ra with ⟨ta, va⟩ | ⟨k, hk, ta, va, rfl⟩ <;> rcases rb with ⟨tb, vb⟩ | ⟨l, hl, tb, vb, rfl⟩ <;>
      cases o <;> cases ho <;> simp [vals, va, vb, one, binVal, Val.toInt]

/-- A condition, alone and after `acc && `. -/
def TestP (m : Int) (s : List Char) (P : Prop) : Prop :=
  Means (goEnv m) 2 s P ∧ ∀ {acc : List Char} {Q : Prop}, Means (goEnv m) 2 acc Q →
    Means (goEnv m) 2 (acc ++ " && ".toList ++ s) (Q ∧ P)

theorem testP_of {m : Int} {s : List Char} {P : Prop} (h : Means (goEnv m) 3 s P) : TestP m s P :=
  ⟨h.le (by omega), fun ha => ha.and h⟩

theorem test_text (m : Int) : ∀ {x : Node}, testN x → TestP m (compileBinary x) (evaluate x m = 1)
  | .operand, h => h.elim
  | .value _, h => h.elim
  | .question _ _ _, h => h.elim
  | .binary x o y, h => by
    cases o
    case and =>
      obtain ⟨hx, ax⟩ := test_text m h.1
      obtain ⟨hy, ay⟩ := test_text m h.2
      have hiff : (evaluate x m = 1 ∧ evaluate y m = 1) ↔ evaluate (.binary x .and y) m = 1 := by
        simp [evaluate, truth_eq_one]
      refine ⟨(ay hx).iff hiff, ?_⟩
      intro acc Q hacc
      have := (ay (ax hacc)).iff (Q := Q ∧ evaluate (.binary x .and y) m = 1) (by rw [← hiff, and_assoc])
      have e1 : compileBinary (.binary x .and y) = compileBinary x ++ " && ".toList ++ compileBinary y := rfl
      rw [e1]
      simpa only [List.append_assoc] using this
    case or =>
      obtain ⟨hx, _⟩ := test_text m h.1
      obtain ⟨hy, _⟩ := test_text m h.2
      apply testP_of
      have := ((hx.le (l := 1) (by omega)).or hy).paren
      have h3 := (this.le (l := 3) (by omega)).iff (Q := evaluate (.binary x .or y) m = 1)
        (by simp [evaluate, truth_eq_one])
      have e1 : compileBinary (.binary x .or y) =
          "(".toList ++ compileBinary x ++ " || ".toList ++ compileBinary y ++ ")".toList := rfl
      rw [e1]
      simpa only [List.append_assoc] using h3
    case rem => exact h.elim
    all_goals
      have hx := term_text m h.1
      have hy := term_text m h.2
      apply testP_of
      exact (cmp_text hx hy rfl).iff (by simp [evaluate, truth_eq_one, cmpInt])

/-! ## Functions -/

theorem semis_mid : ∀ (ts : List Tok) (p : Option Tok) (us : List Tok), .nl ∉ ts →
    semis p (ts ++ .lb :: us) = ts ++ .lb :: semis (some .lb) us
  | [], p, us, _ => by simp [semis]
  | t :: ts, p, us, h => by
    have h1 : .nl ∉ ts := fun hm => h (List.mem_cons_of_mem _ hm)
    have h2 : t ≠ .nl := by rintro rfl; exact h (List.mem_cons_self ..)
    rw [List.cons_append, List.cons_append]
    rw [← semis_mid ts (some t) us h1]
    cases t <;> first | exact absurd rfl h2 | rfl

/-- The text is a function body that returns `i`, and it does not begin with a newline. -/
def FunP (m : Int) (s : List Char) (i : Int) : Prop :=
  ∃ toks k, (∀ p, semis p (T s) = toks) ∧ Body toks k ∧ k.terminates = true ∧ k.typed (goEnv m) = true ∧
    k.exec (goEnv m) = .returned i

theorem FunP.function {m : Int} {s : List Char} {i : Int} (h : FunP m s i) : Function (goEnv m) s i := by
  obtain ⟨toks, k, hs, hb, r⟩ := h
  exact ⟨k, by unfold ReadsBody lex; rw [hs]; exact hb, r⟩

theorem return_text {m : Int} {v : Nat} (h : v < 2 ^ 63) {d : List Char} (hd : T d = [.int v]) :
    FunP m ("return ".toList ++ d) v := by
  have hT : T ("return ".toList ++ d) = [.kwReturn, .int v] := by
    rw [T_pre _ _ ⟨' ', by decide, by decide⟩, hd]
    have : T "return ".toList = [.kwReturn] := by decide
    rw [this]; rfl
  have h' : v < 9223372036854775808 := h
  refine ⟨[.kwReturn, .int v], .ret (.int v) .done, ?_, ?_, rfl, ?_, rfl⟩
  · intro p; rw [hT]; rfl
  · exact Body.retLast (gram_le (Gram.int v) (by omega))
  · simp [Code.typed, typeOf, tys, one, h']

theorem if_text {m : Int} {c d rest : List Char} {P : Prop} (hc : Means (goEnv m) 1 c P) {v : Nat} (hv : v < 2 ^ 63)
    (hd : T d = [.int v]) {i : Int} (hr : ¬ P → FunP m rest i) (hr' : ∃ j, FunP m rest j) [Decidable P] :
    FunP m ("if ".toList ++ c ++ "{\nreturn ".toList ++ d ++ "\n}\n".toList ++ rest) (if P then v else i) := by
  obtain ⟨nc, e, ge, te, b, ve, hb⟩ := hc
  have hT : T ("if ".toList ++ c ++ "{\nreturn ".toList ++ d ++ "\n}\n".toList ++ rest) =
      .kwIf :: (T c ++ .lb :: .nl :: .kwReturn :: .int v :: .nl :: .rb :: .nl :: T rest) := by
    rw [T_mid _ _ _ ⟨'\n', by decide, by decide⟩ ⟨'\n', by decide, by decide⟩,
      T_mid _ _ _ ⟨'{', by decide, by decide⟩ ⟨' ', by decide, by decide⟩, T_pre _ _ ⟨' ', by decide, by decide⟩, hd]
    have h1 : T "if ".toList = [.kwIf] := by decide
    have h2 : T "{\nreturn ".toList = [.lb, .nl, .kwReturn] := by decide
    have h3 : T "\n}\n".toList = [.nl, .rb, .nl] := by decide
    rw [h1, h2, h3]
    simp
  have main : ∀ {j : Int}, FunP m rest j → (P ∨ j = i) →
      FunP m ("if ".toList ++ c ++ "{\nreturn ".toList ++ d ++ "\n}\n".toList ++ rest) (if P then v else i) := by
    intro j hj hPj
    obtain ⟨toks, k, hs, hbody, ht, hty, hex⟩ := hj
    refine ⟨.kwIf :: T c ++ .lb :: [.kwReturn, .int v, .semi] ++ .rb :: .semi :: toks,
      .cond e (.ret (.int v) .done) k, ?_, ?_, ?_, ?_, ?_⟩
    · intro p
      rw [hT]
      have e1 : semis p (.kwIf :: (T c ++ .lb :: .nl :: .kwReturn :: .int v :: .nl :: .rb :: .nl :: T rest)) =
        .kwIf :: semis (some .kwIf) (T c ++ .lb :: .nl :: .kwReturn :: .int v :: .nl :: .rb :: .nl :: T rest) := rfl
      rw [e1, semis_mid _ _ _ nc]
      have e2 : semis (some .lb) (.nl :: .kwReturn :: .int v :: .nl :: .rb :: .nl :: T rest) =
        .kwReturn :: .int v :: .semi :: .rb :: .semi :: semis (some .semi) (T rest) := rfl
      rw [e2, hs]
      simp
    · refine Body.cond ge ?_ hbody
      exact Body.ret (us := []) (gram_le (Gram.int v) (by omega)) Body.nil
    · simpa [Code.terminates] using ht
    · have h' : v < 9223372036854775808 := hv
      simp [Code.typed, typeOf, te, one, tys, h', hty]
    · have hval : value (goEnv m) e = some (.bool b) := by simp [value, ve, one]
      by_cases hP : P
      · have : b = true := hb.mpr hP
        subst this
        simp only [Code.exec, hval]
        rw [if_pos hP]
        rfl
      · have : b = false := by
          cases b with
          | false => rfl
          | true => exact absurd (hb.mp rfl) hP
        subst this
        simp only [Code.exec, hval]
        rw [if_neg hP, hex]
        rcases hPj with h | rfl
        · exact absurd h hP
        · rfl
  by_cases hP : P
  · obtain ⟨j, hj⟩ := hr'
    exact main hj (.inl hP)
  · exact main (hr hP) (.inr rfl)

theorem ladder_text (m : Int) : ∀ {x : Node}, ladderN x → FunP m (Model.PoPlural.Generator.compileNode x) (evaluate x m)
  | .operand, h => h.elim
  | .value _, h => h.elim
  | .binary _ _ _, h => h.elim
  | .question c t f, h => by
    obtain ⟨hc, ht, hf⟩ := h
    cases t with
    | value v =>
      obtain ⟨k, rfl⟩ := Int.eq_ofNat_of_zero_le ht.1
      have hk : k < 2 ^ 63 := by have := ht.2; omega
      have hrest : ∃ rest, Model.PoPlural.Generator.compileNode (.question c (.value k) f) =
          "if ".toList ++ compileBinary c ++ "{\nreturn ".toList ++ intDec k ++ "\n}\n".toList ++ rest ∧
          FunP m rest (evaluate f m) := by
        rcases hf with hf | hf
        · cases f with
          | value w =>
            obtain ⟨j, rfl⟩ := Int.eq_ofNat_of_zero_le hf.1
            have hj : j < 2 ^ 63 := by have := hf.2; omega
            refine ⟨"return ".toList ++ intDec j, ?_, return_text hj (T_intDec j)⟩
            simp [Model.PoPlural.Generator.compileNode]
          | _ => exact hf.elim
        · refine ⟨Model.PoPlural.Generator.compileNode f, ?_, ladder_text m hf⟩
          cases f with
          | question c' t' f' => simp [Model.PoPlural.Generator.compileNode]
          | _ => exact hf.elim
      obtain ⟨rest, he, hr⟩ := hrest
      rw [he]
      have := if_text ((test_text m hc).1.le (l := 1) (by omega)) hk (T_intDec k) (fun _ => hr) ⟨_, hr⟩
      exact this
    | _ => exact ht.elim

theorem test_value {x : Node} (h : testN x) (m : Int) : evaluate x m = 0 ∨ evaluate x m = 1 := by
  cases x with
  | binary x o y =>
    have key : ∀ b : Bool, truth b = 0 ∨ truth b = 1 := by intro b; cases b <;> simp [truth]
    cases o
    case rem => exact h.elim
    all_goals exact key _
  | _ => exact h.elim

open Verif.Spec.PoPlural in
theorem generated {text : List Char} {k : Nat} {e : Spec.PoPlural.Expr} (h : Formula text k e) (hk : k < 2 ^ 63)
    (hs : Small e) (hu : Usual k e) {m v : Int} (hv : cval e m = some v) (h0 : k = 1 → v = 0) :
    ∃ s, compiled text = some s ∧ Function (goEnv m) s v := by
  obtain ⟨n, hp, hre⟩ := astParse_complete h
  have hsat : sat k = k := by simp only [sat, if_pos hk]
  refine ⟨compileForms ⟨sat k, n⟩, by simp only [compiled, hp], ?_⟩
  rw [hsat]
  rcases hu with rfl | ⟨rfl, ht⟩ | ⟨h3, hl⟩
  · rw [h0 rfl]
    have e1 : compileForms ⟨((1 : Nat) : Int), n⟩ = "return ".toList ++ intDec (0 : Nat) := by
      simp [compileForms]; decide
    rw [e1]
    exact (return_text (v := 0) (by decide) (T_intDec 0)).function
  · have hn : testN n := (re_shape hre).2.2.2.1.mp (test_node ht hs)
    have hev : evaluate n m = v := by rw [← hre.eval m]; exact eval_cval hs (test_boolean ht).2 hv
    have h01 := test_value hn m
    have e1 : compileForms ⟨((2 : Nat) : Int), n⟩ = "if ".toList ++ compileBinary n ++ "{\nreturn ".toList ++ intDec (1 : Nat) ++
        "\n}\n".toList ++ ("return ".toList ++ intDec (0 : Nat)) := by
      have a1 : intDec (1 : Nat) = "1".toList := by decide
      have a0 : intDec (0 : Nat) = "0".toList := by decide
      rw [a1, a0]
      simp [compileForms]
    rw [e1]
    have := if_text ((test_text m hn).1.le (l := 1) (by omega)) (v := 1) (by decide) (T_intDec 1)
      (i := 0) (fun _ => return_text (v := 0) (by decide) (T_intDec 0)) ⟨_, return_text (v := 0) (by decide) (T_intDec 0)⟩
    have hvv : (if evaluate n m = 1 then ((1 : Nat) : Int) else 0) = v := by
      rw [← hev]
      rcases h01 with h | h <;> simp [h]
    rw [hvv] at this
    exact this.function
  · have hn : ladderN n := (re_shape hre).2.2.2.2.mp (ladder_node hl hs)
    have hev : evaluate n m = v := by rw [← hre.eval m]; exact eval_cval hs (ladder_boolean hl) hv
    have e1 : compileForms ⟨(k : Int), n⟩ = Model.PoPlural.Generator.compileNode n := by
      have a : ¬ ((k : Int) ≤ 1) := by omega
      have b : ¬ ((k : Int) = 2) := by omega
      simp only [compileForms, if_neg a, if_neg b]
    rw [e1, ← hev]
    exact (ladder_text m hn).function

end Verif.Proofs.PoPlural.Generator
