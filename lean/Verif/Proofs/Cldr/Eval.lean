import Verif.Proofs.Cldr.Parse
import Verif.Proofs.Cldr.Tables
/-! The interpreter evaluates a parsed condition as the specification says. -/
namespace Verif.Proofs.Cldr
open Verif.Go Verif.Model.Cldr Verif.Spec.Cldr Verif.Cldr

/-- Integer operands that float64 represents exactly. -/
structure Exact (o : Ops) : Prop where
  i : o.i < 2 ^ 53
  v : o.v < 2 ^ 53
  w : o.w < 2 ^ 53
  f : o.f < 2 ^ 53
  t : o.t < 2 ^ 53
  e : o.e < 2 ^ 53

theorem nv_ofInt {k : Nat} (h : k < 2 ^ 53) : NV (F64.ofInt k) (some k) := by
  refine ⟨fInt k, 0, rfl, ?_⟩
  rw [fInt_small (by omega) (by omega)]
  simp [fUpper, fLower]

theorem intMod_nat {k m : Nat} (h0 : 0 < m) (hm : m < 2 ^ 53) :
    ∃ x, intMod k m = .ok x ∧ NV x (some (k % m)) := by
  refine ⟨F64.ofInt ((k : Int).tmod m), ?_, ?_⟩
  · unfold intMod; rw [if_neg (by omega)]
  · have : (k : Int).tmod m = ((k % m : Nat) : Int) := (Int.ofNat_tmod k m).symm
    rw [this]
    exact nv_ofInt (Nat.lt_trans (Nat.mod_lt _ h0) hm)

theorem qv_mod (k m : Nat) : QV ((⟨k, 1⟩ : Q).mod m) (some (k % m)) := by
  have := (qv_nat k).mod m
  exact this

theorem expr_eval {ops : Operands} {o : Ops} {nv : Option Nat} (h : Match ops o nv) (hx : Exact o) {r : Rel}
    (hw : r.WF (2 ^ 53)) :
    ∃ x nv', evaluateExpression (astExpr r) ops = .ok x ∧ NV x nv' ∧ QV (r.value o) nv' := by
  unfold astExpr Rel.value
  cases hm : r.mod with
  | none =>
    simp only [evaluateExpression]
    cases r.opd with
    | n => exact ⟨ops.n, nv, rfl, h.n, h.q⟩
    | i => exact ⟨_, _, rfl, by rw [h.i]; exact nv_ofInt hx.i, qv_nat _⟩
    | v => exact ⟨_, _, rfl, by rw [h.v]; exact nv_ofInt hx.v, qv_nat _⟩
    | w => exact ⟨_, _, rfl, by rw [h.w]; exact nv_ofInt hx.w, qv_nat _⟩
    | f => exact ⟨_, _, rfl, by rw [h.f]; exact nv_ofInt hx.f, qv_nat _⟩
    | t => exact ⟨_, _, rfl, by rw [h.t]; exact nv_ofInt hx.t, qv_nat _⟩
    | e => exact ⟨_, _, rfl, by rw [h.c]; exact nv_ofInt hx.e, qv_nat _⟩
  | some m =>
    obtain ⟨h0, hlt⟩ := hw.2.2 m hm
    simp only [evaluateExpression]
    cases r.opd with
    | n => exact ⟨_, _, rfl, h.n.mod h0 hlt, h.q.mod m⟩
    | i =>
      obtain ⟨x, e, n⟩ := intMod_nat (k := o.i) h0 hlt
      exact ⟨x, _, by rw [← h.i] at e; exact e, n, qv_mod _ _⟩
    | v =>
      obtain ⟨x, e, n⟩ := intMod_nat (k := o.v) h0 hlt
      exact ⟨x, _, by rw [← h.v] at e; exact e, n, qv_mod _ _⟩
    | w =>
      obtain ⟨x, e, n⟩ := intMod_nat (k := o.w) h0 hlt
      exact ⟨x, _, by rw [← h.w] at e; exact e, n, qv_mod _ _⟩
    | f =>
      obtain ⟨x, e, n⟩ := intMod_nat (k := o.f) h0 hlt
      exact ⟨x, _, by rw [← h.f] at e; exact e, n, qv_mod _ _⟩
    | t =>
      obtain ⟨x, e, n⟩ := intMod_nat (k := o.t) h0 hlt
      exact ⟨x, _, by rw [← h.t] at e; exact e, n, qv_mod _ _⟩
    | e =>
      obtain ⟨x, e, n⟩ := intMod_nat (k := o.e) h0 hlt
      exact ⟨x, _, by rw [← h.c] at e; exact e, n, qv_mod _ _⟩

theorem item_eval {x : F64} {nv : Option Nat} (hn : NV x nv) {q : Q} (hq : QV q nv) {it : Nat × Option Nat}
    (hw : itemWF (2 ^ 53) it) : ∃ b, itemMatches x (astItem it) = .ok b ∧ (b = true ↔ q.In it) := by
  obtain ⟨lo, hi⟩ := it
  cases hi with
  | none =>
    have hlo : lo < 2 ^ 53 := hw
    exact ⟨_, rfl, by rw [hn.eqInt hlo, hq.in_none]⟩
  | some hi =>
    obtain ⟨h1, h2, h3⟩ := (hw : lo ≤ hi ∧ 0 < hi ∧ hi < 2 ^ 53)
    have hr : isFloatInRange x [((lo : Int), (hi : Int))] = true ↔ q.In (lo, some hi) := by
      rw [hn.range_cons (by omega) (by omega) (by omega), hq.in_some]
      simp [range_nil]
    simp only [astItem, itemMatches]
    by_cases hb : isFloatInRange x [((lo : Int), (hi : Int))] = true
    · exact ⟨true, by rw [if_pos hb], by simp [hr.mp hb]⟩
    · refine ⟨false, ?_, ?_⟩
      · rw [if_neg hb, if_neg (by omega)]
      · have := mt hr.mpr hb
        simp [this]

theorem items_eval {x : F64} {nv : Option Nat} (hn : NV x nv) {q : Q} (hq : QV q nv) :
    ∀ (its : List (Nat × Option Nat)), (∀ it ∈ its, itemWF (2 ^ 53) it) →
      ∃ b, anyItem x (its.map astItem) = .ok b ∧ (b = true ↔ ∃ it ∈ its, q.In it)
  | [], _ => ⟨false, rfl, by simp⟩
  | it :: its, hw => by
    obtain ⟨b, hb, hbi⟩ := item_eval hn hq (hw it List.mem_cons_self)
    obtain ⟨c, hc, hci⟩ := items_eval hn hq its fun y hy => hw y (List.mem_cons_of_mem _ hy)
    refine ⟨b || c, ?_, ?_⟩
    · simp only [List.map_cons, anyItem, hb, hc, bind, Except.bind]
    · simp [Bool.or_eq_true, hbi, hci]

theorem rel_eval {ops : Operands} {o : Ops} {nv : Option Nat} (h : Match ops o nv) (hx : Exact o) {r : Rel}
    (hw : r.WF (2 ^ 53)) : ∃ b, evaluateNode (astRel r) ops = .ok b ∧ (b = true ↔ r.Holds o) := by
  obtain ⟨x, nv', he, hn, hq⟩ := expr_eval h hx hw
  obtain ⟨b, hb, hbi⟩ := items_eval hn hq r.items hw.2.1
  refine ⟨if r.neg then !b else b, ?_, ?_⟩
  · simp only [astRel, evaluateNode, he, hb, bind, Except.bind]
  · unfold Rel.Holds
    cases r.neg
    · simpa using hbi
    · simp only [if_true, ← hbi]
      simp

theorem conj_eval {ops : Operands} {o : Ops} {nv : Option Nat} (h : Match ops o nv) (hx : Exact o) :
    ∀ (c : List Rel), c ≠ [] → (∀ r ∈ c, r.WF (2 ^ 53)) →
      ∃ b, evaluateNode (astConj c) ops = .ok b ∧ (b = true ↔ ∀ r ∈ c, r.Holds o)
  | [], h0, _ => absurd rfl h0
  | [r], _, hw => by
    obtain ⟨b, hb, hbi⟩ := rel_eval h hx (hw r List.mem_cons_self)
    exact ⟨b, hb, by simpa using hbi⟩
  | r :: r' :: rs, _, hw => by
    obtain ⟨b, hb, hbi⟩ := rel_eval h hx (hw r List.mem_cons_self)
    obtain ⟨c, hc, hci⟩ := conj_eval h hx (r' :: rs) (by simp) fun y hy => hw y (List.mem_cons_of_mem _ hy)
    refine ⟨b && c, ?_, ?_⟩
    · simp only [astConj, evaluateNode, hb, hc, bind, Except.bind]
    · simp only [Bool.and_eq_true, hbi, hci, List.mem_cons, forall_eq_or_imp]

theorem cond_eval {ops : Operands} {o : Ops} {nv : Option Nat} (h : Match ops o nv) (hx : Exact o) :
    ∀ (c : Cond), c ≠ [] → (∀ conj ∈ c, conj ≠ [] ∧ ∀ r ∈ conj, r.WF (2 ^ 53)) →
      ∃ b, evaluateNode (astCond c) ops = .ok b ∧ (b = true ↔ c.Holds o)
  | [], h0, _ => absurd rfl h0
  | [c], _, hw => by
    have hc := hw c List.mem_cons_self
    obtain ⟨b, hb, hbi⟩ := conj_eval h hx c hc.1 hc.2
    exact ⟨b, hb, by simpa [Cond.Holds] using hbi⟩
  | c :: c' :: cs, _, hw => by
    have hc := hw c List.mem_cons_self
    obtain ⟨b, hb, hbi⟩ := conj_eval h hx c hc.1 hc.2
    obtain ⟨d, hd, hdi⟩ := cond_eval h hx (c' :: cs) (by simp) fun y hy => hw y (List.mem_cons_of_mem _ hy)
    refine ⟨b || d, ?_, ?_⟩
    · simp only [astCond, evaluateNode, hb, hd, bind, Except.bind]
    · rw [Bool.or_eq_true, hbi, hdi]
      simp only [Cond.Holds, List.mem_cons, exists_eq_or_imp]

/-! ## The form function does not depend on the order -/

/-- The parsed rules of a rule list. -/
def astRules (rules : List (Category × Cond)) : List (Category × Rule) :=
  rules.map fun r => (r.1, ⟨some (astCond r.2), []⟩)

theorem formFunc_selects {ops : Operands} {o : Ops} {nv : Option Nat} (h : Match ops o nv) (hx : Exact o) :
    ∀ rules : List (Category × Cond), (∀ r ∈ rules, r.2.WF (2 ^ 53)) →
      ∃ c, formFunc (astRules rules) ops = .ok c ∧ Selects o rules c
  | [], _ => ⟨.other, rfl, .other⟩
  | (cat, cond) :: rules, hw => by
    have hc := hw _ List.mem_cons_self
    obtain ⟨b, hb, hbi⟩ := cond_eval h hx cond hc.1 hc.2
    obtain ⟨c, hf, hs⟩ := formFunc_selects h hx rules fun y hy => hw y (List.mem_cons_of_mem _ hy)
    unfold astRules at hf ⊢
    simp only [List.map_cons, formFunc, evaluate, hb, bind, Except.bind]
    cases b with
    | true => exact ⟨cat, by simp, .hit (hbi.mp rfl)⟩
    | false =>
      refine ⟨c, by simpa using hf, .skip (fun hh => ?_) hs⟩
      have := hbi.mpr hh
      cases this

/-- At most one rule holds. -/
def Exclusive (o : Ops) (rules : List (Category × Cond)) : Prop :=
  rules.Pairwise fun a b => ¬ (a.2.Holds o ∧ b.2.Holds o)

theorem selects_of_mem {o : Ops} {r : Category × Cond} : ∀ {rules : List (Category × Cond)}, Exclusive o rules →
    r ∈ rules → r.2.Holds o → ∀ {c}, Selects o rules c → c = r.1
  | [], _, hm, _, _, _ => by cases hm
  | x :: rules, he, hm, hh, c, hs => by
    cases hs with
    | hit hx =>
      rcases List.mem_cons.mp hm with rfl | hm
      · rfl
      · exact absurd ⟨hx, hh⟩ ((List.pairwise_cons.mp he).1 r hm)
    | skip hx hs =>
      rcases List.mem_cons.mp hm with rfl | hm
      · exact absurd hh hx
      · exact selects_of_mem (List.pairwise_cons.mp he).2 hm hh hs

theorem selects_mem {o : Ops} : ∀ {rules : List (Category × Cond)} {c}, Selects o rules c →
    (c = .other ∧ ∀ r ∈ rules, ¬ r.2.Holds o) ∨ ∃ r ∈ rules, r.2.Holds o ∧ r.1 = c
  | [], _, .other => Or.inl ⟨rfl, by simp⟩
  | _ :: _, _, .hit h => Or.inr ⟨_, List.mem_cons_self, h, rfl⟩
  | _ :: _, _, .skip h hs => by
    rcases selects_mem hs with ⟨rfl, hn⟩ | ⟨r, hr, hh, he⟩
    · refine Or.inl ⟨rfl, ?_⟩
      intro r hr
      rcases List.mem_cons.mp hr with rfl | hr
      · exact h
      · exact hn r hr
    · exact Or.inr ⟨r, List.mem_cons_of_mem _ hr, hh, he⟩

theorem Exclusive.perm {o : Ops} {a b : List (Category × Cond)} (h : Exclusive o a) (hp : a.Perm b) :
    Exclusive o b :=
  hp.pairwise h fun h => fun h' => h h'.symm

theorem selects_perm {o : Ops} {a b : List (Category × Cond)} (h : Exclusive o a) (hp : a.Perm b) {c d : Category}
    (ha : Selects o a c) (hb : Selects o b d) : c = d := by
  rcases selects_mem ha with ⟨rfl, hn⟩ | ⟨r, hr, hh, rfl⟩
  · rcases selects_mem hb with ⟨rfl, _⟩ | ⟨r, hr, hh, rfl⟩
    · rfl
    · exact absurd hh (hn r (hp.mem_iff.mpr hr))
  · exact (selects_of_mem (h.perm hp) (hp.mem_iff.mp hr) hh hb).symm

/-! ## The published rules -/

instance (b : Nat) (it : Nat × Option Nat) : Decidable (itemWF b it) :=
  match it with
  | (_, none) => inferInstanceAs (Decidable (_ < _))
  | (_, some _) => inferInstanceAs (Decidable (_ ∧ _ ∧ _))

def itemOk (b : Nat) (it : Nat × Option Nat) : Bool := decide (itemWF b it)

def relOk (b : Nat) (r : Rel) : Bool :=
  !r.items.isEmpty && r.items.all (itemOk b) &&
    (match r.mod with | none => true | some m => decide (0 < m) && decide (m < b))

def condOk (b : Nat) (c : Cond) : Bool := !c.isEmpty && c.all fun conj => !conj.isEmpty && conj.all (relOk b)

theorem relOk_wf {b : Nat} {r : Rel} (h : relOk b r = true) : r.WF b := by
  simp only [relOk, Bool.and_eq_true, Bool.not_eq_true', List.isEmpty_eq_false_iff, List.all_eq_true, itemOk,
    decide_eq_true_eq] at h
  refine ⟨h.1.1, h.1.2, ?_⟩
  intro m hm
  have := h.2
  rw [hm] at this
  simpa using this

theorem condOk_wf {b : Nat} {c : Cond} (h : condOk b c = true) : c.WF b := by
  simp only [condOk, Bool.and_eq_true, Bool.not_eq_true', List.isEmpty_eq_false_iff, List.all_eq_true] at h
  exact ⟨h.1, fun x hx => ⟨(h.2 x hx).1, fun r hr => relOk_wf ((h.2 x hx).2 r hr)⟩⟩

theorem published_wf : ∀ p ∈ published, ∀ r ∈ p.rules, r.2.WF (2 ^ 53) := by
  have : ∀ p ∈ published, ∀ r ∈ p.rules, condOk (2 ^ 53) r.2 = true := by decide +kernel
  exact fun p hp r hr => condOk_wf (this p hp r hr)

theorem publishedFor_eq : publishedFor.map (·.2) = published := rfl

end Verif.Proofs.Cldr
