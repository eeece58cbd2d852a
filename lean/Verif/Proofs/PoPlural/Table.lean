import Verif.Proofs.PoPlural.Compile
/-! The built-in table: each key parses, and the built-in function is the value of the parse.
The trees are literals so that the kernel can compare them with the parse of the key. -/
namespace Verif.Proofs.PoPlural
open Verif.Model.PoPlural
instance : DecidableEq (Except PErr Forms) := fun a b =>
  match a, b with
  | .ok x, .ok y => if h : x = y then isTrue (by rw [h]) else isFalse (by simpa using h)
  | .error x, .error y => if h : x = y then isTrue (by rw [h]) else isFalse (by simpa using h)
  | .ok _, .error _ => isFalse (by simp)
  | .error _, .ok _ => isFalse (by simp)

theorem ev_and (x y : Node) (m : Int) :
    evaluate (.binary x .and y) m = 1 ↔ evaluate x m = 1 ∧ evaluate y m = 1 := by
  simp [evaluate, truth_eq_one]
theorem ev_or (x y : Node) (m : Int) :
    evaluate (.binary x .or y) m = 1 ↔ evaluate x m = 1 ∨ evaluate y m = 1 := by
  simp [evaluate, truth_eq_one]
theorem ev_eq (x y : Node) (m : Int) :
    evaluate (.binary x .eq y) m = 1 ↔ evaluate x m = evaluate y m := by
  simp [evaluate, truth_eq_one]
theorem ev_ne (x y : Node) (m : Int) :
    evaluate (.binary x .ne y) m = 1 ↔ evaluate x m ≠ evaluate y m := by
  simp [evaluate, truth_eq_one]
theorem ev_gt (x y : Node) (m : Int) :
    evaluate (.binary x .gt y) m = 1 ↔ evaluate x m > evaluate y m := by
  simp [evaluate, truth_eq_one]
theorem ev_ge (x y : Node) (m : Int) :
    evaluate (.binary x .ge y) m = 1 ↔ evaluate x m ≥ evaluate y m := by
  simp [evaluate, truth_eq_one]
theorem ev_lt (x y : Node) (m : Int) :
    evaluate (.binary x .lt y) m = 1 ↔ evaluate x m < evaluate y m := by
  simp [evaluate, truth_eq_one]
theorem ev_le (x y : Node) (m : Int) :
    evaluate (.binary x .le y) m = 1 ↔ evaluate x m ≤ evaluate y m := by
  simp [evaluate, truth_eq_one]
theorem ev_rem (x : Node) (k m : Int) (h : k ≠ 0) :
    evaluate (.binary x .rem (.value k)) m = (evaluate x m).tmod k := by
  simp [evaluate, h]
theorem ev_value (k m : Int) : evaluate (.value k) m = k := by simp [evaluate]
theorem ev_operand (m : Int) : evaluate .operand m = m := by simp [evaluate]

theorem q_cong {p : Prop} [Decidable p] {c t f : Node} {a b m : Int} (h : p ↔ evaluate c m = 1)
    (h1 : a = evaluate t m) (h2 : b = evaluate f m) :
    (if p then a else b) = evaluate (.question c t f) m := by
  by_cases hp : p
  · simp [evaluate, hp, h.mp hp, h1]
  · have hc : ¬ evaluate c m = 1 := fun hq => hp (h.mpr hq)
    simp [evaluate, hp, hc, h2]

theorem b_cong {p : Prop} [Decidable p] {x y : Node} {o : Op} {m : Int}
    (h : p ↔ evaluate (.binary x o y) m = 1) (ho : o ≠ .rem) :
    (if p then 1 else 0) = evaluate (.binary x o y) m := by
  have h01 : ∀ b, truth b = 0 ∨ truth b = 1 := by intro b; cases b <;> simp [truth]
  have : evaluate (.binary x o y) m = 0 ∨ evaluate (.binary x o y) m = 1 := by
    cases o
    case rem => exact absurd rfl ho
    all_goals (simp only [evaluate]; exact h01 _)
  by_cases hp : p
  · rw [if_pos hp, h.mp hp]
  · rw [if_neg hp]
    rcases this with e | e
    · exact e.symm
    · exact absurd (h.mpr e) hp

/-- A condition of the built-in function is the condition of the tree. -/
macro "cond_tac" : tactic => `(tactic| first
    | (simp only [ev_and, ev_or, ev_eq, ev_ne, ev_gt, ev_ge, ev_lt, ev_le, ev_rem, ev_value,
        ev_operand, ne_eq, Int.reduceEq, not_false_eq_true, and_assoc, or_assoc]; done)
    | (simp only [ev_and, ev_or, ev_eq, ev_ne, ev_gt, ev_ge, ev_lt, ev_le, ev_rem, ev_value,
        ev_operand, ne_eq, Int.reduceEq, not_false_eq_true]; omega))

/-- Both sides are nested conditionals over the same conditions. -/
macro "entry_tac" : tactic => `(tactic| (
  repeat (refine q_cong (by cond_tac) (ev_value _ _).symm ?_)
  first | exact (ev_value _ _).symm | exact b_cong (by cond_tac) (by decide)))


/-- A table entry is right: its key parses, and the function computes what the parse computes. -/
def EntryOK (p : List Char × Rule) : Prop :=
  ∃ f, astParse p.1 = .ok f ∧ f.nPlurals = p.2.nPlurals ∧ ∀ m, p.2.form m = evaluate f.root m

def node0 : Node :=
    .value 0

theorem entry0 : EntryOK (rawTable[0]'(by decide)) := by
  refine ⟨⟨1, node0⟩, by decide +kernel, rfl, ?_⟩
  intro m
  show rule_bm.form m = _
  unfold rule_bm node0
  simp only []
  entry_tac

def node1 : Node :=
    .binary .operand .ne (.value 1)

theorem entry1 : EntryOK (rawTable[1]'(by decide)) := by
  refine ⟨⟨2, node1⟩, by decide +kernel, rfl, ?_⟩
  intro m
  show rule_af.form m = _
  unfold rule_af node1
  simp only []
  entry_tac

def node2 : Node :=
    .binary .operand .gt (.value 1)

theorem entry2 : EntryOK (rawTable[2]'(by decide)) := by
  refine ⟨⟨2, node2⟩, by decide +kernel, rfl, ?_⟩
  intro m
  show rule_ak.form m = _
  unfold rule_ak node2
  simp only []
  entry_tac

def node3 : Node :=
    .binary (.binary (.binary .operand .ne (.value 1)) .and (.binary (.binary .operand .ne
    (.value 2)) .and (.binary .operand .ne (.value 3)))) .and (.binary (.binary (.binary
    (.binary .operand .rem (.value 10)) .eq (.value 4)) .or (.binary (.binary .operand .rem
    (.value 10)) .eq (.value 6))) .or (.binary (.binary .operand .rem (.value 10)) .eq (.value
    9)))

theorem entry3 : EntryOK (rawTable[3]'(by decide)) := by
  refine ⟨⟨2, node3⟩, by decide +kernel, rfl, ?_⟩
  intro m
  show rule_ceb.form m = _
  unfold rule_ceb node3
  simp only []
  entry_tac

def node4 : Node :=
    .binary (.binary (.binary .operand .rem (.value 10)) .ne (.value 1)) .or (.binary (.binary
    .operand .rem (.value 100)) .eq (.value 11))

theorem entry4 : EntryOK (rawTable[4]'(by decide)) := by
  refine ⟨⟨2, node4⟩, by decide +kernel, rfl, ?_⟩
  intro m
  show rule_is.form m = _
  unfold rule_is node4
  simp only []
  entry_tac

def node5 : Node :=
    .binary (.binary .operand .ge (.value 2)) .and (.binary (.binary .operand .lt (.value 11))
    .or (.binary .operand .gt (.value 99)))

theorem entry5 : EntryOK (rawTable[5]'(by decide)) := by
  refine ⟨⟨2, node5⟩, by decide +kernel, rfl, ?_⟩
  intro m
  show rule_tzm.form m = _
  unfold rule_tzm node5
  simp only []
  entry_tac

def node6 : Node :=
    .binary (.binary (.binary (.binary .operand .eq (.value 1)) .or (.binary .operand .eq
    (.value 2))) .or (.binary .operand .eq (.value 3))) .or (.binary (.binary (.binary (.binary
    .operand .rem (.value 10)) .ne (.value 4)) .and (.binary (.binary .operand .rem (.value 10))
    .ne (.value 6))) .and (.binary (.binary .operand .rem (.value 10)) .ne (.value 9)))

theorem entry6 : EntryOK (rawTable[6]'(by decide)) := by
  refine ⟨⟨2, node6⟩, by decide +kernel, rfl, ?_⟩
  intro m
  show inline1.form m = _
  unfold inline1 node6
  simp only []
  entry_tac

def node7 : Node :=
    .binary (.binary .operand .le (.value 1)) .or (.binary (.binary .operand .ge (.value 11))
    .and (.binary .operand .le (.value 99)))

theorem entry7 : EntryOK (rawTable[7]'(by decide)) := by
  refine ⟨⟨2, node7⟩, by decide +kernel, rfl, ?_⟩
  intro m
  show inline2.form m = _
  unfold inline2 node7
  simp only []
  entry_tac

def node8 : Node :=
    .binary (.binary .operand .eq (.value 0)) .or (.binary .operand .eq (.value 1))

theorem entry8 : EntryOK (rawTable[8]'(by decide)) := by
  refine ⟨⟨2, node8⟩, by decide +kernel, rfl, ?_⟩
  intro m
  show inline3.form m = _
  unfold inline3 node8
  simp only []
  entry_tac

def node9 : Node :=
    .binary (.binary (.binary .operand .rem (.value 10)) .eq (.value 1)) .and (.binary (.binary
    .operand .rem (.value 100)) .ne (.value 11))

theorem entry9 : EntryOK (rawTable[9]'(by decide)) := by
  refine ⟨⟨2, node9⟩, by decide +kernel, rfl, ?_⟩
  intro m
  show inline4.form m = _
  unfold inline4 node9
  simp only []
  entry_tac

def node10 : Node :=
    .question (.binary (.binary (.binary .operand .rem (.value 10)) .eq (.value 1)) .and
    (.binary (.binary .operand .rem (.value 100)) .ne (.value 11))) (.value 0) (.question
    (.binary (.binary (.binary (.binary .operand .rem (.value 10)) .ge (.value 2)) .and (.binary
    (.binary .operand .rem (.value 10)) .le (.value 4))) .and (.binary (.binary (.binary
    .operand .rem (.value 100)) .lt (.value 12)) .or (.binary (.binary .operand .rem (.value
    100)) .gt (.value 14)))) (.value 1) (.value 2))

theorem entry10 : EntryOK (rawTable[10]'(by decide)) := by
  refine ⟨⟨3, node10⟩, by decide +kernel, rfl, ?_⟩
  intro m
  show rule_be.form m = _
  unfold rule_be node10
  simp only []
  entry_tac

def node11 : Node :=
    .question (.binary .operand .eq (.value 0)) (.value 0) (.question (.binary .operand .eq
    (.value 1)) (.value 1) (.value 2))

theorem entry11 : EntryOK (rawTable[11]'(by decide)) := by
  refine ⟨⟨3, node11⟩, by decide +kernel, rfl, ?_⟩
  intro m
  show rule_blo.form m = _
  unfold rule_blo node11
  simp only []
  entry_tac

def node12 : Node :=
    .question (.binary .operand .eq (.value 1)) (.value 0) (.question (.binary (.binary .operand
    .ne (.value 0)) .and (.binary (.binary .operand .rem (.value 1000000)) .eq (.value 0)))
    (.value 1) (.value 2))

theorem entry12 : EntryOK (rawTable[12]'(by decide)) := by
  refine ⟨⟨3, node12⟩, by decide +kernel, rfl, ?_⟩
  intro m
  show rule_ca.form m = _
  unfold rule_ca node12
  simp only []
  entry_tac

def node13 : Node :=
    .question (.binary .operand .eq (.value 1)) (.value 0) (.question (.binary (.binary .operand
    .ge (.value 2)) .and (.binary .operand .le (.value 4))) (.value 1) (.value 2))

theorem entry13 : EntryOK (rawTable[13]'(by decide)) := by
  refine ⟨⟨3, node13⟩, by decide +kernel, rfl, ?_⟩
  intro m
  show rule_cs.form m = _
  unfold rule_cs node13
  simp only []
  entry_tac

def node14 : Node :=
    .question (.binary (.binary .operand .eq (.value 0)) .or (.binary .operand .eq (.value 1)))
    (.value 0) (.question (.binary (.binary .operand .ne (.value 0)) .and (.binary (.binary
    .operand .rem (.value 1000000)) .eq (.value 0))) (.value 1) (.value 2))

theorem entry14 : EntryOK (rawTable[14]'(by decide)) := by
  refine ⟨⟨3, node14⟩, by decide +kernel, rfl, ?_⟩
  intro m
  show rule_fr.form m = _
  unfold rule_fr node14
  simp only []
  entry_tac

def node15 : Node :=
    .question (.binary .operand .eq (.value 1)) (.value 0) (.question (.binary .operand .eq
    (.value 2)) (.value 1) (.value 2))

theorem entry15 : EntryOK (rawTable[15]'(by decide)) := by
  refine ⟨⟨3, node15⟩, by decide +kernel, rfl, ?_⟩
  intro m
  show rule_he.form m = _
  unfold rule_he node15
  simp only []
  entry_tac

def node16 : Node :=
    .question (.binary (.binary (.binary .operand .rem (.value 10)) .eq (.value 1)) .and
    (.binary (.binary (.binary .operand .rem (.value 100)) .lt (.value 11)) .or (.binary
    (.binary .operand .rem (.value 100)) .gt (.value 19)))) (.value 0) (.question (.binary
    (.binary (.binary (.binary .operand .rem (.value 10)) .ge (.value 2)) .and (.binary (.binary
    .operand .rem (.value 10)) .le (.value 9))) .and (.binary (.binary (.binary .operand .rem
    (.value 100)) .lt (.value 11)) .or (.binary (.binary .operand .rem (.value 100)) .gt (.value
    19)))) (.value 1) (.value 2))

theorem entry16 : EntryOK (rawTable[16]'(by decide)) := by
  refine ⟨⟨3, node16⟩, by decide +kernel, rfl, ?_⟩
  intro m
  show rule_lt.form m = _
  unfold rule_lt node16
  simp only []
  entry_tac

def node17 : Node :=
    .question (.binary (.binary (.binary .operand .rem (.value 10)) .eq (.value 0)) .or (.binary
    (.binary (.binary .operand .rem (.value 100)) .ge (.value 11)) .and (.binary (.binary
    .operand .rem (.value 100)) .le (.value 19)))) (.value 0) (.question (.binary (.binary
    (.binary .operand .rem (.value 10)) .eq (.value 1)) .and (.binary (.binary .operand .rem
    (.value 100)) .ne (.value 11))) (.value 1) (.value 2))

theorem entry17 : EntryOK (rawTable[17]'(by decide)) := by
  refine ⟨⟨3, node17⟩, by decide +kernel, rfl, ?_⟩
  intro m
  show rule_lv.form m = _
  unfold rule_lv node17
  simp only []
  entry_tac

def node18 : Node :=
    .question (.binary .operand .eq (.value 1)) (.value 0) (.question (.binary (.binary (.binary
    (.binary .operand .rem (.value 10)) .ge (.value 2)) .and (.binary (.binary .operand .rem
    (.value 10)) .le (.value 4))) .and (.binary (.binary (.binary .operand .rem (.value 100))
    .lt (.value 12)) .or (.binary (.binary .operand .rem (.value 100)) .gt (.value 14))))
    (.value 1) (.value 2))

theorem entry18 : EntryOK (rawTable[18]'(by decide)) := by
  refine ⟨⟨3, node18⟩, by decide +kernel, rfl, ?_⟩
  intro m
  show rule_pl.form m = _
  unfold rule_pl node18
  simp only []
  entry_tac

def node19 : Node :=
    .question (.binary .operand .eq (.value 1)) (.value 0) (.question (.binary (.binary .operand
    .eq (.value 0)) .or (.binary (.binary (.binary .operand .ne (.value 1)) .and (.binary
    (.binary .operand .rem (.value 100)) .ge (.value 1))) .and (.binary (.binary .operand .rem
    (.value 100)) .le (.value 19)))) (.value 1) (.value 2))

theorem entry19 : EntryOK (rawTable[19]'(by decide)) := by
  refine ⟨⟨3, node19⟩, by decide +kernel, rfl, ?_⟩
  intro m
  show rule_ro.form m = _
  unfold rule_ro node19
  simp only []
  entry_tac

def node20 : Node :=
    .question (.binary (.binary .operand .eq (.value 0)) .or (.binary .operand .eq (.value 1)))
    (.value 0) (.question (.binary (.binary .operand .ge (.value 2)) .and (.binary .operand .le
    (.value 10))) (.value 1) (.value 2))

theorem entry20 : EntryOK (rawTable[20]'(by decide)) := by
  refine ⟨⟨3, node20⟩, by decide +kernel, rfl, ?_⟩
  intro m
  show rule_shi.form m = _
  unfold rule_shi node20
  simp only []
  entry_tac

def node21 : Node :=
    .question (.binary .operand .eq (.value 0)) (.value 0) (.question (.binary (.binary (.binary
    .operand .eq (.value 0)) .or (.binary .operand .eq (.value 1))) .and (.binary .operand .ne
    (.value 0))) (.value 1) (.value 2))

theorem entry21 : EntryOK (rawTable[21]'(by decide)) := by
  refine ⟨⟨3, node21⟩, by decide +kernel, rfl, ?_⟩
  intro m
  show inline5.form m = _
  unfold inline5 node21
  simp only []
  entry_tac

def node22 : Node :=
    .question (.binary (.binary .operand .rem (.value 100)) .eq (.value 1)) (.value 0)
    (.question (.binary (.binary .operand .rem (.value 100)) .eq (.value 2)) (.value 1)
    (.question (.binary (.binary (.binary .operand .rem (.value 100)) .eq (.value 3)) .or
    (.binary (.binary .operand .rem (.value 100)) .eq (.value 4))) (.value 2) (.value 3)))

theorem entry22 : EntryOK (rawTable[22]'(by decide)) := by
  refine ⟨⟨4, node22⟩, by decide +kernel, rfl, ?_⟩
  intro m
  show rule_dsb.form m = _
  unfold rule_dsb node22
  simp only []
  entry_tac

def node23 : Node :=
    .question (.binary (.binary .operand .eq (.value 1)) .or (.binary .operand .eq (.value 11)))
    (.value 0) (.question (.binary (.binary .operand .eq (.value 2)) .or (.binary .operand .eq
    (.value 12))) (.value 1) (.question (.binary (.binary (.binary .operand .ge (.value 3)) .and
    (.binary .operand .le (.value 10))) .or (.binary (.binary .operand .ge (.value 13)) .and
    (.binary .operand .le (.value 19)))) (.value 2) (.value 3)))

theorem entry23 : EntryOK (rawTable[23]'(by decide)) := by
  refine ⟨⟨4, node23⟩, by decide +kernel, rfl, ?_⟩
  intro m
  show rule_gd.form m = _
  unfold rule_gd node23
  simp only []
  entry_tac

def node24 : Node :=
    .question (.binary (.binary .operand .rem (.value 10)) .eq (.value 1)) (.value 0) (.question
    (.binary (.binary .operand .rem (.value 10)) .eq (.value 2)) (.value 1) (.question (.binary
    (.binary (.binary (.binary (.binary .operand .rem (.value 100)) .eq (.value 0)) .or (.binary
    (.binary (.binary .operand .rem (.value 100)) .eq (.value 20)) .or (.binary (.binary
    .operand .rem (.value 100)) .eq (.value 40)))) .or (.binary (.binary .operand .rem (.value
    100)) .eq (.value 60))) .or (.binary (.binary .operand .rem (.value 100)) .eq (.value 80)))
    (.value 2) (.value 3)))

theorem entry24 : EntryOK (rawTable[24]'(by decide)) := by
  refine ⟨⟨4, node24⟩, by decide +kernel, rfl, ?_⟩
  intro m
  show rule_gv.form m = _
  unfold rule_gv node24
  simp only []
  entry_tac

def node25 : Node :=
    .question (.binary (.binary .operand .rem (.value 100)) .eq (.value 1)) (.value 0)
    (.question (.binary (.binary .operand .rem (.value 100)) .eq (.value 2)) (.value 1)
    (.question (.binary (.binary (.binary .operand .rem (.value 100)) .ge (.value 3)) .and
    (.binary (.binary .operand .rem (.value 100)) .le (.value 4))) (.value 2) (.value 3)))

theorem entry25 : EntryOK (rawTable[25]'(by decide)) := by
  refine ⟨⟨4, node25⟩, by decide +kernel, rfl, ?_⟩
  intro m
  show inline6.form m = _
  unfold inline6 node25
  simp only []
  entry_tac

def node26 : Node :=
    .question (.binary (.binary (.binary (.binary .operand .rem (.value 10)) .eq (.value 1))
    .and (.binary (.binary (.binary .operand .rem (.value 100)) .ne (.value 11)) .and (.binary
    (.binary .operand .rem (.value 100)) .ne (.value 71)))) .and (.binary (.binary .operand .rem
    (.value 100)) .ne (.value 91))) (.value 0) (.question (.binary (.binary (.binary (.binary
    .operand .rem (.value 10)) .eq (.value 2)) .and (.binary (.binary (.binary .operand .rem
    (.value 100)) .ne (.value 12)) .and (.binary (.binary .operand .rem (.value 100)) .ne
    (.value 72)))) .and (.binary (.binary .operand .rem (.value 100)) .ne (.value 92))) (.value
    1) (.question (.binary (.binary (.binary (.binary (.binary (.binary .operand .rem (.value
    10)) .eq (.value 3)) .or (.binary (.binary .operand .rem (.value 10)) .eq (.value 4))) .or
    (.binary (.binary .operand .rem (.value 10)) .eq (.value 9))) .and (.binary (.binary
    (.binary (.binary .operand .rem (.value 100)) .lt (.value 10)) .or (.binary (.binary
    .operand .rem (.value 100)) .gt (.value 19))) .and (.binary (.binary (.binary .operand .rem
    (.value 100)) .lt (.value 70)) .or (.binary (.binary .operand .rem (.value 100)) .gt (.value
    79))))) .and (.binary (.binary (.binary .operand .rem (.value 100)) .lt (.value 90)) .or
    (.binary (.binary .operand .rem (.value 100)) .gt (.value 99)))) (.value 2) (.question
    (.binary (.binary .operand .ne (.value 0)) .and (.binary (.binary .operand .rem (.value
    1000000)) .eq (.value 0))) (.value 3) (.value 4))))

theorem entry26 : EntryOK (rawTable[26]'(by decide)) := by
  refine ⟨⟨5, node26⟩, by decide +kernel, rfl, ?_⟩
  intro m
  show rule_br.form m = _
  unfold rule_br node26
  simp only []
  entry_tac

def node27 : Node :=
    .question (.binary .operand .eq (.value 1)) (.value 0) (.question (.binary .operand .eq
    (.value 2)) (.value 1) (.question (.binary (.binary .operand .ge (.value 3)) .and (.binary
    .operand .le (.value 6))) (.value 2) (.question (.binary (.binary .operand .ge (.value 7))
    .and (.binary .operand .le (.value 10))) (.value 3) (.value 4))))

theorem entry27 : EntryOK (rawTable[27]'(by decide)) := by
  refine ⟨⟨5, node27⟩, by decide +kernel, rfl, ?_⟩
  intro m
  show rule_ga.form m = _
  unfold rule_ga node27
  simp only []
  entry_tac

def node28 : Node :=
    .question (.binary .operand .eq (.value 1)) (.value 0) (.question (.binary .operand .eq
    (.value 2)) (.value 1) (.question (.binary (.binary .operand .eq (.value 0)) .or (.binary
    (.binary (.binary .operand .rem (.value 100)) .ge (.value 3)) .and (.binary (.binary
    .operand .rem (.value 100)) .le (.value 10)))) (.value 2) (.question (.binary (.binary
    (.binary .operand .rem (.value 100)) .ge (.value 11)) .and (.binary (.binary .operand .rem
    (.value 100)) .le (.value 19))) (.value 3) (.value 4))))

theorem entry28 : EntryOK (rawTable[28]'(by decide)) := by
  refine ⟨⟨5, node28⟩, by decide +kernel, rfl, ?_⟩
  intro m
  show rule_mt.form m = _
  unfold rule_mt node28
  simp only []
  entry_tac

def node29 : Node :=
    .question (.binary (.binary (.binary (.binary .operand .rem (.value 10)) .eq (.value 1))
    .and (.binary (.binary (.binary .operand .rem (.value 100)) .ne (.value 11)) .and (.binary
    (.binary .operand .rem (.value 100)) .ne (.value 71)))) .and (.binary (.binary .operand .rem
    (.value 100)) .ne (.value 91))) (.value 0) (.question (.binary (.binary (.binary (.binary
    .operand .rem (.value 10)) .eq (.value 2)) .and (.binary (.binary (.binary .operand .rem
    (.value 100)) .ne (.value 12)) .and (.binary (.binary .operand .rem (.value 100)) .ne
    (.value 72)))) .and (.binary (.binary .operand .rem (.value 100)) .ne (.value 92))) (.value
    1) (.question (.binary (.binary (.binary (.binary (.binary (.binary .operand .rem (.value
    10)) .ge (.value 3)) .and (.binary (.binary .operand .rem (.value 10)) .le (.value 4))) .or
    (.binary (.binary .operand .rem (.value 10)) .eq (.value 9))) .and (.binary (.binary
    (.binary (.binary .operand .rem (.value 100)) .lt (.value 10)) .or (.binary (.binary
    .operand .rem (.value 100)) .gt (.value 19))) .and (.binary (.binary (.binary .operand .rem
    (.value 100)) .lt (.value 70)) .or (.binary (.binary .operand .rem (.value 100)) .gt (.value
    79))))) .and (.binary (.binary (.binary .operand .rem (.value 100)) .lt (.value 90)) .or
    (.binary (.binary .operand .rem (.value 100)) .gt (.value 99)))) (.value 2) (.question
    (.binary (.binary .operand .ne (.value 0)) .and (.binary (.binary .operand .rem (.value
    1000000)) .eq (.value 0))) (.value 3) (.value 4))))

theorem entry29 : EntryOK (rawTable[29]'(by decide)) := by
  refine ⟨⟨5, node29⟩, by decide +kernel, rfl, ?_⟩
  intro m
  show inline7.form m = _
  unfold inline7 node29
  simp only []
  entry_tac

def node30 : Node :=
    .question (.binary .operand .eq (.value 0)) (.value 0) (.question (.binary .operand .eq
    (.value 1)) (.value 1) (.question (.binary .operand .eq (.value 2)) (.value 2) (.question
    (.binary (.binary (.binary .operand .rem (.value 100)) .ge (.value 3)) .and (.binary
    (.binary .operand .rem (.value 100)) .le (.value 10))) (.value 3) (.question (.binary
    (.binary (.binary .operand .rem (.value 100)) .ge (.value 11)) .and (.binary (.binary
    .operand .rem (.value 100)) .le (.value 99))) (.value 4) (.value 5)))))

theorem entry30 : EntryOK (rawTable[30]'(by decide)) := by
  refine ⟨⟨6, node30⟩, by decide +kernel, rfl, ?_⟩
  intro m
  show rule_ar.form m = _
  unfold rule_ar node30
  simp only []
  entry_tac

def node31 : Node :=
    .question (.binary .operand .eq (.value 0)) (.value 0) (.question (.binary .operand .eq
    (.value 1)) (.value 1) (.question (.binary .operand .eq (.value 2)) (.value 2) (.question
    (.binary .operand .eq (.value 3)) (.value 3) (.question (.binary .operand .eq (.value 6))
    (.value 4) (.value 5)))))

theorem entry31 : EntryOK (rawTable[31]'(by decide)) := by
  refine ⟨⟨6, node31⟩, by decide +kernel, rfl, ?_⟩
  intro m
  show rule_cy.form m = _
  unfold rule_cy node31
  simp only []
  entry_tac

def node32 : Node :=
    .question (.binary .operand .eq (.value 0)) (.value 0) (.question (.binary .operand .eq
    (.value 1)) (.value 1) (.question (.binary (.binary (.binary (.binary (.binary (.binary
    (.binary .operand .rem (.value 100)) .eq (.value 2)) .or (.binary (.binary (.binary .operand
    .rem (.value 100)) .eq (.value 22)) .or (.binary (.binary .operand .rem (.value 100)) .eq
    (.value 42)))) .or (.binary (.binary .operand .rem (.value 100)) .eq (.value 62))) .or
    (.binary (.binary .operand .rem (.value 100)) .eq (.value 82))) .or (.binary (.binary
    (.binary .operand .rem (.value 1000)) .eq (.value 0)) .and (.binary (.binary (.binary
    (.binary (.binary (.binary .operand .rem (.value 100000)) .ge (.value 1000)) .and (.binary
    (.binary .operand .rem (.value 100000)) .le (.value 20000))) .or (.binary (.binary .operand
    .rem (.value 100000)) .eq (.value 40000))) .or (.binary (.binary .operand .rem (.value
    100000)) .eq (.value 60000))) .or (.binary (.binary .operand .rem (.value 100000)) .eq
    (.value 80000))))) .or (.binary (.binary .operand .ne (.value 0)) .and (.binary (.binary
    .operand .rem (.value 1000000)) .eq (.value 100000)))) (.value 2) (.question (.binary
    (.binary (.binary (.binary (.binary .operand .rem (.value 100)) .eq (.value 3)) .or (.binary
    (.binary (.binary .operand .rem (.value 100)) .eq (.value 23)) .or (.binary (.binary
    .operand .rem (.value 100)) .eq (.value 43)))) .or (.binary (.binary .operand .rem (.value
    100)) .eq (.value 63))) .or (.binary (.binary .operand .rem (.value 100)) .eq (.value 83)))
    (.value 3) (.question (.binary (.binary .operand .ne (.value 1)) .and (.binary (.binary
    (.binary (.binary (.binary .operand .rem (.value 100)) .eq (.value 1)) .or (.binary (.binary
    (.binary .operand .rem (.value 100)) .eq (.value 21)) .or (.binary (.binary .operand .rem
    (.value 100)) .eq (.value 41)))) .or (.binary (.binary .operand .rem (.value 100)) .eq
    (.value 61))) .or (.binary (.binary .operand .rem (.value 100)) .eq (.value 81)))) (.value
    4) (.value 5)))))

theorem entry32 : EntryOK (rawTable[32]'(by decide)) := by
  refine ⟨⟨6, node32⟩, by decide +kernel, rfl, ?_⟩
  intro m
  show rule_kw.form m = _
  unfold rule_kw node32
  simp only []
  entry_tac

theorem table_ok : ∀ p ∈ rawTable, EntryOK p := by
  intro p hp
  obtain ⟨i, hi, rfl⟩ := List.getElem_of_mem hp
  have hlen : rawTable.length = 33 := by decide
  rw [hlen] at hi
  have h : i = 0 ∨ i = 1 ∨ i = 2 ∨ i = 3 ∨ i = 4 ∨ i = 5 ∨ i = 6 ∨ i = 7 ∨ i = 8 ∨ i = 9 ∨ i = 10 ∨ i =
    11 ∨ i = 12 ∨ i = 13 ∨ i = 14 ∨ i = 15 ∨ i = 16 ∨ i = 17 ∨ i = 18 ∨ i = 19 ∨ i = 20 ∨ i = 21
    ∨ i = 22 ∨ i = 23 ∨ i = 24 ∨ i = 25 ∨ i = 26 ∨ i = 27 ∨ i = 28 ∨ i = 29 ∨ i = 30 ∨ i = 31 ∨
    i = 32 := by omega
  rcases h with rfl | rfl | rfl | rfl | rfl | rfl | rfl | rfl | rfl | rfl | rfl | rfl | rfl | rfl | rfl |
    rfl | rfl | rfl | rfl | rfl | rfl | rfl | rfl | rfl | rfl | rfl | rfl | rfl | rfl | rfl |
    rfl | rfl | rfl

  · exact entry0
  · exact entry1
  · exact entry2
  · exact entry3
  · exact entry4
  · exact entry5
  · exact entry6
  · exact entry7
  · exact entry8
  · exact entry9
  · exact entry10
  · exact entry11
  · exact entry12
  · exact entry13
  · exact entry14
  · exact entry15
  · exact entry16
  · exact entry17
  · exact entry18
  · exact entry19
  · exact entry20
  · exact entry21
  · exact entry22
  · exact entry23
  · exact entry24
  · exact entry25
  · exact entry26
  · exact entry27
  · exact entry28
  · exact entry29
  · exact entry30
  · exact entry31
  · exact entry32

end Verif.Proofs.PoPlural
