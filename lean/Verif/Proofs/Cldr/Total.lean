import Verif.Proofs.Cldr.Parse
/-! The parser terminates except for sample ranges; what it accepts; when evaluation cannot fail. -/
namespace Verif.Proofs.Cldr
open Verif.Go Verif.Model.Cldr Verif.Spec.Cldr Verif.Cldr

/-! ## Structural recursion of the parser -/

theorem scan_shrinks : ∀ toks : List (List Char), (scan toks).1 = .eof ∨ (scan toks).2.2.length < toks.length
  | [] => Or.inl rfl
  | lit :: rest => by
    simp only [scan]
    have ih := scan_shrinks rest
    have key : ∀ (t : Tok) (l : List Char), (t, l, rest).1 = Tok.eof ∨ (t, l, rest).2.2.length < (lit :: rest).length :=
      fun t l => Or.inr (by simp)
    split
    · exact key _ _
    split
    · exact key _ _
    split
    · exact key _ _
    split
    · exact key _ _
    split
    · exact key _ _
    split
    · exact key _ _
    split
    · exact key _ _
    split
    · rcases ih with h | h
      · exact Or.inl h
      · exact Or.inr (by simp only [List.length_cons]; omega)
    · right
      unfold scanNumber
      split
      · split
        · split <;> simp only [List.length_cons, List.length_nil] <;> omega
        · simp
      · simp

theorem scanNext_ok {st st' : PState} (h : scanNext st = .ok st') : st' = stateOf st.rest := by
  unfold scanNext scanToken at h
  simp only [reduceCtorEq, if_false] at h
  cases h; rfl

theorem scanNext_err {st : PState} {e : PErr} (h : scanNext st = .error e) : e = .syntax := by
  unfold scanNext scanToken at h
  simp only [reduceCtorEq, if_false] at h

/-- Progress: the next token is the end or fewer words remain. -/
def Less (st' st : PState) : Prop := st'.tok = .eof ∨ st'.rest.length < st.rest.length

theorem scanNext_less {st st' : PState} (h : scanNext st = .ok st') : Less st' st := by
  rw [scanNext_ok h]
  rcases scan_shrinks st.rest with h | h
  · exact Or.inl h
  · exact Or.inr h

/-- The words that remain, counting the current token. -/
def size (st : PState) : Nat := if st.tok = .eof then 0 else st.rest.length + 1

theorem size_le (st : PState) : size st ≤ st.rest.length + 1 := by unfold size; split <;> omega

theorem scanNext_size {st st' : PState} (h : scanNext st = .ok st') (ht : st.tok ≠ .eof) : size st' < size st := by
  have := scanNext_less h
  unfold size
  rw [if_neg ht]
  split
  · omega
  · rename_i h'
    rcases this with h2 | h2
    · exact absurd h2 h'
    · omega

/-- A parser function with the given fuel neither runs out of it nor fails to make progress. -/
def Fine {α : Type} (r : Except PErr (α × PState)) (n : Nat) : Prop :=
  match r with
  | .ok (_, st') => size st' < n
  | .error e => e = .syntax

theorem value_fine (st : PState) : Fine (value st) (size st) := by
  unfold value
  split
  · rfl
  · rename_i ht
    have ht : st.tok = .value := by simpa using ht
    simp only [bind, Except.bind]
    cases h : scanNext st with
    | error e => exact scanNext_err h
    | ok st' => exact scanNext_size h (by rw [ht]; decide)

theorem expression_fine (st : PState) : Fine (expression st) (size st) := by
  unfold expression
  split
  · rfl
  · rename_i ht
    have ht : st.tok = .operand := by simpa using ht
    simp only [bind, Except.bind]
    cases h : scanNext st with
    | error e => exact scanNext_err h
    | ok st1 =>
      have h1 := scanNext_size h (by rw [ht]; decide)
      simp only []
      split
      · rename_i hr
        cases h2 : scanNext st1 with
        | error e => exact scanNext_err h2
        | ok st2 =>
          have h3 := scanNext_size h2 (by rw [hr]; decide)
          simp only []
          have h4 := value_fine st2
          cases hv : value st2 with
          | error e => rw [hv] at h4; exact h4
          | ok p =>
            rw [hv] at h4
            obtain ⟨v, st3⟩ := p
            simp only [Fine] at h4 ⊢
            omega
      · exact h1

theorem rangeExpression_fine (st : PState) (ht : st.tok ≠ .eof) : Fine (rangeExpression st) (size st) := by
  unfold rangeExpression
  split
  · rfl
  · split
    · split
      · rfl
      · simp only [bind, Except.bind]
        cases h : scanNext st with
        | error e => exact scanNext_err h
        | ok st' => exact scanNext_size h ht
    · rfl

theorem item_fine (st : PState) : Fine (item st) (size st) := by
  unfold item
  split
  · have h := value_fine st
    simp only [bind, Except.bind]
    cases hv : value st with
    | error e => rw [hv] at h; exact h
    | ok p => rw [hv] at h; exact h
  · split
    · rename_i ht
      exact rangeExpression_fine st (by rw [ht]; decide)
    · rfl

theorem rangeList_fine : ∀ (f : Nat) (st : PState), size st < f → Fine (rangeList f st) (size st)
  | 0, _, h => absurd h (by omega)
  | f + 1, st, hf => by
    have h := item_fine st
    simp only [rangeList, bind, Except.bind]
    cases hv : item st with
    | error e => rw [hv] at h; exact h
    | ok p =>
      obtain ⟨x, st1⟩ := p
      rw [hv] at h
      simp only [Fine] at h
      simp only []
      split
      · have ih := rangeList_fine f st1 (by omega)
        cases hr : rangeList f st1 with
        | error e => rw [hr] at ih; exact ih
        | ok q =>
          rw [hr] at ih
          simp only [Fine] at ih ⊢
          omega
      · exact h

theorem relation_fine (f : Nat) (st : PState) (hf : size st < f) : Fine (relation f st) (size st) := by
  have h := expression_fine st
  simp only [relation, bind, Except.bind]
  cases hv : expression st with
  | error e => rw [hv] at h; exact h
  | ok p =>
    obtain ⟨x, st1⟩ := p
    rw [hv] at h
    simp only [Fine] at h
    simp only []
    split
    · rfl
    · rename_i ht
      have hne : st1.tok ≠ .eof := by
        intro he; apply ht; rw [he]; decide
      cases h2 : scanNext st1 with
      | error e => exact scanNext_err h2
      | ok st2 =>
        have h3 := scanNext_size h2 hne
        have h4 := rangeList_fine f st2 (by omega)
        simp only []
        cases hr : rangeList f st2 with
        | error e => rw [hr] at h4; exact h4
        | ok q =>
          rw [hr] at h4
          simp only [Fine] at h4 ⊢
          omega

theorem andCondition_fine : ∀ (f : Nat) (st : PState), size st + 1 < f → Fine (andCondition f st) (size st)
  | 0, _, h => absurd h (by omega)
  | f + 1, st, hf => by
    have h := relation_fine f st (by omega)
    simp only [andCondition, bind, Except.bind]
    cases hv : relation f st with
    | error e => rw [hv] at h; exact h
    | ok p =>
      obtain ⟨x, st1⟩ := p
      rw [hv] at h
      simp only [Fine] at h
      simp only []
      split
      · rename_i ht
        cases h2 : scanNext st1 with
        | error e => exact scanNext_err h2
        | ok st2 =>
          have h3 := scanNext_size h2 (by rw [ht]; decide)
          have ih := andCondition_fine f st2 (by omega)
          simp only []
          cases hr : andCondition f st2 with
          | error e => rw [hr] at ih; exact ih
          | ok q =>
            rw [hr] at ih
            simp only [Fine] at ih ⊢
            omega
      · exact h

theorem condition_fine : ∀ (f : Nat) (st : PState), size st + 2 < f → Fine (condition f st) (size st)
  | 0, _, h => absurd h (by omega)
  | f + 1, st, hf => by
    have h := andCondition_fine f st (by omega)
    simp only [condition, bind, Except.bind]
    cases hv : andCondition f st with
    | error e => rw [hv] at h; exact h
    | ok p =>
      obtain ⟨x, st1⟩ := p
      rw [hv] at h
      simp only [Fine] at h
      simp only []
      split
      · rename_i ht
        cases h2 : scanNext st1 with
        | error e => exact scanNext_err h2
        | ok st2 =>
          have h3 := scanNext_size h2 (by rw [ht]; decide)
          have ih := condition_fine f st2 (by omega)
          simp only []
          cases hr : condition f st2 with
          | error e => rw [hr] at ih; exact ih
          | ok q =>
            rw [hr] at ih
            simp only [Fine] at ih ⊢
            omega
      · exact h

theorem sampleLoop_err (stop : List Char) : ∀ (f : Nat) (ex : List Char) (e : PErr),
    sampleLoop stop f ex = .error e → e = .hang
  | 0, _, _, h => by cases h; rfl
  | f + 1, ex, e, h => by
    simp only [sampleLoop] at h
    split at h
    · cases h
    · simp only [bind, Except.bind] at h
      cases hr : sampleLoop stop f (increment ex) with
      | error e' => rw [hr] at h; cases h; exact sampleLoop_err stop f _ _ hr
      | ok q => rw [hr] at h; cases h

theorem parseSampleRange_err {budget : Nat} {s : List Char} {e : PErr} (h : parseSampleRange budget s = .error e) :
    e = .hang := by
  unfold parseSampleRange at h
  split at h
  · cases h
  · exact sampleLoop_err _ _ _ _ h

theorem samplesLoop_fine (budget : Nat) : ∀ (f : Nat) (st : PState), size st < f →
    samplesLoop budget f st ≠ .error .fuel
  | 0, _, h => absurd h (by omega)
  | f + 1, st, hf => by
    intro h
    unfold samplesLoop at h
    have step : ∀ {α : Type} (g : List (List Char) → Except PErr α), (∀ x, g x ≠ .error .fuel) → st.tok ≠ .eof →
        (do let st' ← scanNext st; let r ← samplesLoop budget f st'; g r) ≠ .error PErr.fuel := by
      intro α g hg hne h
      simp only [bind, Except.bind] at h
      cases h2 : scanNext st with
      | error e => rw [h2] at h; have := scanNext_err h2; subst this; cases h
      | ok st2 =>
        rw [h2] at h
        have h3 := scanNext_size h2 hne
        have ih := samplesLoop_fine budget f st2 (by omega)
        simp only [] at h
        cases hr : samplesLoop budget f st2 with
        | error e => rw [hr] at h; cases h; exact ih hr
        | ok q => rw [hr] at h; exact hg _ h
    split at h
    · cases h
    · rename_i ht
      simp only [bind, Except.bind] at h
      cases h2 : scanNext st with
      | error e => rw [h2] at h; have := scanNext_err h2; subst this; cases h
      | ok st2 =>
        rw [h2] at h
        have h3 := scanNext_size h2 (by rw [ht]; decide)
        exact samplesLoop_fine budget f st2 (by omega) h
    · rename_i ht
      exact step _ (fun x => by simp) (by rw [ht]; decide) h
    · rename_i ht
      exact step _ (fun x => by simp) (by rw [ht]; decide) h
    · rename_i ht
      simp only [bind, Except.bind] at h
      cases hp : parseSampleRange budget st.lit with
      | error e => rw [hp] at h; have := parseSampleRange_err hp; subst this; cases h
      | ok vs =>
        rw [hp] at h
        exact step (fun r => .ok (vs ++ r)) (fun x => by simp) (by rw [ht]; decide) h
    · cases h

theorem samples_fine (budget f : Nat) (st : PState) (hf : size st < f) : samples budget f st ≠ .error .fuel := by
  unfold samples
  split
  · simp
  · split
    · simp
    · exact samplesLoop_fine budget f st hf

/-- The recursion budget of the model always suffices. -/
theorem parse_no_fuel (budget : Nat) (text : List Char) : parse budget text ≠ .error .fuel := by
  unfold parse
  generalize generateTokens text = toks
  intro h
  unfold parseTokens at h
  simp only [bind, Except.bind] at h
  cases h1 : scanNext ⟨.eof, [], toks⟩ with
  | error e => rw [h1] at h; have := scanNext_err h1; subst this; cases h
  | ok st =>
    rw [h1] at h
    simp only [] at h
    have hs : size st ≤ toks.length := by
      have := scanNext_less h1
      unfold size
      split
      · omega
      · rename_i hne
        rcases this with h | h
        · exact absurd h hne
        · exact h
    split at h
    · have hc := condition_fine (toks.length + 3) st (by omega)
      cases h2 : condition (toks.length + 3) st with
      | error e => rw [h2] at h hc; simp only [Fine] at hc; subst hc; cases h
      | ok p =>
        obtain ⟨n, st1⟩ := p
        rw [h2] at h hc
        simp only [Fine] at hc
        simp only [] at h
        have hsm := samples_fine budget (toks.length + 3) st1 (by omega)
        cases h3 : samples budget (toks.length + 3) st1 with
        | error e => rw [h3] at h; cases h; exact hsm h3
        | ok q => rw [h3] at h; cases h
    · have hsm := samples_fine budget (toks.length + 3) st (by omega)
      cases h3 : samples budget (toks.length + 3) st with
      | error e => rw [h3] at h; cases h; exact hsm h3
      | ok q => rw [h3] at h; cases h

/-! ## Enumerating a sample range -/

theorem increment_snoc_nine (l : List Char) : increment (l ++ ['9']) = increment l ++ ['0'] := by
  unfold increment
  simp only [List.reverse_append, List.reverse_cons, List.reverse_nil, List.nil_append, List.cons_append]
  rw [show incRev ('9' :: l.reverse) = ('0' :: (incRev l.reverse).1, (incRev l.reverse).2) from rfl]
  cases (incRev l.reverse).2 <;> simp

theorem increment_snoc {c : Char} (h9 : c ≠ '9') (hp : c ≠ '.') (l : List Char) :
    increment (l ++ [c]) = l ++ [Char.ofNat (c.toNat + 1)] := by
  unfold increment
  simp only [List.reverse_append, List.reverse_cons, List.reverse_nil, List.nil_append, List.cons_append]
  rw [show incRev (c :: l.reverse) = (Char.ofNat (c.toNat + 1) :: l.reverse, false) by
    simp [incRev, h9, hp]]
  simp

theorem digit_succ (n : Nat) (h : n < 9) : n.digitChar ≠ '9' ∧ n.digitChar ≠ '.' ∧
    Char.ofNat (n.digitChar.toNat + 1) = (n + 1).digitChar := by
  have : ∀ n : Fin 9, n.val.digitChar ≠ '9' ∧ n.val.digitChar ≠ '.' ∧
    Char.ofNat (n.val.digitChar.toNat + 1) = (n.val + 1).digitChar := by decide
  exact this ⟨n, h⟩

theorem increment_dec (n : Nat) : increment (dec n) = dec (n + 1) := by
  induction n using Nat.strongRecOn with
  | ind n ih =>
    rcases Nat.lt_or_ge n 10 with hl | hg
    · have e : dec n = [] ++ [n.digitChar] := Nat.toDigits_of_lt_base hl
      rcases Nat.lt_or_ge n 9 with h9 | h9
      · obtain ⟨a, b, c⟩ := digit_succ n h9
        rw [e, increment_snoc a b, c]
        exact (Nat.toDigits_of_lt_base (by omega : n + 1 < 10)).symm
      · have : n = 9 := by omega
        subst this; decide
    · have e : dec n = dec (n / 10) ++ [(n % 10).digitChar] := Nat.toDigits_of_base_le (by decide) hg
      have e2 : dec (n + 1) = dec ((n + 1) / 10) ++ [((n + 1) % 10).digitChar] :=
        Nat.toDigits_of_base_le (by decide) (by omega)
      rcases Nat.lt_or_ge (n % 10) 9 with h9 | h9
      · obtain ⟨a, b, c⟩ := digit_succ (n % 10) h9
        rw [e, increment_snoc a b, c, e2]
        have : (n + 1) / 10 = n / 10 := by omega
        have : (n + 1) % 10 = n % 10 + 1 := by omega
        simp [*]
      · have h9 : n % 10 = 9 := by omega
        rw [e, h9, show (9 : Nat).digitChar = '9' from rfl, increment_snoc_nine, ih (n / 10) (by omega), e2]
        have h1 : (n + 1) / 10 = n / 10 + 1 := by omega
        have h2 : (n + 1) % 10 = 0 := by omega
        rw [h1, h2]
        rfl

theorem dec_inj {a b : Nat} (h : dec a = dec b) : a = b := by
  rw [← dec_val a, ← dec_val b, h]

theorem sampleLoop_up (b : Nat) : ∀ (k a f : Nat), a + k = b → k < f →
    sampleLoop (dec b) f (dec a) = .ok ((List.range (k + 1)).map fun j => dec (a + j))
  | 0, a, f, h, hf => by
    obtain ⟨f, rfl⟩ : ∃ n, f = n + 1 := ⟨f - 1, by omega⟩
    subst h
    simp [sampleLoop]
  | k + 1, a, f, h, hf => by
    obtain ⟨f, rfl⟩ : ∃ n, f = n + 1 := ⟨f - 1, by omega⟩
    have hne : dec a ≠ dec b := fun he => by have := dec_inj he; omega
    have ih := sampleLoop_up b k (a + 1) f (by omega) (by omega)
    simp only [sampleLoop, if_neg hne, increment_dec, ih, bind, Except.bind]
    rw [List.range_succ_eq_map (n := k + 1)]
    simp only [List.map_cons, List.map_map, Nat.add_zero]
    congr 2
    apply List.map_congr_left
    intro x _
    simp only [Function.comp]
    congr 1; omega

theorem sampleLoop_down {a b : Nat} (h : b < a) (f : Nat) : sampleLoop (dec b) f (dec a) = .error .hang := by
  induction f generalizing a with
  | zero => rfl
  | succ f ih =>
    have hne : dec a ≠ dec b := fun he => by have := dec_inj he; omega
    simp only [sampleLoop, if_neg hne, increment_dec, ih (show b < a + 1 by omega), bind, Except.bind]

/-! ## Operand names -/

/-- The letters that the scanner accepts as operands, in lower case. -/
def opLetters : List (List Char) := [['n'], ['i'], ['v'], ['w'], ['f'], ['t'], ['c'], ['e']]

theorem scan_operand : ∀ toks : List (List Char), (scan toks).1 = .operand →
    (scan toks).2.1 ∈ toks ∧ (scan toks).2.1.map lower ∈ opLetters
  | [], h => by cases h
  | lit :: rest, h => by
    have ih := scan_operand rest
    simp only [scan] at h ⊢
    split at h
    · rename_i hl
      rw [if_pos hl]
      refine ⟨List.mem_cons_self, ?_⟩
      simp only [opLetters, List.mem_cons, List.not_mem_nil, or_false]
      exact hl
    · rename_i hl
      rw [if_neg hl]
      split at h
      · cases h
      rename_i h1; rw [if_neg h1]
      split at h
      · cases h
      rename_i h1; rw [if_neg h1]
      split at h
      · cases h
      rename_i h1; rw [if_neg h1]
      split at h
      · cases h
      rename_i h1; rw [if_neg h1]
      split at h
      · cases h
      rename_i h1; rw [if_neg h1]
      split at h
      · cases h
      rename_i h1; rw [if_neg h1]
      split at h
      · rename_i h1; rw [if_pos h1]
        exact ⟨List.mem_cons_of_mem _ (ih h).1, (ih h).2⟩
      · exfalso
        have hcl : ∀ l, classify l ≠ .operand := by
          intro l; unfold classify
          split
          · decide
          · split
            · decide
            · split
              · decide
              · split <;> decide
        unfold scanNumber at h
        split at h
        · split at h
          · split at h
            · cases h
            · exact hcl _ h
          · exact hcl _ h
        · exact hcl _ h

theorem scan_rest_sub : ∀ toks : List (List Char), ∀ t ∈ (scan toks).2.2, t ∈ toks
  | [] => by simp [scan]
  | lit :: rest => by
    have ih := scan_rest_sub rest
    have key : ∀ (t : Tok) (l : List Char), ∀ x ∈ (t, l, rest).2.2, x ∈ lit :: rest :=
      fun t l x hx => List.mem_cons_of_mem _ hx
    simp only [scan]
    split
    · exact key _ _
    split
    · exact key _ _
    split
    · exact key _ _
    split
    · exact key _ _
    split
    · exact key _ _
    split
    · exact key _ _
    split
    · exact key _ _
    split
    · intro t ht; exact List.mem_cons_of_mem _ (ih t ht)
    · unfold scanNumber
      split
      · split
        · split
          · intro t ht; cases ht
          · intro t ht; exact List.mem_cons_of_mem _ (List.mem_cons_of_mem _ (List.mem_cons_of_mem _ ht))
        · exact key _ _
      · exact key _ _

/-- The state was reached by scanning words that satisfy `T`. -/
def Inv (T : List Char → Prop) (st : PState) : Prop := ∃ toks, (∀ t ∈ toks, T t) ∧ st = stateOf toks

theorem inv_stateOf {T : List Char → Prop} {toks : List (List Char)} (h : ∀ t ∈ toks, T t) : Inv T (stateOf toks) :=
  ⟨toks, h, rfl⟩

theorem inv_operand {T : List Char → Prop} {st : PState} (hi : Inv T st) (ht : st.tok = .operand) :
    T st.lit ∧ st.lit.map lower ∈ opLetters := by
  obtain ⟨toks, h, rfl⟩ := hi
  exact ⟨h _ (scan_operand toks ht).1, (scan_operand toks ht).2⟩

theorem inv_scanNext {T : List Char → Prop} {st st' : PState} (hi : Inv T st) (h : scanNext st = .ok st') : Inv T st' := by
  obtain ⟨toks, hT, rfl⟩ := hi
  rw [scanNext_ok h]
  exact inv_stateOf fun t ht => hT t (scan_rest_sub toks t ht)

def nameOk (T : List Char → Prop) (o : List Char) : Prop := T o ∧ o.map lower ∈ opLetters

def ExprNode.name : ExprNode → List Char
  | .operand o => o
  | .modulo o _ => o

def NodeNames (T : List Char → Prop) : Node → Prop
  | .rel x _ _ => nameOk T (ExprNode.name x)
  | .and x y => NodeNames T x ∧ NodeNames T y
  | .or x y => NodeNames T x ∧ NodeNames T y

theorem inv_value {T : List Char → Prop} {st st' : PState} {v : Int} (hi : Inv T st) (h : value st = .ok (v, st')) :
    Inv T st' := by
  unfold value at h
  split at h
  · cases h
  · simp only [bind, Except.bind] at h
    cases hs : scanNext st with
    | error e => rw [hs] at h; cases h
    | ok s => rw [hs] at h; cases h; exact inv_scanNext hi hs

theorem inv_expression {T : List Char → Prop} {st st' : PState} {x : ExprNode} (hi : Inv T st)
    (h : expression st = .ok (x, st')) : nameOk T (ExprNode.name x) ∧ Inv T st' := by
  unfold expression at h
  split at h
  · cases h
  · rename_i ht
    have ht : st.tok = .operand := by simpa using ht
    simp only [bind, Except.bind] at h
    cases hs : scanNext st with
    | error e => rw [hs] at h; cases h
    | ok s =>
      rw [hs] at h
      have h1 := inv_scanNext hi hs
      simp only [] at h
      split at h
      · cases hs2 : scanNext s with
        | error e => rw [hs2] at h; cases h
        | ok s2 =>
          rw [hs2] at h
          simp only [] at h
          cases hv : value s2 with
          | error e => rw [hv] at h; cases h
          | ok p =>
            rw [hv] at h
            obtain ⟨v, s3⟩ := p
            cases h
            exact ⟨inv_operand hi ht, inv_value (inv_scanNext h1 hs2) hv⟩
      · cases h; exact ⟨inv_operand hi ht, h1⟩

theorem inv_rangeExpression {T : List Char → Prop} {st st' : PState} {x : Item} (hi : Inv T st)
    (h : rangeExpression st = .ok (x, st')) : Inv T st' := by
  unfold rangeExpression at h
  split at h
  · cases h
  · split at h
    · split at h
      · cases h
      · simp only [bind, Except.bind] at h
        cases hs : scanNext st with
        | error e => rw [hs] at h; cases h
        | ok s => rw [hs] at h; cases h; exact inv_scanNext hi hs
    · cases h

theorem inv_item {T : List Char → Prop} {st st' : PState} {x : Item} (hi : Inv T st)
    (h : item st = .ok (x, st')) : Inv T st' := by
  unfold item at h
  split at h
  · simp only [bind, Except.bind] at h
    cases hv : value st with
    | error e => rw [hv] at h; cases h
    | ok p => rw [hv] at h; obtain ⟨v, s⟩ := p; cases h; exact inv_value hi hv
  · split at h
    · exact inv_rangeExpression hi h
    · cases h

theorem inv_rangeList {T : List Char → Prop} : ∀ (f : Nat) {st st' : PState} {x : List Item}, Inv T st →
    rangeList f st = .ok (x, st') → Inv T st'
  | 0, _, _, _, _, h => by cases h
  | f + 1, st, st', x, hi, h => by
    simp only [rangeList, bind, Except.bind] at h
    cases hv : item st with
    | error e => rw [hv] at h; cases h
    | ok p =>
      rw [hv] at h
      obtain ⟨y, s⟩ := p
      have h1 := inv_item hi hv
      simp only [] at h
      split at h
      · cases hr : rangeList f s with
        | error e => rw [hr] at h; cases h
        | ok q =>
          rw [hr] at h
          obtain ⟨ys, s2⟩ := q
          cases h
          exact inv_rangeList f h1 hr
      · cases h; exact h1

theorem inv_relation {T : List Char → Prop} {f : Nat} {st st' : PState} {n : Node} (hi : Inv T st)
    (h : relation f st = .ok (n, st')) : NodeNames T n ∧ Inv T st' := by
  simp only [relation, bind, Except.bind] at h
  cases hv : expression st with
  | error e => rw [hv] at h; cases h
  | ok p =>
    rw [hv] at h
    obtain ⟨x, s⟩ := p
    obtain ⟨hn, h1⟩ := inv_expression hi hv
    simp only [] at h
    split at h
    · cases h
    · cases hs : scanNext s with
      | error e => rw [hs] at h; cases h
      | ok s2 =>
        rw [hs] at h
        simp only [] at h
        cases hr : rangeList f s2 with
        | error e => rw [hr] at h; cases h
        | ok q =>
          rw [hr] at h
          obtain ⟨ys, s3⟩ := q
          cases h
          exact ⟨hn, inv_rangeList f (inv_scanNext h1 hs) hr⟩

theorem inv_andCondition {T : List Char → Prop} : ∀ (f : Nat) {st st' : PState} {n : Node}, Inv T st →
    andCondition f st = .ok (n, st') → NodeNames T n ∧ Inv T st'
  | 0, _, _, _, _, h => by cases h
  | f + 1, st, st', n, hi, h => by
    simp only [andCondition, bind, Except.bind] at h
    cases hv : relation f st with
    | error e => rw [hv] at h; cases h
    | ok p =>
      rw [hv] at h
      obtain ⟨x, s⟩ := p
      obtain ⟨hn, h1⟩ := inv_relation hi hv
      simp only [] at h
      split at h
      · cases hs : scanNext s with
        | error e => rw [hs] at h; cases h
        | ok s2 =>
          rw [hs] at h
          simp only [] at h
          cases hr : andCondition f s2 with
          | error e => rw [hr] at h; cases h
          | ok q =>
            rw [hr] at h
            obtain ⟨y, s3⟩ := q
            cases h
            obtain ⟨hy, h3⟩ := inv_andCondition f (inv_scanNext h1 hs) hr
            exact ⟨⟨hn, hy⟩, h3⟩
      · cases h; exact ⟨hn, h1⟩

theorem inv_condition {T : List Char → Prop} : ∀ (f : Nat) {st st' : PState} {n : Node}, Inv T st →
    condition f st = .ok (n, st') → NodeNames T n ∧ Inv T st'
  | 0, _, _, _, _, h => by cases h
  | f + 1, st, st', n, hi, h => by
    simp only [condition, bind, Except.bind] at h
    cases hv : andCondition f st with
    | error e => rw [hv] at h; cases h
    | ok p =>
      rw [hv] at h
      obtain ⟨x, s⟩ := p
      obtain ⟨hn, h1⟩ := inv_andCondition f hi hv
      simp only [] at h
      split at h
      · cases hs : scanNext s with
        | error e => rw [hs] at h; cases h
        | ok s2 =>
          rw [hs] at h
          simp only [] at h
          cases hr : condition f s2 with
          | error e => rw [hr] at h; cases h
          | ok q =>
            rw [hr] at h
            obtain ⟨y, s3⟩ := q
            cases h
            obtain ⟨hy, h3⟩ := inv_condition f (inv_scanNext h1 hs) hr
            exact ⟨⟨hn, hy⟩, h3⟩
      · cases h; exact ⟨hn, h1⟩

theorem parse_names {T : List Char → Prop} {budget : Nat} {text : List Char} {rule : Rule}
    (hT : ∀ t ∈ generateTokens text, T t) (h : parse budget text = .ok rule) :
    ∀ n, rule.root = some n → NodeNames T n := by
  unfold parse at h
  generalize generateTokens text = toks at *
  unfold parseTokens at h
  simp only [bind, Except.bind] at h
  cases h1 : scanNext ⟨.eof, [], toks⟩ with
  | error e => rw [h1] at h; cases h
  | ok st =>
    rw [h1] at h
    have hi : Inv T st := by rw [scanNext_ok h1]; exact inv_stateOf hT
    simp only [] at h
    split at h
    · cases h2 : condition (toks.length + 3) st with
      | error e => rw [h2] at h; cases h
      | ok p =>
        obtain ⟨n, st1⟩ := p
        rw [h2] at h
        simp only [] at h
        cases h3 : samples budget (toks.length + 3) st1 with
        | error e => rw [h3] at h; cases h
        | ok q =>
          rw [h3] at h; cases h
          intro n' hn'; cases hn'
          exact (inv_condition _ hi h2).1
    · cases h3 : samples budget (toks.length + 3) st with
      | error e => rw [h3] at h; cases h
      | ok q =>
        rw [h3] at h; cases h
        intro n' hn'; cases hn'

theorem fieldsAux_sub (sep : Char → Bool) : ∀ (s cur : List Char) (w : List Char), w ∈ fieldsAux sep s cur →
    ∀ c ∈ w, c ∈ s ∨ c ∈ cur
  | [], cur, w, hw, c, hc => by
    simp only [fieldsAux] at hw
    split at hw
    · cases hw
    · simp only [List.mem_cons, List.not_mem_nil, or_false] at hw
      subst hw
      exact Or.inr (List.mem_reverse.mp hc)
  | x :: s, cur, w, hw, c, hc => by
    simp only [fieldsAux] at hw
    split at hw
    · split at hw
      · rcases fieldsAux_sub sep s [] w hw c hc with h | h
        · exact Or.inl (List.mem_cons_of_mem _ h)
        · cases h
      · rcases List.mem_cons.mp hw with rfl | hw
        · exact Or.inr (List.mem_reverse.mp hc)
        · rcases fieldsAux_sub sep s [] w hw c hc with h | h
          · exact Or.inl (List.mem_cons_of_mem _ h)
          · cases h
    · rcases fieldsAux_sub sep s (x :: cur) w hw c hc with h | h
      · exact Or.inl (List.mem_cons_of_mem _ h)
      · rcases List.mem_cons.mp h with rfl | h
        · exact Or.inl List.mem_cons_self
        · exact Or.inr h

theorem map_lower_id {w : List Char} (h : ∀ c ∈ w, lower c = c) : w.map lower = w := by
  induction w with
  | nil => rfl
  | cons c w ih =>
    rw [List.map_cons, h c List.mem_cons_self, ih fun x hx => h x (List.mem_cons_of_mem _ hx)]

/-! ## Texts without sample ranges -/

theorem scanNumber_lit (lit : List Char) (rest : List (List Char)) (c : Char) (hc : c ∈ (scanNumber lit rest).2.1) :
    ∃ t ∈ lit :: rest, c ∈ t := by
  unfold scanNumber at hc
  split at hc
  · rename_i next rest'
    split at hc
    · split at hc
      · rcases List.mem_append.mp hc with h | h
        · exact ⟨lit, List.mem_cons_self, h⟩
        · exact ⟨next, by simp, h⟩
      · rename_i next' rest''
        rcases List.mem_append.mp hc with h | h
        · rcases List.mem_append.mp h with h | h
          · exact ⟨lit, List.mem_cons_self, h⟩
          · exact ⟨next, by simp, h⟩
        · exact ⟨next', by simp, h⟩
    · exact ⟨lit, List.mem_cons_self, hc⟩
  · exact ⟨lit, List.mem_cons_self, hc⟩

theorem scan_lit : ∀ (toks : List (List Char)) (c : Char), c ∈ (scan toks).2.1 → c = '%' ∨ ∃ t ∈ toks, c ∈ t
  | [], c, h => by cases h
  | lit :: rest, c, h => by
    have ih := scan_lit rest c
    have key : ∀ (t : Tok), c ∈ (t, lit, rest).2.1 → c = '%' ∨ ∃ t ∈ lit :: rest, c ∈ t :=
      fun t h => Or.inr ⟨lit, List.mem_cons_self, h⟩
    simp only [scan] at h
    split at h
    · exact key _ h
    split at h
    · exact key _ h
    split at h
    · exact Or.inl (by simpa using h)
    split at h
    · exact key _ h
    split at h
    · exact key _ h
    split at h
    · exact key _ h
    split at h
    · exact key _ h
    split at h
    · rcases ih h with h | ⟨t, ht, hc⟩
      · exact Or.inl h
      · exact Or.inr ⟨t, List.mem_cons_of_mem _ ht, hc⟩
    · exact Or.inr (scanNumber_lit lit rest c h)

theorem cut_no {c : Char} {s : List Char} (h : c ∉ s) : cut c s = none := by
  unfold cut
  have : s.dropWhile (fun x => decide (x ≠ c)) = [] := by
    induction s with
    | nil => rfl
    | cons x s ih =>
      rw [List.mem_cons, not_or] at h
      rw [List.dropWhile_cons_of_pos (by simpa using fun e => h.1 e.symm)]
      exact ih h.2
  rw [this]

theorem samplesLoop_no_hang (budget : Nat) : ∀ (f : Nat) (st : PState), Inv (fun t => '~' ∉ t) st →
    samplesLoop budget f st ≠ .error .hang
  | 0, _, _ => by simp [samplesLoop]
  | f + 1, st, hi => by
    have step : ∀ {α : Type} (g : List (List Char) → Except PErr α), (∀ x, g x ≠ .error .hang) →
        (do let st' ← scanNext st; let r ← samplesLoop budget f st'; g r) ≠ .error PErr.hang := by
      intro α g hg h
      simp only [bind, Except.bind] at h
      cases h2 : scanNext st with
      | error e => rw [h2] at h; have := scanNext_err h2; subst this; cases h
      | ok st2 =>
        rw [h2] at h
        have ih := samplesLoop_no_hang budget f st2 (inv_scanNext hi h2)
        simp only [] at h
        cases hr : samplesLoop budget f st2 with
        | error e => rw [hr] at h; cases h; exact ih hr
        | ok q => rw [hr] at h; exact hg _ h
    intro h
    unfold samplesLoop at h
    split at h
    · cases h
    · simp only [bind, Except.bind] at h
      cases h2 : scanNext st with
      | error e => rw [h2] at h; have := scanNext_err h2; subst this; cases h
      | ok st2 => rw [h2] at h; exact samplesLoop_no_hang budget f st2 (inv_scanNext hi h2) h
    · exact step _ (fun x => by simp) h
    · exact step _ (fun x => by simp) h
    · have hp : parseSampleRange budget st.lit = .ok [st.lit] := by
        unfold parseSampleRange
        rw [cut_no]
        obtain ⟨toks, hT, rfl⟩ := hi
        intro hc
        rcases scan_lit toks _ hc with h | ⟨t, ht, hc⟩
        · cases h
        · exact hT t ht hc
      simp only [bind, Except.bind, hp] at h
      exact step (fun r => .ok ([st.lit] ++ r)) (fun x => by simp) h
    · cases h

theorem parse_no_hang (budget : Nat) (text : List Char) (hn : '~' ∉ text) : parse budget text ≠ .error .hang := by
  have hT : ∀ t ∈ generateTokens text, '~' ∉ t := by
    intro t ht hc
    rcases fieldsAux_sub _ text [] t ht _ hc with h | h
    · exact hn h
    · cases h
  unfold parse
  generalize generateTokens text = toks at *
  intro h
  unfold parseTokens at h
  simp only [bind, Except.bind] at h
  have hsm : ∀ st, Inv (fun t => '~' ∉ t) st → samples budget (toks.length + 3) st ≠ .error .hang := by
    intro st hi
    unfold samples
    split
    · simp
    · split
      · simp
      · exact samplesLoop_no_hang budget _ st hi
  cases h1 : scanNext ⟨.eof, [], toks⟩ with
  | error e => rw [h1] at h; have := scanNext_err h1; subst this; cases h
  | ok st =>
    rw [h1] at h
    have hi : Inv (fun t => '~' ∉ t) st := by rw [scanNext_ok h1]; exact inv_stateOf hT
    simp only [] at h
    have hs : size st ≤ toks.length := by
      have := scanNext_less h1
      unfold size
      split
      · omega
      · rename_i hne
        rcases this with h | h
        · exact absurd h hne
        · exact h
    split at h
    · have hc := condition_fine (toks.length + 3) st (by omega)
      cases h2 : condition (toks.length + 3) st with
      | error e => rw [h2] at h hc; simp only [Fine] at hc; subst hc; cases h
      | ok p =>
        obtain ⟨n, st1⟩ := p
        rw [h2] at h
        simp only [] at h
        cases h3 : samples budget (toks.length + 3) st1 with
        | error e => rw [h3] at h; cases h; exact hsm st1 (inv_condition _ hi h2).2 h3
        | ok q => rw [h3] at h; cases h
    · cases h3 : samples budget (toks.length + 3) st with
      | error e => rw [h3] at h; cases h; exact hsm st hi h3
      | ok q => rw [h3] at h; cases h

/-! ## When evaluation cannot fail -/

/-- No modulus is zero, except that of `n`. -/
def ModuliOk : Node → Prop
  | .rel (.modulo o v) _ _ => o = ['n'] ∨ v ≠ 0
  | .rel (.operand _) _ _ => True
  | .and x y => ModuliOk x ∧ ModuliOk y
  | .or x y => ModuliOk x ∧ ModuliOk y

/-- No range ends at the largest int64. -/
def UppersOk : Node → Prop
  | .rel _ _ its => ∀ lo hi, Item.range lo hi ∈ its → hi ≠ 2 ^ 63 - 1
  | .and x y => UppersOk x ∧ UppersOk y
  | .or x y => UppersOk x ∧ UppersOk y

theorem anyItem_ok (x : F64) : ∀ its : List Item, (∀ lo hi, Item.range lo hi ∈ its → hi ≠ 2 ^ 63 - 1) →
    ∃ b, anyItem x its = .ok b
  | [], _ => ⟨false, rfl⟩
  | it :: its, h => by
    obtain ⟨b, hb⟩ := anyItem_ok x its fun lo hi hm => h lo hi (List.mem_cons_of_mem _ hm)
    have hit : ∃ a, itemMatches x it = .ok a := by
      cases it with
      | value v => exact ⟨_, rfl⟩
      | range lo hi =>
        have := h lo hi List.mem_cons_self
        simp only [itemMatches]
        split
        · exact ⟨_, rfl⟩
        · rw [if_neg (fun hh => this hh.1)]; exact ⟨_, rfl⟩
    obtain ⟨a, ha⟩ := hit
    exact ⟨a || b, by simp only [anyItem, ha, hb, bind, Except.bind]⟩

theorem letter_cases {o : List Char} (h : o ∈ opLetters) : o = ['n'] ∨ o = ['i'] ∨ o = ['v'] ∨ o = ['w'] ∨
    o = ['f'] ∨ o = ['t'] ∨ o = ['c'] ∨ o = ['e'] := by
  simpa only [opLetters, List.mem_cons, List.not_mem_nil, or_false] using h

theorem expr_ok (x : ExprNode) (ops : Operands) (hn : ExprNode.name x ∈ opLetters)
    (hm : ∀ o v, x = .modulo o v → o = ['n'] ∨ v ≠ 0) : ∃ r, evaluateExpression x ops = .ok r := by
  cases x with
  | operand o =>
    rcases letter_cases hn with h | h | h | h | h | h | h | h <;> (simp only [ExprNode.name] at h; subst h; exact ⟨_, rfl⟩)
  | modulo o v =>
    have h0 := hm o v rfl
    have hmod : ∀ x, v ≠ 0 → ∃ r, intMod x v = .ok r := fun x hv => ⟨_, by unfold intMod; rw [if_neg hv]⟩
    have hv : o ≠ ['n'] → v ≠ 0 := fun hne => h0.resolve_left hne
    rcases letter_cases hn with h | h | h | h | h | h | h | h <;> simp only [ExprNode.name] at h <;> subst h
    · exact ⟨_, rfl⟩
    all_goals exact hmod _ (hv (by decide))

theorem evaluateNode_ok (ops : Operands) : ∀ n : Node, NodeNames (fun o => o.map lower = o) n → ModuliOk n →
    UppersOk n → ∃ b, evaluateNode n ops = .ok b
  | .rel x neg its, hn, hm, hu => by
    obtain ⟨r, hr⟩ := expr_ok x ops (by rw [← hn.1]; exact hn.2) (by
      intro o v he; subst he; exact hm)
    obtain ⟨b, hb⟩ := anyItem_ok r its hu
    exact ⟨if neg = true then !b else b, by simp only [evaluateNode, hr, hb, bind, Except.bind]⟩
  | .and x y, hn, hm, hu => by
    obtain ⟨a, ha⟩ := evaluateNode_ok ops x hn.1 hm.1 hu.1
    obtain ⟨b, hb⟩ := evaluateNode_ok ops y hn.2 hm.2 hu.2
    exact ⟨a && b, by simp only [evaluateNode, ha, hb, bind, Except.bind]⟩
  | .or x y, hn, hm, hu => by
    obtain ⟨a, ha⟩ := evaluateNode_ok ops x hn.1 hm.1 hu.1
    obtain ⟨b, hb⟩ := evaluateNode_ok ops y hn.2 hm.2 hu.2
    exact ⟨a || b, by simp only [evaluateNode, ha, hb, bind, Except.bind]⟩

/-! ## Conditions of the grammar -/

theorem uppersOk_rel {r : Rel} (h : r.WF (2 ^ 63 - 1)) (x : ExprNode) (n : Bool) :
    UppersOk (.rel x n (r.items.map astItem)) := by
  intro lo hi hm
  obtain ⟨it, hit, he⟩ := List.mem_map.mp hm
  have := h.2.1 it hit
  obtain ⟨a, b⟩ := it
  cases b with
  | none => cases he
  | some b =>
    cases he
    simp only [itemWF] at this
    omega

/-- What evaluation needs. -/
def Safe (n : Node) : Prop := NodeNames (fun o => o.map lower = o) n ∧ ModuliOk n ∧ UppersOk n

theorem rel_safe {r : Rel} (h : r.WF (2 ^ 63 - 1)) : Safe (astRel r) := by
  refine ⟨?_, ?_, uppersOk_rel h _ _⟩
  · have hn : ExprNode.name (astExpr r) = r.opd.text := by unfold astExpr; cases r.mod <;> rfl
    show nameOk _ (ExprNode.name (astExpr r))
    rw [hn]
    unfold nameOk
    cases r.opd <;> decide
  · unfold astRel astExpr
    cases hm : r.mod with
    | none => trivial
    | some m =>
      have := h.2.2 m hm
      exact Or.inr (by omega)

theorem conj_safe : ∀ c : List Rel, c ≠ [] → (∀ r ∈ c, r.WF (2 ^ 63 - 1)) → Safe (astConj c)
  | [], h, _ => absurd rfl h
  | [r], _, h => rel_safe (h r List.mem_cons_self)
  | r :: r' :: rs, _, h => by
    have h1 := rel_safe (h r List.mem_cons_self)
    have h2 := conj_safe (r' :: rs) (by simp) fun x hx => h x (List.mem_cons_of_mem _ hx)
    exact ⟨⟨h1.1, h2.1⟩, ⟨h1.2.1, h2.2.1⟩, ⟨h1.2.2, h2.2.2⟩⟩

theorem cond_safe : ∀ c : Cond, c ≠ [] → (∀ x ∈ c, x ≠ [] ∧ ∀ r ∈ x, r.WF (2 ^ 63 - 1)) → Safe (astCond c)
  | [], h, _ => absurd rfl h
  | [x], _, h => conj_safe x (h x List.mem_cons_self).1 (h x List.mem_cons_self).2
  | x :: x' :: xs, _, h => by
    have h1 := conj_safe x (h x List.mem_cons_self).1 (h x List.mem_cons_self).2
    have h2 := cond_safe (x' :: xs) (by simp) fun x hx => h x (List.mem_cons_of_mem _ hx)
    exact ⟨⟨h1.1, h2.1⟩, ⟨h1.2.1, h2.2.1⟩, ⟨h1.2.2, h2.2.2⟩⟩

end Verif.Proofs.Cldr
