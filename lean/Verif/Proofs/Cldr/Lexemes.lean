import Verif.Proofs.Cldr.Literals
/-! The words and lexemes of a rule, and the tokens that the scanner finds. -/
namespace Verif.Proofs.Cldr.Rules
open Verif.Go Verif.Model.Cldr Verif.Spec.Cldr Verif.Cldr

/-! ## Words -/

theorem gap_sepc {c : Char} : sepc c = true ↔ Gap c := by simp [sepc, Gap]

theorem splits_both : ∀ s : List Char, Splits s (fieldsAux sepc s []) ∧ ∀ cur, cur ≠ [] → ∃ u s' ws, s = u ++ s' ∧
    (∀ c ∈ u, ¬ Gap c) ∧ (s' = [] ∨ ∃ c r, s' = c :: r ∧ Gap c) ∧ Splits s' ws ∧ fieldsAux sepc s cur = (cur.reverse ++ u) :: ws
  | [] => ⟨.done, fun cur h => ⟨[], [], [], rfl, by simp, Or.inl rfl, .done, by simp [fieldsAux, h]⟩⟩
  | c :: cs => by
    obtain ⟨h1, h2⟩ := splits_both cs
    rcases Bool.eq_false_or_eq_true (sepc c) with hc | hc
    · refine ⟨?_, fun cur h => ?_⟩
      · simp only [fieldsAux, hc, if_true]
        exact .gap (gap_sepc.mp hc) h1
      · exact ⟨[], c :: cs, _, rfl, by simp, Or.inr ⟨c, cs, rfl, gap_sepc.mp hc⟩, .gap (gap_sepc.mp hc) h1,
          by simp [fieldsAux, hc, h]⟩
    · have hg : ¬ Gap c := fun h => by rw [gap_sepc.mpr h] at hc; cases hc
      refine ⟨?_, fun cur h => ?_⟩
      · obtain ⟨u, s', ws, rfl, hu, hs, hw, he⟩ := h2 [c] (by simp)
        simp only [fieldsAux, hc, Bool.false_eq_true, if_false]
        rw [he]
        simp only [List.reverse_cons, List.reverse_nil, List.nil_append, List.cons_append]
        exact Splits.word (w := c :: u) (by simp) (by
          intro x hx
          rcases List.mem_cons.mp hx with rfl | hx
          · exact hg
          · exact hu x hx) hs hw
      · obtain ⟨u, s', ws, rfl, hu, hs, hw, he⟩ := h2 (c :: cur) (by simp)
        refine ⟨c :: u, s', ws, rfl, ?_, hs, hw, ?_⟩
        · intro x hx
          rcases List.mem_cons.mp hx with rfl | hx
          · exact hg
          · exact hu x hx
        · simp only [fieldsAux, hc, Bool.false_eq_true, if_false]
          rw [he]; simp

theorem splits_fields {s : List Char} {ws : List (List Char)} (h : Splits s ws) : fieldsAux sepc s [] = ws := by
  induction h with
  | done => rfl
  | gap hc _ ih => simp only [fieldsAux, gap_sepc.mpr hc, if_true]; exact ih
  | @word w s ws h0 hw hs _ ih =>
    rw [fieldsAux_word w (fun c hc => by
      rcases Bool.eq_false_or_eq_true (sepc c) with h | h
      · exact absurd (gap_sepc.mp h) (hw c hc)
      · exact h)]
    rcases hs with rfl | ⟨c, r, rfl, hc⟩
    · rw [← ih]; simp [fieldsAux, h0]
    · rw [← ih]; simp [fieldsAux, h0, gap_sepc.mpr hc]

/-- Splitting into words is what `generateTokens` does. -/
theorem splits_iff {s : List Char} {ws : List (List Char)} : Splits s ws ↔ generateTokens s = ws :=
  ⟨splits_fields, fun h => h ▸ (splits_both s).1⟩

/-! ## Keywords -/

def Lowc (k : Char) : Prop := ¬ (65 ≤ k.toNat ∧ k.toNat ≤ 90) ∧ k.toNat ≠ 0x130

instance (k : Char) : Decidable (Lowc k) := inferInstanceAs (Decidable (_ ∧ _))

theorem upper_iff (c : Char) : ('A' ≤ c ∧ c ≤ 'Z') ↔ (65 ≤ c.toNat ∧ c.toNat ≤ 90) := by
  have h1 : 'A' ≤ c ↔ 65 ≤ c.toNat := UInt32.le_iff_toNat_le
  have h2 : c ≤ 'Z' ↔ c.toNat ≤ 90 := UInt32.le_iff_toNat_le
  rw [h1, h2]

theorem toNat_ofNat {n : Nat} (h : n < 0xd800) : (Char.ofNat n).toNat = n := by
  unfold Char.ofNat
  rw [dif_pos (Or.inl h)]
  rfl

theorem letter_lower {c k : Char} (hk : Lowc k) : Letter c k ↔ lower c = k := by
  unfold lower Letter
  constructor
  · rintro (rfl | ⟨h1, h2, h3⟩ | ⟨h1, rfl⟩)
    · rw [if_neg (by rw [upper_iff]; exact hk.1), if_neg hk.2]
    · rw [if_pos ((upper_iff c).mpr ⟨h2, h3⟩), h1, Char.ofNat_toNat]
    · rw [if_neg (by rw [upper_iff]; omega), if_pos h1]
  · split
    · rename_i h
      rintro rfl
      have := (upper_iff c).mp h
      exact Or.inr (Or.inl ⟨(toNat_ofNat (by omega)).symm, this⟩)
    · split
      · rename_i h; rintro rfl; exact Or.inr (Or.inr ⟨h, rfl⟩)
      · rintro rfl; exact Or.inl rfl

theorem spelled_lower {k : List Char} : ∀ {w : List Char}, (∀ c ∈ k, Lowc c) → (Spelled w k ↔ w.map lower = k) := by
  induction k with
  | nil =>
    intro w _
    cases w with
    | nil => exact ⟨fun _ => rfl, fun _ => .done⟩
    | cons c w => exact ⟨(fun h => by cases h), (fun h => by cases h)⟩
  | cons k ks ih =>
    intro w hk
    have ih := fun w => ih (w := w) fun c hc => hk c (List.mem_cons_of_mem _ hc)
    cases w with
    | nil => exact ⟨(fun h => by cases h), (fun h => by cases h)⟩
    | cons c w =>
      rw [List.map_cons, List.cons.injEq, ← ih, ← letter_lower (hk k List.mem_cons_self)]
      exact ⟨fun h => by cases h with | more h1 h2 => exact ⟨h1, h2⟩, fun h => .more h.1 h.2⟩

/-- A sign has one spelling. -/
theorem lower_sign {k : Char} (hk : Lowc k ∧ ¬ (97 ≤ k.toNat ∧ k.toNat ≤ 122)) {c : Char} : lower c = k ↔ c = k := by
  rw [← letter_lower hk.1]
  refine ⟨?_, Or.inl⟩
  rintro (h | ⟨h1, h2, h3⟩ | ⟨_, rfl⟩)
  · exact h
  · omega
  · exact absurd (by decide) hk.2

theorem map_sign {k : List Char} : (∀ c ∈ k, Lowc c ∧ ¬ (97 ≤ c.toNat ∧ c.toNat ≤ 122)) → ∀ {w : List Char}, w.map lower = k ↔ w = k := by
  induction k with
  | nil => intro _ w; simp
  | cons k ks ih =>
    intro hk w
    have ih := fun w => ih (fun c hc => hk c (List.mem_cons_of_mem _ hc)) (w := w)
    cases w with
    | nil => simp
    | cons c w => rw [List.map_cons, List.cons.injEq, List.cons.injEq, ih, lower_sign (hk k List.mem_cons_self)]

theorem operand_iff {w : List Char} : (w.map lower = ['n'] ∨ w.map lower = ['i'] ∨ w.map lower = ['v'] ∨ w.map lower = ['w'] ∨
    w.map lower = ['f'] ∨ w.map lower = ['t'] ∨ w.map lower = ['c'] ∨ w.map lower = ['e']) ↔ Keyword w (.operand w) := by
  constructor
  · intro h
    have : w.map lower ∈ [['n'], ['i'], ['v'], ['w'], ['f'], ['t'], ['c'], ['e']] := by simpa using h
    exact .operand this ((spelled_lower (by
      revert this; generalize w.map lower = k; revert k; decide)).mpr rfl)
  · intro h
    cases h with
    | @operand _ k h1 h2 =>
      have := (spelled_lower (by revert h1; clear h2; revert k; decide)).mp h2
      rw [this]; simpa using h1

theorem mod_iff {w : List Char} : (w.map lower = ['%'] ∨ w.map lower = ['m', 'o', 'd']) ↔ Keyword w .mod := by
  rw [map_sign (by decide), ← spelled_lower (by decide)]
  exact ⟨fun h => h.elim (fun e => e ▸ .percent) .mod, fun h => by cases h <;> simp_all⟩

theorem eq_iff {w : List Char} : w.map lower = ['='] ↔ Keyword w .eq := by
  rw [map_sign (by decide)]
  exact ⟨fun e => e ▸ .eq, fun h => by cases h; rfl⟩

theorem ne_iff {w : List Char} : w.map lower = ['!', '='] ↔ Keyword w .ne := by
  rw [map_sign (by decide)]
  exact ⟨fun e => e ▸ .ne, fun h => by cases h; rfl⟩

theorem samples_iff {w : List Char} : (w.map lower = ['@', 'i', 'n', 't', 'e', 'g', 'e', 'r'] ∨
    w.map lower = ['@', 'd', 'e', 'c', 'i', 'm', 'a', 'l']) ↔ Keyword w .samples := by
  rw [← spelled_lower (by decide), ← spelled_lower (by decide)]
  exact ⟨fun h => h.elim .integer .decimal, fun h => by cases h <;> simp_all⟩

theorem and_iff {w : List Char} : w.map lower = ['a', 'n', 'd'] ↔ Keyword w .and := by
  rw [← spelled_lower (by decide)]
  exact ⟨.and, fun h => by cases h; assumption⟩

theorem or_iff {w : List Char} : w.map lower = ['o', 'r'] ↔ Keyword w .or := by
  rw [← spelled_lower (by decide)]
  exact ⟨.or, fun h => by cases h; assumption⟩

theorem ellipsis_iff {w : List Char} : (w.map lower = ['…'] ∨ w.map lower = ['.', '.', '.'] ∨ w.map lower = ['.']) ↔ Ellipsis w := by
  rw [map_sign (by decide), map_sign (by decide), map_sign (by decide)]
  rfl

/-! ## Tokens -/

theorem next_size {st : PState} (h : st.tok ≠ .eof) : size (stateOf st.rest) < size st := scanNext_size (scanNext_all st) h

/-- The tokens from the current one. -/
def toks (st : PState) : List (Tok × List Char) :=
  if h : st.tok = .eof then [] else (st.tok, st.lit) :: toks (stateOf st.rest)
termination_by size st
decreasing_by exact next_size h

theorem toks_eof {st : PState} (h : st.tok = .eof) : toks st = [] := by unfold toks; rw [dif_pos h]

theorem toks_cons {st : PState} (h : st.tok ≠ .eof) : toks st = (st.tok, st.lit) :: toks (stateOf st.rest) := by
  conv => lhs; unfold toks
  rw [dif_neg h]

theorem toks_inv {st : PState} {t : Tok × List Char} {r : List (Tok × List Char)} (h : toks st = t :: r) :
    st.tok = t.1 ∧ st.lit = t.2 ∧ toks (stateOf st.rest) = r ∧ st.tok ≠ .eof := by
  rcases Decidable.em (st.tok = .eof) with he | he
  · rw [toks_eof he] at h; cases h
  · rw [toks_cons he] at h
    cases h
    exact ⟨rfl, rfl, rfl, he⟩

theorem toks_nil {st : PState} (h : toks st = []) : st.tok = .eof := by
  rcases Decidable.em (st.tok = .eof) with he | he
  · exact he
  · rw [toks_cons he] at h; cases h

theorem size_zero {st : PState} (h : size st ≤ 0) : st.tok = .eof := by
  unfold size at h
  split at h
  · assumption
  · omega

theorem toks_length : ∀ (n : Nat) (st : PState), size st ≤ n → (toks st).length ≤ n := by
  intro n
  induction n with
  | zero =>
    intro st h
    rw [toks_eof (size_zero h)]
    exact Nat.le_refl _
  | succ n ih =>
    intro st h
    rcases Decidable.em (st.tok = .eof) with he | he
    · rw [toks_eof he]; exact Nat.zero_le _
    · rw [toks_cons he]
      have := ih _ (by have := next_size he; omega : size (stateOf st.rest) ≤ n)
      simp only [List.length_cons]; omega

theorem size_stateOf (ws : List (List Char)) : size (stateOf ws) ≤ ws.length := by
  unfold size
  split
  · exact Nat.zero_le _
  · rename_i h
    rcases scan_shrinks ws with h' | h'
    · exact absurd h' h
    · exact h'

def toLex : Tok × List Char → Lexeme
  | (.operand, w) => .operand w
  | (.rem, _) => .mod
  | (.equal, _) => .eq
  | (.notEqual, _) => .ne
  | (.and, _) => .and
  | (.or, _) => .or
  | (.sample, _) => .samples
  | (_, w) => .number w

/-- A token for a number of one of the four kinds. -/
def Num (t : Tok) : Prop := t = .value ∨ t = .sampleValue ∨ t = .valueRange ∨ t = .sampleRange

theorem scanNumber_join {w j v : List Char} {R : List (List Char)} (hj : Joins j) :
    scanNumber w (j :: v :: R) = (classify (w ++ j ++ v), w ++ j ++ v, R) := by
  unfold scanNumber
  exact if_pos hj

theorem scanNumber_open {w j : List Char} (hj : Joins j) : scanNumber w [j] = (.unknown, w ++ j, []) := by
  unfold scanNumber
  exact if_pos hj

theorem scanNumber_kind (w : List Char) (R : List (List Char)) (h : (scanNumber w R).1 ≠ .unknown) :
    (scanNumber w R).1 = classify (scanNumber w R).2.1 := by
  cases R with
  | nil => rfl
  | cons j R =>
    rcases Classical.em (Joins j) with hj | hj
    · cases R with
      | nil => rw [scanNumber_open hj] at h; exact absurd rfl h
      | cons v R => rw [scanNumber_join hj]
    · rw [scanNumber_noCont fun t r' e => by
        cases e
        exact ⟨fun h => hj (Or.inl h), fun h => hj (Or.inr h)⟩]

theorem scan_number {w : List Char} {R : List (List Char)} (h1 : ∀ l, ¬ Keyword w l) (h2 : ¬ Ellipsis w) :
    scan (w :: R) = scanNumber w R := by
  simp only [scan]
  rw [if_neg (fun h => h1 _ (operand_iff.mp h)), if_neg (fun h => h1 _ (eq_iff.mp h)), if_neg (fun h => h1 _ (mod_iff.mp h)),
    if_neg (fun h => h1 _ (ne_iff.mp h)), if_neg (fun h => h1 _ (samples_iff.mp h)), if_neg (fun h => h1 _ (and_iff.mp h)),
    if_neg (fun h => h1 _ (or_iff.mp h)), if_neg (fun h => h2 (ellipsis_iff.mp h))]

/-- The four ways in which a word is read. -/
theorem scan_cases (w : List Char) (R : List (List Char)) :
    (∃ t v l, Keyword w l ∧ scan (w :: R) = (t, v, R) ∧ toLex (t, v) = l ∧ ¬ Num t ∧ t ≠ .eof ∧ t ≠ .unknown) ∨
    (Ellipsis w ∧ scan (w :: R) = scan R) ∨
    ((∀ l, ¬ Keyword w l) ∧ ¬ Ellipsis w ∧ scan (w :: R) = scanNumber w R) := by
  have fin : ∀ {t v l}, Keyword w l → scan (w :: R) = (t, v, R) → toLex (t, v) = l → ¬ Num t ∧ t ≠ .eof ∧ t ≠ .unknown →
      (∃ t v l, Keyword w l ∧ scan (w :: R) = (t, v, R) ∧ toLex (t, v) = l ∧ ¬ Num t ∧ t ≠ .eof ∧ t ≠ .unknown) :=
    fun h1 h2 h3 h4 => ⟨_, _, _, h1, h2, h3, h4⟩
  rcases Classical.em (∃ l, Keyword w l) with ⟨l, hl⟩ | hk
  · left
    by_cases c1 : Keyword w (.operand w)
    · exact fin c1 (by simp only [scan]; rw [if_pos (operand_iff.mpr c1)]) rfl (by simp [Num])
    have n1 := fun h => c1 (operand_iff.mp h)
    by_cases c2 : Keyword w .eq
    · exact fin c2 (by simp only [scan]; rw [if_neg n1, if_pos (eq_iff.mpr c2)]) rfl (by simp [Num])
    have n2 := fun h => c2 (eq_iff.mp h)
    by_cases c3 : Keyword w .mod
    · exact fin c3 (by simp only [scan]; rw [if_neg n1, if_neg n2, if_pos (mod_iff.mpr c3)]) rfl (by simp [Num])
    have n3 := fun h => c3 (mod_iff.mp h)
    by_cases c4 : Keyword w .ne
    · exact fin c4 (by simp only [scan]; rw [if_neg n1, if_neg n2, if_neg n3, if_pos (ne_iff.mpr c4)]) rfl (by simp [Num])
    have n4 := fun h => c4 (ne_iff.mp h)
    by_cases c5 : Keyword w .samples
    · exact fin c5 (by simp only [scan]; rw [if_neg n1, if_neg n2, if_neg n3, if_neg n4, if_pos (samples_iff.mpr c5)]) rfl
        (by simp [Num])
    have n5 := fun h => c5 (samples_iff.mp h)
    by_cases c6 : Keyword w .and
    · exact fin c6 (by simp only [scan]; rw [if_neg n1, if_neg n2, if_neg n3, if_neg n4, if_neg n5, if_pos (and_iff.mpr c6)]) rfl
        (by simp [Num])
    have n6 := fun h => c6 (and_iff.mp h)
    by_cases c7 : Keyword w .or
    · exact fin c7 (by simp only [scan]; rw [if_neg n1, if_neg n2, if_neg n3, if_neg n4, if_neg n5, if_neg n6,
        if_pos (or_iff.mpr c7)]) rfl (by simp [Num])
    exfalso
    cases hl with
    | operand h1 h2 => exact c1 (.operand h1 h2)
    | percent => exact c3 .percent
    | mod h => exact c3 (.mod h)
    | eq => exact c2 .eq
    | ne => exact c4 .ne
    | integer h => exact c5 (.integer h)
    | decimal h => exact c5 (.decimal h)
    | and h => exact c6 (.and h)
    | or h => exact c7 (.or h)
  · have hk : ∀ l, ¬ Keyword w l := fun l h => hk ⟨l, h⟩
    right
    by_cases he : Ellipsis w
    · left
      refine ⟨he, ?_⟩
      conv => lhs; simp only [scan]
      rw [if_neg (fun h => hk _ (operand_iff.mp h)), if_neg (fun h => hk _ (eq_iff.mp h)), if_neg (fun h => hk _ (mod_iff.mp h)),
        if_neg (fun h => hk _ (ne_iff.mp h)), if_neg (fun h => hk _ (samples_iff.mp h)), if_neg (fun h => hk _ (and_iff.mp h)),
        if_neg (fun h => hk _ (or_iff.mp h)), if_pos (ellipsis_iff.mpr he)]
    · exact Or.inr ⟨hk, he, scan_number hk he⟩

/-- The keyword of a word in small letters. -/
def lexOf (w k : List Char) : Option Lexeme :=
  if k ∈ [['n'], ['i'], ['v'], ['w'], ['f'], ['t'], ['c'], ['e']] then some (.operand w)
  else if k = ['%'] ∨ k = ['m', 'o', 'd'] then some .mod
  else if k = ['='] then some .eq
  else if k = ['!', '='] then some .ne
  else if k = ['@', 'i', 'n', 't', 'e', 'g', 'e', 'r'] ∨ k = ['@', 'd', 'e', 'c', 'i', 'm', 'a', 'l'] then some .samples
  else if k = ['a', 'n', 'd'] then some .and
  else if k = ['o', 'r'] then some .or
  else none

theorem keyword_lexOf {w : List Char} {l : Lexeme} (h : Keyword w l) : lexOf w (w.map lower) = some l := by
  cases h with
  | @operand _ k h1 h2 =>
    rw [(spelled_lower (by revert h1; clear h2; revert k; decide)).mp h2]
    unfold lexOf; rw [if_pos h1]
  | percent => rfl
  | mod h => rw [(spelled_lower (by decide)).mp h]; rfl
  | eq => rfl
  | ne => rfl
  | integer h => rw [(spelled_lower (by decide)).mp h]; rfl
  | decimal h => rw [(spelled_lower (by decide)).mp h]; rfl
  | and h => rw [(spelled_lower (by decide)).mp h]; rfl
  | or h => rw [(spelled_lower (by decide)).mp h]; rfl

theorem keyword_unique {w : List Char} {l l' : Lexeme} (h : Keyword w l) (h' : Keyword w l') : l = l' := by
  have := keyword_lexOf h
  rw [keyword_lexOf h'] at this
  exact (Option.some.inj this).symm

theorem ellipsis_not_keyword {w : List Char} (he : Ellipsis w) {l : Lexeme} (h : Keyword w l) : False := by
  have := keyword_lexOf h
  rcases he with rfl | rfl | rfl <;> cases this

theorem scan_keyword {w : List Char} {l : Lexeme} (h : Keyword w l) (R : List (List Char)) :
    ∃ t v, scan (w :: R) = (t, v, R) ∧ toLex (t, v) = l ∧ ¬ Num t ∧ t ≠ .eof ∧ t ≠ .unknown := by
  rcases scan_cases w R with ⟨t, v, l', hk, hs, hl, h'⟩ | ⟨he, _⟩ | ⟨hk, _⟩
  · exact ⟨t, v, hs, hl.trans (keyword_unique hk h), h'⟩
  · exact (ellipsis_not_keyword he h).elim
  · exact absurd h (hk l)

theorem scan_ellipsis {w : List Char} (h : Ellipsis w) (R : List (List Char)) : scan (w :: R) = scan R := by
  rcases scan_cases w R with ⟨t, v, l', hk, hs, hl, h'⟩ | ⟨_, hs⟩ | ⟨_, he, _⟩
  · exact (ellipsis_not_keyword h hk).elim
  · exact hs
  · exact absurd h he

/-- The kind of a number token is the one of its text. -/
def Good (ts : List (Tok × List Char)) : Prop := ∀ t ∈ ts, Num t.1 → t.1 = classify t.2

theorem scan_good : ∀ ws : List (List Char), Num (scan ws).1 → (scan ws).1 = classify (scan ws).2.1
  | [], h => by rcases h with h | h | h | h <;> cases h
  | w :: R, h => by
    rcases scan_cases w R with ⟨t, v, l', hk, hs, hl, hn, _⟩ | ⟨_, hs⟩ | ⟨_, _, hs⟩
    · rw [hs] at h; exact absurd h hn
    · rw [hs] at h ⊢; exact scan_good R h
    · rw [hs] at h ⊢
      refine scanNumber_kind w R ?_
      intro e; rw [e] at h; rcases h with h | h | h | h <;> cases h

theorem toks_good : ∀ (n : Nat) (ws : List (List Char)), size (stateOf ws) ≤ n → Good (toks (stateOf ws)) := by
  intro n
  induction n with
  | zero =>
    intro ws h t ht
    rw [toks_eof (size_zero h)] at ht
    cases ht
  | succ n ih =>
    intro ws h t ht
    rcases Decidable.em ((stateOf ws).tok = .eof) with he | he
    · rw [toks_eof he] at ht; cases ht
    · rw [toks_cons he] at ht
      rcases List.mem_cons.mp ht with rfl | ht
      · exact scan_good ws
      · exact ih _ (by have := next_size he; omega) t ht

def Known (ts : List (Tok × List Char)) : Prop := ∀ t ∈ ts, t.1 ≠ .unknown

theorem toLex_num {t : Tok} {v : List Char} (h : t = .unknown ∨ t = .eof ∨ Num t) : toLex (t, v) = .number v := by
  rcases h with rfl | rfl | rfl | rfl | rfl | rfl <;> rfl

theorem classify_num (w : List Char) : classify w = .unknown ∨ Num (classify w) := by
  unfold classify Num
  (repeat' split) <;> simp

/-- Words whose tokens are all known are read as these tokens. -/
theorem reads_sound : ∀ (n : Nat) (ws : List (List Char)), ws.length ≤ n → Known (toks (stateOf ws)) →
    Reads ws ((toks (stateOf ws)).map toLex) := by
  intro n
  induction n with
  | zero =>
    intro ws h _
    cases ws with
    | nil => rw [toks_eof rfl]; exact .done
    | cons => simp at h
  | succ n ih =>
    intro ws h hk
    cases ws with
    | nil => rw [toks_eof rfl]; exact .done
    | cons w R =>
      simp only [List.length_cons, Nat.add_le_add_iff_right] at h
      rcases scan_cases w R with ⟨t, v, l, hw, hs, hl, hn, hne, hu⟩ | ⟨he, hs⟩ | ⟨hw, he, hs⟩
      · have e : stateOf (w :: R) = ⟨t, v, R⟩ := by unfold stateOf; rw [hs]
        rw [e, toks_cons hne] at hk ⊢
        simp only [List.map_cons, hl]
        exact .keyword hw (ih R h fun t ht => hk t (List.mem_cons_of_mem _ ht))
      · have e : stateOf (w :: R) = stateOf R := by unfold stateOf; rw [hs]
        rw [e] at hk ⊢
        exact .skip he (ih R h hk)
      · have single : (∀ j r, R = j :: r → ¬ Joins j) → scanNumber w R = (classify w, w, R) →
            Reads (w :: R) ((toks (stateOf (w :: R))).map toLex) := by
          intro hj hsn
          have e : stateOf (w :: R) = ⟨classify w, w, R⟩ := by unfold stateOf; rw [hs, hsn]
          have hu : classify w ≠ .unknown ∧ classify w ≠ .eof := by
            refine ⟨fun hc => ?_, fun hc => ?_⟩
            · rw [e, toks_cons (by rw [hc]; intro e; cases e)] at hk
              exact hk _ List.mem_cons_self hc
            · rcases classify_num w with h' | h' | h' | h' | h' <;> rw [hc] at h' <;> cases h'
          rw [e, toks_cons hu.2] at hk ⊢
          simp only [List.map_cons]
          rw [toLex_num (by rcases classify_num w with h' | h'; exact absurd h' hu.1; exact Or.inr (Or.inr h'))]
          exact .number hw he hj (ih R h fun t ht => hk t (List.mem_cons_of_mem _ ht))
        cases R with
        | nil => exact single (by simp) rfl
        | cons j r =>
          rcases Classical.em (Joins j) with hj | hj
          · cases r with
            | nil =>
              have e : stateOf (w :: [j]) = ⟨.unknown, w ++ j, []⟩ := by
                unfold stateOf; rw [hs, scanNumber_open hj]
              rw [e, toks_cons (by intro e; cases e)] at hk
              exact absurd rfl (hk _ List.mem_cons_self)
            | cons v r =>
              have e : stateOf (w :: j :: v :: r) = ⟨classify (w ++ j ++ v), w ++ j ++ v, r⟩ := by
                unfold stateOf; rw [hs, scanNumber_join hj]
              have hu : classify (w ++ j ++ v) ≠ .unknown ∧ classify (w ++ j ++ v) ≠ .eof := by
                refine ⟨fun hc => ?_, fun hc => ?_⟩
                · rw [e, toks_cons (by rw [hc]; intro e; cases e)] at hk
                  exact hk _ List.mem_cons_self hc
                · rcases classify_num (w ++ j ++ v) with h' | h' | h' | h' | h' <;> rw [hc] at h' <;> cases h'
              rw [e, toks_cons hu.2] at hk ⊢
              simp only [List.map_cons]
              rw [toLex_num (by rcases classify_num (w ++ j ++ v) with h' | h'; exact absurd h' hu.1; exact Or.inr (Or.inr h'))]
              exact .joined hw he hj (ih r (by simp only [List.length_cons] at h; omega) fun t ht => hk t (List.mem_cons_of_mem _ ht))
          · refine single (fun j' r' e => by cases e; exact hj) ?_
            exact scanNumber_noCont fun t r' e => by
              cases e
              exact ⟨fun h => hj (Or.inl h), fun h => hj (Or.inr h)⟩

/-- Every number lexeme comes with its kind. -/
def Full (ts : List (Tok × List Char)) : Prop := ∀ t ∈ ts, ∀ w, toLex t = .number w → t.1 = classify w ∧ t.2 = w

theorem full_key {t : Tok} {v : List Char} (hn : ¬ Num t ∧ t ≠ .eof ∧ t ≠ .unknown) {w : List Char} (h : toLex (t, v) = .number w) : False := by
  obtain ⟨h1, h2, h3⟩ := hn
  cases t <;> simp [toLex, Num] at * 

theorem reads_complete {ws : List (List Char)} {ls : List Lexeme} (h : Reads ws ls) :
    (toks (stateOf ws)).map toLex = ls ∧ Full (toks (stateOf ws)) := by
  have num : ∀ (x : List Char) (R : List (List Char)) (ls : List Lexeme), ((toks (stateOf R)).map toLex = ls ∧ Full (toks (stateOf R))) →
      (toks ⟨classify x, x, R⟩).map toLex = .number x :: ls ∧ Full (toks ⟨classify x, x, R⟩) := by
    intro x R ls ih
    have hu : classify x ≠ .eof := by
      intro hc
      rcases classify_num x with h' | h' | h' | h' | h' <;> rw [hc] at h' <;> cases h'
    rw [toks_cons hu]
    have hl : toLex (classify x, x) = .number x := toLex_num (by
      rcases classify_num x with h' | h'; exact Or.inl h'; exact Or.inr (Or.inr h'))
    refine ⟨by rw [List.map_cons, hl, ih.1], ?_⟩
    intro t ht w hw
    rcases List.mem_cons.mp ht with rfl | ht
    · rw [hl] at hw; cases hw; exact ⟨rfl, rfl⟩
    · exact ih.2 t ht w hw
  induction h with
  | done => rw [toks_eof rfl]; exact ⟨rfl, by intro t ht; cases ht⟩
  | @skip w ws ls he _ ih =>
    have e : stateOf (w :: ws) = stateOf ws := by unfold stateOf; rw [scan_ellipsis he]
    rw [e]; exact ih
  | @keyword w l ws ls hw _ ih =>
    obtain ⟨t, v, hs, hl, hn⟩ := scan_keyword hw ws
    have e : stateOf (w :: ws) = ⟨t, v, ws⟩ := by unfold stateOf; rw [hs]
    rw [e, toks_cons hn.2.1]
    refine ⟨by rw [List.map_cons, hl, ih.1], ?_⟩
    intro t' ht x hx
    rcases List.mem_cons.mp ht with rfl | ht
    · exact (full_key hn hx).elim
    · exact ih.2 t' ht x hx
  | @joined w j v ws ls hw he hj _ ih =>
    have e : stateOf (w :: j :: v :: ws) = ⟨classify (w ++ j ++ v), w ++ j ++ v, ws⟩ := by
      unfold stateOf; rw [scan_number hw he, scanNumber_join hj]
    rw [e]; exact num _ _ _ ih
  | @number w ws ls hw he hj _ ih =>
    have e : stateOf (w :: ws) = ⟨classify w, w, ws⟩ := by
      unfold stateOf
      rw [scan_number hw he, scanNumber_noCont fun t r' e => ⟨fun h => hj t r' e (Or.inl h), fun h => hj t r' e (Or.inr h)⟩]
    rw [e]; exact num _ _ _ ih

end Verif.Proofs.Cldr.Rules
