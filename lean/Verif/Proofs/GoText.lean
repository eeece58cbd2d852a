import Verif.Proofs.GoCode
/-! Texts of Go conditions: how tokens are put together, and what the combinations mean. -/
namespace Verif.Proofs.GoText
open Verif.Go Verif.Spec.GoCode
open Verif.Proofs.GoCode (fuse Apart lex_append semis_id gram_le gram_unique body_unique)

/-! ## Tokens -/

/-- A character before which a token always ends. -/
def softR (c : Char) : Bool := !isWordChar c && c != '=' && c != '&' && c != '|'
/-- A character after which a token always ends. -/
def softL (c : Char) : Bool := !isWordChar c && c != '=' && c != '!' && c != '<' && c != '>' && c != '&' && c != '|'

theorem fuse_softR (x : Char) {c : Char} (h : softR c = true) : fuse x c = false := by
  simp only [softR, Bool.and_eq_true, Bool.not_eq_true', bne_iff_ne, ne_eq] at h
  simp [fuse, pairTok, h.1.1.1, h.1.1.2, h.1.2, h.2]

theorem fuse_softL {c : Char} (x : Char) (h : softL c = true) : fuse c x = false := by
  simp only [softL, Bool.and_eq_true, Bool.not_eq_true', bne_iff_ne, ne_eq] at h
  simp [fuse, pairTok, h]

/-- Tokens of a text without a pending token. -/
abbrev T (s : List Char) : List Tok := lexFrom .none s

theorem T_pre (pre b : List Char) (h : ∃ c, pre.getLast? = some c ∧ softL c = true) :
    T (pre ++ b) = T pre ++ T b := by
  obtain ⟨c, hc, hs⟩ := h
  apply lex_append
  intro x y hx _
  rw [hc] at hx; cases hx
  exact fuse_softL y hs

theorem T_suf (a suf : List Char) (h : ∃ c, suf.head? = some c ∧ softR c = true) :
    T (a ++ suf) = T a ++ T suf := by
  obtain ⟨c, hc, hs⟩ := h
  apply lex_append
  intro x y _ hy
  rw [hc] at hy; cases hy
  exact fuse_softR x hs

theorem T_mid (a sep b : List Char) (hne : ∃ c, sep.head? = some c ∧ softR c = true)
    (hl : ∃ c, sep.getLast? = some c ∧ softL c = true) :
    T (a ++ sep ++ b) = T a ++ T sep ++ T b := by
  have hn : sep ≠ [] := by rintro rfl; obtain ⟨c, hc, _⟩ := hne; exact nomatch hc
  rw [T_pre (a ++ sep) b, T_suf a sep hne]
  obtain ⟨c, hc, hs⟩ := hl
  refine ⟨c, ?_, hs⟩
  rw [List.getLast?_append, hc]
  rfl

theorem T_word : ∀ (w r : List Char), (∀ c ∈ w, isWordChar c = true) →
    lexFrom (.word r) w = [wordTok (r.reverse ++ w)]
  | [], r, _ => by simp [lexFrom, Pend.flush]
  | c :: w, r, h => by
    have hc : isWordChar c = true := h c (List.mem_cons_self ..)
    simp only [lexFrom, step, hc, if_true, List.nil_append]
    rw [T_word w (c :: r) fun x hx => h x (List.mem_cons_of_mem _ hx)]
    simp

/-- A decimal literal. -/
theorem T_digits {s : List Char} (h0 : s ≠ []) (hd : ∀ c ∈ s, c.isDigit = true) (hz : s.head? ≠ some '0' ∨ s.length = 1) :
    T s = [.int (decVal s)] := by
  cases hw : s with
  | nil => exact absurd hw h0
  | cons c cs =>
    have hd' : ∀ x ∈ c :: cs, x.isDigit = true := by rw [← hw]; exact hd
    have hword : ∀ x ∈ c :: cs, isWordChar x = true := fun x hx => by
      simp [isWordChar, Char.isAlphanum, hd' x hx]
    have hc := hword c (List.mem_cons_self ..)
    simp only [T, lexFrom, step, start, hc, if_true, List.nil_append]
    rw [T_word cs [c] fun x hx => hword x (List.mem_cons_of_mem _ hx)]
    simp only [List.reverse_cons, List.reverse_nil, List.nil_append, List.singleton_append]
    have h0 : c ≠ '0' ∨ cs = [] := by
      rw [hw] at hz
      rcases hz with hz | hz
      · left; rintro rfl; exact hz rfl
      · right; exact List.length_eq_zero_iff.mp (by simpa using hz)
    have hall : cs.all Char.isDigit = true := List.all_eq_true.mpr fun x hx => hd' x (List.mem_cons_of_mem _ hx)
    simp only [wordTok, hd' c (List.mem_cons_self ..), if_true]
    rw [if_pos ⟨hall, h0⟩]

/-! ## Conditions -/

variable {Γ : Env}

/-- The text is a condition of the grammar level `l` that is true exactly if `P`. -/
def Means (Γ : Env) (l : Nat) (s : List Char) (P : Prop) : Prop :=
  .nl ∉ T s ∧ ∃ e, Gram l (T s) e ∧ tys Γ e = some [.bool] ∧
    ∃ b, vals Γ e = some [.bool b] ∧ (b = true ↔ P)

theorem Means.condition {s : List Char} {P : Prop} (h : Means Γ 1 s P) :
    ∃ b, Condition Γ s b ∧ (b = true ↔ P) := by
  obtain ⟨hn, e, hg, ht, b, hv, hb⟩ := h
  refine ⟨b, ⟨e, ?_, by simp [typeOf, ht, one], by simp [value, hv, one]⟩, hb⟩
  unfold Reads lex
  rw [semis_id none _ hn]
  exact hg

theorem Means.le {l m : Nat} {s : List Char} {P : Prop} (h : Means Γ m s P) (hl : l ≤ m) : Means Γ l s P := by
  obtain ⟨hn, e, hg, r⟩ := h
  exact ⟨hn, e, gram_le hg hl, r⟩

theorem Means.iff {l : Nat} {s : List Char} {P Q : Prop} (h : Means Γ l s P) (hl : P ↔ Q) : Means Γ l s Q := by
  obtain ⟨hn, e, hg, ht, b, hv, hb⟩ := h
  exact ⟨hn, e, hg, ht, b, hv, hb.trans hl⟩

theorem Means.and {a b : List Char} {P Q : Prop} (ha : Means Γ 2 a P) (hb : Means Γ 3 b Q) :
    Means Γ 2 (a ++ " && ".toList ++ b) (P ∧ Q) := by
  obtain ⟨na, ea, ga, ta, va, wa, ia⟩ := ha
  obtain ⟨nb, eb, gb, tb, vb, wb, ib⟩ := hb
  have hT : T (a ++ " && ".toList ++ b) = T a ++ .op .and :: T b := by
    rw [T_mid a _ b ⟨' ', by decide, by decide⟩ ⟨' ', by decide, by decide⟩]
    have : T " && ".toList = [.op .and] := by decide
    rw [this]; simp
  refine ⟨by rw [hT]; simp [na, nb], .bin .and ea eb, ?_, ?_, va && vb, ?_, ?_⟩
  · rw [hT]; exact Gram.bin .and ga gb
  · simp [tys, ta, tb, one, binTy]
  · cases va <;> simp [vals, wa, wb, one]
  · simp [ia, ib]

theorem Means.or {a b : List Char} {P Q : Prop} (ha : Means Γ 1 a P) (hb : Means Γ 2 b Q) :
    Means Γ 1 (a ++ " || ".toList ++ b) (P ∨ Q) := by
  obtain ⟨na, ea, ga, ta, va, wa, ia⟩ := ha
  obtain ⟨nb, eb, gb, tb, vb, wb, ib⟩ := hb
  have hT : T (a ++ " || ".toList ++ b) = T a ++ .op .or :: T b := by
    rw [T_mid a _ b ⟨' ', by decide, by decide⟩ ⟨' ', by decide, by decide⟩]
    have : T " || ".toList = [.op .or] := by decide
    rw [this]; simp
  refine ⟨by rw [hT]; simp [na, nb], .bin .or ea eb, ?_, ?_, va || vb, ?_, ?_⟩
  · rw [hT]; exact Gram.bin .or ga gb
  · simp [tys, ta, tb, one, binTy]
  · cases va <;> simp [vals, wa, wb, one]
  · simp [ia, ib]

theorem Means.paren' {a pre suf : List Char} {P : Prop} (ha : Means Γ 1 a P)
    (hp : ∃ c, pre.getLast? = some c ∧ softL c = true) (hs : ∃ c, suf.head? = some c ∧ softR c = true)
    (tp : T pre = [.lp]) (ts : T suf = [.rp]) : Means Γ 7 (pre ++ a ++ suf) P := by
  obtain ⟨na, ea, ga, r⟩ := ha
  have hT : T (pre ++ a ++ suf) = .lp :: T a ++ [.rp] := by
    rw [T_suf _ _ hs, T_pre _ _ hp, tp, ts]; rfl
  refine ⟨by rw [hT]; simp [na], ea, ?_, r⟩
  rw [hT]; exact Gram.paren ga

theorem Means.paren {a : List Char} {P : Prop} (ha : Means Γ 1 a P) :
    Means Γ 7 ("(".toList ++ a ++ ")".toList) P :=
  ha.paren' ⟨'(', by decide, by decide⟩ ⟨')', by decide, by decide⟩ (by decide) (by decide)

theorem Means.spaced {a : List Char} {P : Prop} (ha : Means Γ 1 a P) :
    Means Γ 7 ("( ".toList ++ a ++ " )".toList) P :=
  ha.paren' ⟨' ', by decide, by decide⟩ ⟨' ', by decide, by decide⟩ (by decide) (by decide)

theorem Means.not {a : List Char} {P : Prop} (ha : Means Γ 6 a P) (hh : a.head? ≠ some '=') :
    Means Γ 6 ('!' :: a) (¬ P) := by
  obtain ⟨na, ea, ga, ta, va, wa, ia⟩ := ha
  have hT : T ('!' :: a) = .not :: T a := by
    have : T (['!'] ++ a) = T ['!'] ++ T a := by
      apply lex_append
      intro x y hx hy
      cases hx
      have hy' : y ≠ '=' := by rintro rfl; exact hh hy
      have h1 : isWordChar '!' = false := by decide
      simp [fuse, h1, pairTok, hy']
    have e : T ['!'] = [.not] := by decide
    rw [e] at this
    exact this
  refine ⟨by rw [hT]; simp [na], .not ea, ?_, ?_, !va, ?_, ?_⟩
  · rw [hT]; exact Gram.not ga
  · simp [tys, ta, one]
  · simp [vals, wa, one]
  · cases va <;> simp_all

/-! ## The meaning of a text is unique -/

theorem condition_unique {s : List Char} {a b : Bool} (ha : Condition Γ s a) (hb : Condition Γ s b) : a = b := by
  obtain ⟨e, h1, _, h3⟩ := ha
  obtain ⟨e', g1, _, g3⟩ := hb
  cases gram_unique h1 g1
  rw [h3] at g3
  cases g3
  rfl

theorem function_unique {s : List Char} {i j : Int} (hi : Function Γ s i) (hj : Function Γ s j) : i = j := by
  obtain ⟨e, h1, _, _, h3⟩ := hi
  obtain ⟨e', g1, _, _, g3⟩ := hj
  cases body_unique h1 g1
  rw [h3] at g3
  cases g3
  rfl

theorem chosen_unique {α : Type} {other : α} : ∀ {l : List (α × List Char)} {a b : α}, Chosen Γ other l a →
    Chosen Γ other l b → a = b
  | [], _, _, .other, .other => rfl
  | _ :: _, _, _, .here _, .here _ => rfl
  | _ :: _, _, _, .here h, .next h' _ => nomatch condition_unique h h'
  | _ :: _, _, _, .next h' _, .here h => nomatch condition_unique h h'
  | _ :: _, _, _, .next _ h1, .next _ h2 => chosen_unique h1 h2

end Verif.Proofs.GoText
