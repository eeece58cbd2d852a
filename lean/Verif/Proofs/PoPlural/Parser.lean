import Verif.Model.PoPlural.Parser
import Verif.Proofs.PoPlural.Lexer
/-! The parser against a right recursive grammar on its own tokens: completeness, soundness and
totality. -/
namespace Verif.Proofs.PoPlural
open Verif.Model.PoPlural

/-- The parsing function of a level. -/
def lvl : Nat → Nat → PState → Except PErr (Node × PState)
  | 0 => expression
  | 1 => logicalOr
  | 2 => logicalAnd
  | 3 => equality
  | 4 => relational
  | 5 => multiplicative
  | _ => pm

/-- Level of the operator a token stands for. -/
def tokLevel : Tok → Option Nat
  | .question => some 0
  | .op .or => some 1
  | .op .and => some 2
  | .op .eq => some 3
  | .op .ne => some 3
  | .op .gt => some 4
  | .op .ge => some 4
  | .op .lt => some 4
  | .op .le => some 4
  | .op .rem => some 5
  | _ => none

/-- The token does not continue a phrase of level `l`. -/
def Look (l : Nat) (t : Tok) : Prop := ∀ p, tokLevel t = some p → p < l

def mk : Op → Node → Node → Node
  | .or => mkOr
  | .and => mkAnd
  | o => fun x y => .binary x o y

/-- Level of the right operand. -/
def rightLevel : Nat → Nat
  | 1 => 1
  | 2 => 2
  | l => l + 1

/-- The grammar as the parser works: `&&` and `||` recurse on the right and rotate. -/
inductive DerP : Nat → List Tok → Node → Prop
  | operand : DerP 6 [.operand] .operand
  | value (lit : List Char) : DerP 6 [.value lit] (.value (parseDigits 0 lit))
  | paren {ts n} : DerP 0 ts n → DerP 6 (.lparen :: ts ++ [.rparen]) n
  | up {l ts n} : l < 6 → DerP (l + 1) ts n → DerP l ts n
  | bin {l a x b y o} : tokLevel (.op o) = some l → DerP (l + 1) a x → DerP (rightLevel l) b y →
      DerP l (a ++ .op o :: b) (mk o x y)
  | cond {a c b t d e} : DerP 1 a c → DerP 0 b t → DerP 0 d e →
      DerP 0 (a ++ .question :: (b ++ .colon :: d)) (.question c t e)

/-- Reading the tokens `ts` leads from `st` to `st'`. -/
def Lx : PState → List Tok → PState → Prop
  | st, [], st' => st = st'
  | st, t :: ts, st' => st.tok = t ∧ ∃ s, scanNext st = .ok s ∧ Lx s ts st'

theorem Lx_append {a b : List Tok} {st st' : PState} :
    Lx st (a ++ b) st' ↔ ∃ s, Lx st a s ∧ Lx s b st' := by
  induction a generalizing st with
  | nil => simp [Lx]
  | cons t a ih =>
    simp only [List.cons_append, Lx, ih]
    constructor
    · rintro ⟨h, s, h1, s2, h2, h3⟩
      exact ⟨s2, ⟨h, s, h1, h2⟩, h3⟩
    · rintro ⟨s2, ⟨h, s, h1, h2⟩, h3⟩
      exact ⟨h, s, h1, s2, h2, h3⟩

theorem level_le (t : Tok) (l : Nat) (h : tokLevel t = some l) : l ≤ 5 := by
  unfold tokLevel at h
  split at h <;> simp at h <;> omega

/-- A level passes through when its operator does not follow. -/
theorem lvl_up {l g : Nat} {st s : PState} {n : Node} (hl : l < 6)
    (h : lvl (l + 1) g st = .ok (n, s)) (hlook : tokLevel s.tok ≠ some l) :
    lvl l (g + 1) st = .ok (n, s) := by
  match l, hl with
  | 0, _ =>
    have : s.tok ≠ .question := by intro e; simp [e, tokLevel] at hlook
    simp only [lvl] at h ⊢
    simp [expression, h, bind, Except.bind, this]
  | 1, _ =>
    have : s.tok ≠ .op .or := by intro e; simp [e, tokLevel] at hlook
    simp only [lvl] at h ⊢
    simp [logicalOr, h, bind, Except.bind, this]
  | 2, _ =>
    have : s.tok ≠ .op .and := by intro e; simp [e, tokLevel] at hlook
    simp only [lvl] at h ⊢
    simp [logicalAnd, h, bind, Except.bind, this]
  | 3, _ =>
    simp only [lvl] at h ⊢
    simp only [equality, h, bind, Except.bind]
    split
    · rename_i o ho
      have : isEq o = false := by cases o <;> simp [ho, tokLevel] at hlook <;> rfl
      simp [this]
    · rfl
  | 4, _ =>
    simp only [lvl] at h ⊢
    simp only [relational, h, bind, Except.bind]
    split
    · rename_i o ho
      have : isRel o = false := by cases o <;> simp [ho, tokLevel] at hlook <;> rfl
      simp [this]
    · rfl
  | 5, _ =>
    have : s.tok ≠ .op .rem := by intro e; simp [e, tokLevel] at hlook
    simp only [lvl] at h ⊢
    simp [multiplicative, h, bind, Except.bind, this]

theorem lvl_bin {l g : Nat} {st s1 s2 s3 : PState} {x y : Node} {o : Op}
    (ho : tokLevel (.op o) = some l) (h1 : lvl (l + 1) g st = .ok (x, s1)) (ht : s1.tok = .op o)
    (hs : scanNext s1 = .ok s2) (h2 : lvl (rightLevel l) g s2 = .ok (y, s3)) :
    lvl l (g + 1) st = .ok (mk o x y, s3) := by
  cases o <;> simp [tokLevel] at ho <;> subst ho <;> simp only [lvl, rightLevel] at h1 h2 ⊢
  case or => simp [logicalOr, h1, bind, Except.bind, ht, hs, h2, mk]
  case and => simp [logicalAnd, h1, bind, Except.bind, ht, hs, h2, mk]
  case rem => simp [multiplicative, h1, bind, Except.bind, ht, hs, h2, mk]
  case eq => simp [equality, h1, bind, Except.bind, ht, hs, h2, mk, isEq]
  case ne => simp [equality, h1, bind, Except.bind, ht, hs, h2, mk, isEq]
  all_goals simp [relational, h1, bind, Except.bind, ht, hs, h2, mk, isRel]

theorem rightLevel_le (l : Nat) : l ≤ rightLevel l := by
  unfold rightLevel; split <;> omega

/-- Completeness: a phrase of the grammar is parsed, whatever follows it, with enough fuel. -/
theorem parse_complete {l : Nat} {ts : List Tok} {n : Node} (h : DerP l ts n) :
    ∀ (st st' : PState) (f : Nat), Lx st ts st' → Look l st'.tok → 8 * ts.length + 7 - l ≤ f →
      lvl l f st = .ok (n, st') := by
  induction h with
  | operand =>
    intro st st' f hx _ hf
    obtain ⟨ht, s, hs, he⟩ := hx
    cases he
    obtain ⟨g, rfl⟩ : ∃ g, f = g + 1 := ⟨f - 1, by simp at hf; omega⟩
    simp [lvl, pm, ht, hs, bind, Except.bind]
  | value lit =>
    intro st st' f hx _ hf
    obtain ⟨ht, s, hs, he⟩ := hx
    cases he
    obtain ⟨g, rfl⟩ : ∃ g, f = g + 1 := ⟨f - 1, by simp at hf; omega⟩
    simp [lvl, pm, ht, hs, bind, Except.bind]
  | @paren ts n hd ih =>
    intro st st' f hx _ hf
    obtain ⟨ht, s, hs, hx⟩ := hx
    obtain ⟨s2, hx2, ht2, s3, hs3, he⟩ := Lx_append.mp hx
    cases he
    simp at hf
    obtain ⟨g, rfl⟩ : ∃ g, f = g + 1 := ⟨f - 1, by omega⟩
    have := ih s s2 g hx2 (by rw [ht2]; intro p hp; simp [tokLevel] at hp) (by omega)
    simp only [lvl] at this
    simp [lvl, pm, ht, hs, bind, Except.bind, this, ht2, hs3]
  | @up l ts n hl hd ih =>
    intro st st' f hx hlook hf
    obtain ⟨g, rfl⟩ : ∃ g, f = g + 1 := ⟨f - 1, by omega⟩
    have := ih st st' g hx (fun p hp => Nat.lt_succ_of_lt (hlook p hp)) (by omega)
    refine lvl_up hl this ?_
    intro hc
    have := hlook _ hc
    omega
  | @bin l a x b y o ho _ _ ih1 ih2 =>
    intro st st' f hx hlook hf
    obtain ⟨s1, hx1, ht1, s2, hs2, hx2⟩ := Lx_append.mp hx
    have hl := level_le _ _ ho
    simp at hf
    obtain ⟨g, rfl⟩ : ∃ g, f = g + 1 := ⟨f - 1, by omega⟩
    have r1 := ih1 st s1 g hx1 (by rw [ht1]; intro p hp; rw [ho] at hp; injection hp; omega) (by omega)
    have hr := rightLevel_le l
    have r2 := ih2 s2 st' g hx2 (fun p hp => Nat.lt_of_lt_of_le (hlook p hp) hr) (by omega)
    exact lvl_bin ho r1 ht1 hs2 r2
  | @cond a c b t d e _ _ _ ih1 ih2 ih3 =>
    intro st st' f hx hlook hf
    obtain ⟨s1, hx1, ht1, s2, hs2, hx2⟩ := Lx_append.mp hx
    obtain ⟨s3, hx3, ht3, s4, hs4, hx4⟩ := Lx_append.mp hx2
    simp at hf
    obtain ⟨g, rfl⟩ : ∃ g, f = g + 1 := ⟨f - 1, by omega⟩
    have r1 := ih1 st s1 g hx1 (by rw [ht1]; intro p hp; simp [tokLevel] at hp; omega) (by omega)
    have r2 := ih2 s2 s3 g hx3 (by rw [ht3]; intro p hp; simp [tokLevel] at hp) (by omega)
    have r3 := ih3 s4 st' g hx4 hlook (by omega)
    simp only [lvl] at r1 r2 r3 ⊢
    simp [expression, r1, r2, r3, ht1, ht3, hs2, hs4, bind, Except.bind]

/-! Soundness -/

theorem bind_ok {α β : Type} {x : Except PErr α} {f : α → Except PErr β} {r : β}
    (h : x.bind f = .ok r) : ∃ a, x = .ok a ∧ f a = .ok r := by
  cases x with
  | error e => simp [Except.bind] at h
  | ok a => exact ⟨a, rfl, h⟩

theorem lvl_inv {l g : Nat} (hl : l < 6) {st s : PState} {n : Node}
    (h : lvl l (g + 1) st = .ok (n, s)) :
    lvl (l + 1) g st = .ok (n, s) ∨
    (∃ o x s1 s2 y, tokLevel (.op o) = some l ∧ lvl (l + 1) g st = .ok (x, s1) ∧ s1.tok = .op o ∧
      scanNext s1 = .ok s2 ∧ lvl (rightLevel l) g s2 = .ok (y, s) ∧ n = mk o x y) ∨
    (l = 0 ∧ ∃ c s1 s2 t s3 s4 e, lvl 1 g st = .ok (c, s1) ∧ s1.tok = .question ∧
      scanNext s1 = .ok s2 ∧ lvl 0 g s2 = .ok (t, s3) ∧ s3.tok = .colon ∧ scanNext s3 = .ok s4 ∧
      lvl 0 g s4 = .ok (e, s) ∧ n = .question c t e) := by
  match l, hl with
  | 0, _ =>
    simp only [lvl, expression, bind] at h ⊢
    obtain ⟨⟨c, s1⟩, h1, h⟩ := bind_ok h
    simp only at h
    split at h
    · rename_i ht
      obtain ⟨s2, h2, h⟩ := bind_ok h
      obtain ⟨⟨t, s3⟩, h3, h⟩ := bind_ok h
      simp only at h
      split at h
      · cases h
      · rename_i hc
        obtain ⟨s4, h4, h⟩ := bind_ok h
        obtain ⟨⟨e, s5⟩, h5, h⟩ := bind_ok h
        cases h
        right; right
        exact ⟨trivial, c, s1, s2, t, s3, s4, e, h1, ht, h2, h3, Classical.not_not.mp hc, h4, h5, rfl⟩
    · cases h; left; exact h1
  | 1, _ =>
    simp only [lvl, logicalOr, bind, rightLevel] at h ⊢
    obtain ⟨⟨c, s1⟩, h1, h⟩ := bind_ok h
    simp only at h
    split at h
    · rename_i ht
      obtain ⟨s2, h2, h⟩ := bind_ok h
      obtain ⟨⟨t, s3⟩, h3, h⟩ := bind_ok h
      cases h
      right; left
      exact ⟨.or, c, s1, s2, t, rfl, h1, ht, h2, h3, rfl⟩
    · cases h; left; exact h1
  | 2, _ =>
    simp only [lvl, logicalAnd, bind, rightLevel] at h ⊢
    obtain ⟨⟨c, s1⟩, h1, h⟩ := bind_ok h
    simp only at h
    split at h
    · rename_i ht
      obtain ⟨s2, h2, h⟩ := bind_ok h
      obtain ⟨⟨t, s3⟩, h3, h⟩ := bind_ok h
      cases h
      right; left
      exact ⟨.and, c, s1, s2, t, rfl, h1, ht, h2, h3, rfl⟩
    · cases h; left; exact h1
  | 3, _ =>
    simp only [lvl, equality, bind, rightLevel] at h ⊢
    obtain ⟨⟨c, s1⟩, h1, h⟩ := bind_ok h
    simp only at h
    split at h
    · rename_i o ht
      split at h
      · rename_i hq
        obtain ⟨s2, h2, h⟩ := bind_ok h
        obtain ⟨⟨t, s3⟩, h3, h⟩ := bind_ok h
        cases h
        right; left
        refine ⟨o, c, s1, s2, t, ?_, h1, ht, h2, h3, ?_⟩ <;> cases o <;> simp [isEq] at hq <;> rfl
      · cases h; left; exact h1
    · cases h; left; exact h1
  | 4, _ =>
    simp only [lvl, relational, bind, rightLevel] at h ⊢
    obtain ⟨⟨c, s1⟩, h1, h⟩ := bind_ok h
    simp only at h
    split at h
    · rename_i o ht
      split at h
      · rename_i hq
        obtain ⟨s2, h2, h⟩ := bind_ok h
        obtain ⟨⟨t, s3⟩, h3, h⟩ := bind_ok h
        cases h
        right; left
        refine ⟨o, c, s1, s2, t, ?_, h1, ht, h2, h3, ?_⟩ <;> cases o <;> simp [isRel] at hq <;> rfl
      · cases h; left; exact h1
    · cases h; left; exact h1
  | 5, _ =>
    simp only [lvl, multiplicative, bind, rightLevel] at h ⊢
    obtain ⟨⟨c, s1⟩, h1, h⟩ := bind_ok h
    simp only at h
    split at h
    · rename_i ht
      obtain ⟨s2, h2, h⟩ := bind_ok h
      obtain ⟨⟨t, s3⟩, h3, h⟩ := bind_ok h
      cases h
      right; left
      exact ⟨.rem, c, s1, s2, t, rfl, h1, ht, h2, h3, rfl⟩
    · cases h; left; exact h1

theorem pm_inv {g : Nat} {st s : PState} {n : Node} (h : pm (g + 1) st = .ok (n, s)) :
    (st.tok = .operand ∧ scanNext st = .ok s ∧ n = .operand) ∨
    (∃ lit, st.tok = .value lit ∧ scanNext st = .ok s ∧ n = .value (parseDigits 0 lit)) ∨
    (st.tok = .lparen ∧ ∃ s1 s2, scanNext st = .ok s1 ∧ expression g s1 = .ok (n, s2) ∧
      s2.tok = .rparen ∧ scanNext s2 = .ok s) := by
  simp only [pm, bind] at h
  split at h
  · rename_i ht
    obtain ⟨s1, h1, h⟩ := bind_ok h
    cases h; left; exact ⟨ht, h1, rfl⟩
  · rename_i lit ht
    obtain ⟨s1, h1, h⟩ := bind_ok h
    cases h; right; left; exact ⟨lit, ht, h1, rfl⟩
  · rename_i ht
    obtain ⟨s1, h1, h⟩ := bind_ok h
    obtain ⟨⟨e, s2⟩, h2, h⟩ := bind_ok h
    simp only at h
    split at h
    · cases h
    · rename_i hr
      obtain ⟨s3, h3, h⟩ := bind_ok h
      cases h
      right; right
      exact ⟨ht, s1, s2, h1, h2, Classical.not_not.mp hr, h3⟩
  · cases h

/-- Soundness: what the parser accepts is a phrase of the grammar. -/
theorem parse_sound (f : Nat) : ∀ (l : Nat), l ≤ 6 → ∀ (st st' : PState) (n : Node),
    lvl l f st = .ok (n, st') → ∃ ts, DerP l ts n ∧ Lx st ts st' := by
  induction f with
  | zero =>
    intro l hl st st' n h
    match l, hl with
    | 0, _ => simp [lvl, expression] at h
    | 1, _ => simp [lvl, logicalOr] at h
    | 2, _ => simp [lvl, logicalAnd] at h
    | 3, _ => simp [lvl, equality] at h
    | 4, _ => simp [lvl, relational] at h
    | 5, _ => simp [lvl, multiplicative] at h
    | 6, _ => simp [lvl, pm] at h
  | succ g ih =>
    intro l hl st st' n h
    by_cases h6 : l = 6
    · subst h6
      rcases pm_inv h with ⟨ht, h1, rfl⟩ | ⟨lit, ht, h1, rfl⟩ | ⟨ht, s1, s2, h1, h2, h3, h4⟩
      · exact ⟨_, .operand, ht, _, h1, rfl⟩
      · exact ⟨_, .value lit, ht, _, h1, rfl⟩
      · obtain ⟨ts, hd, hx⟩ := ih 0 (by omega) s1 s2 n h2
        exact ⟨_, .paren hd, ht, s1, h1, Lx_append.mpr ⟨s2, hx, h3, _, h4, rfl⟩⟩
    · have hl' : l < 6 := by omega
      rcases lvl_inv hl' h with h | ⟨o, x, s1, s2, y, ho, h1, ht, h2, h3, rfl⟩ |
          ⟨rfl, c, s1, s2, t, s3, s4, e, h1, ht, h2, h3, hc, h4, h5, rfl⟩
      · obtain ⟨ts, hd, hx⟩ := ih (l + 1) (by omega) _ _ _ h
        exact ⟨ts, .up hl' hd, hx⟩
      · obtain ⟨a, hd1, hx1⟩ := ih (l + 1) (by omega) _ _ _ h1
        obtain ⟨b, hd2, hx2⟩ := ih (rightLevel l) (by unfold rightLevel; split <;> omega) _ _ _ h3
        exact ⟨_, .bin ho hd1 hd2, Lx_append.mpr ⟨s1, hx1, ht, s2, h2, hx2⟩⟩
      · obtain ⟨a, hd1, hx1⟩ := ih 1 (by omega) _ _ _ h1
        obtain ⟨b, hd2, hx2⟩ := ih 0 (by omega) _ _ _ h3
        obtain ⟨d, hd3, hx3⟩ := ih 0 (by omega) _ _ _ h5
        exact ⟨_, .cond hd1 hd2 hd3,
          Lx_append.mpr ⟨s1, hx1, ht, s2, h2, Lx_append.mpr ⟨s3, hx2, hc, s4, h4, hx3⟩⟩⟩

/-! Totality: with fuel for the text that is left, the parser never runs out of it. -/

theorem scanNext_length {st s : PState} (h : scanNext st = .ok s) :
    s.rest.length < st.rest.length := by
  unfold scanNext at h
  have := next_length st.rest
  simp only at h
  split at h
  · cases h
  · rename_i hn
    cases h
    simp only [not_or] at hn
    exact this.2 hn.1

theorem scanNext_fuel {st : PState} : scanNext st ≠ .error .fuel := by
  unfold scanNext
  simp only
  split <;> simp

theorem Lx_length {ts : List Tok} {st s : PState} (h : Lx st ts s) :
    s.rest.length + ts.length ≤ st.rest.length := by
  induction ts generalizing st with
  | nil => cases h; simp
  | cons t ts ih =>
    obtain ⟨_, s1, h1, h2⟩ := h
    have := ih h2
    have := scanNext_length h1
    simp only [List.length_cons]; omega

theorem DerP_length {l : Nat} {ts : List Tok} {n : Node} (h : DerP l ts n) : 1 ≤ ts.length := by
  induction h <;> first | assumption | (simp only [List.length_append, List.length_cons]; omega) | simp

theorem lvl_length {l f : Nat} (hl : l ≤ 6) {st s : PState} {n : Node} (h : lvl l f st = .ok (n, s)) :
    s.rest.length < st.rest.length := by
  obtain ⟨ts, hd, hx⟩ := parse_sound f l hl _ _ _ h
  have := Lx_length hx
  have := DerP_length hd
  omega

theorem bind_ne_fuel {α β : Type} {x : Except PErr α} {f : α → Except PErr β}
    (h : x ≠ .error .fuel) (hf : ∀ a, x = .ok a → f a ≠ .error .fuel) : x.bind f ≠ .error .fuel := by
  cases x with
  | error e => simpa [Except.bind] using h
  | ok a => exact hf a rfl

theorem parse_total (f : Nat) : ∀ (l : Nat), l ≤ 6 → ∀ (st : PState),
    8 * st.rest.length + 7 - l ≤ f → lvl l f st ≠ .error .fuel := by
  induction f with
  | zero => intro l hl st hf; omega
  | succ g ih =>
    intro l hl st hf
    have low : ∀ l', l' = l + 1 → l' ≤ 6 → lvl l' g st ≠ .error .fuel := by
      intro l' h1 h2; exact ih l' h2 st (by omega)
    have step : ∀ l' l'' (s1 s2 : PState) (n : Node), l' ≤ 6 → l'' ≤ 6 → lvl l' g st = .ok (n, s1) →
        scanNext s1 = .ok s2 → lvl l'' g s2 ≠ .error .fuel := by
      intro l' l'' s1 s2 n h' h'' h1 h2
      have a := lvl_length h' h1
      have b := scanNext_length h2
      exact ih l'' h'' s2 (by omega)
    match l, hl with
    | 0, _ =>
      simp only [lvl, expression, bind] at low ⊢
      refine bind_ne_fuel (low 1 rfl (by omega)) ?_
      rintro ⟨c, s1⟩ h1
      simp only
      split
      · refine bind_ne_fuel scanNext_fuel (fun s2 h2 => ?_)
        refine bind_ne_fuel (step 1 0 s1 s2 c (by omega) (by omega) h1 h2) ?_
        rintro ⟨t, s3⟩ h3
        simp only
        split
        · simp
        · refine bind_ne_fuel scanNext_fuel (fun s4 h4 => ?_)
          have a1 := lvl_length (l := 1) (by omega) h1
          have a2 := scanNext_length h2
          have a3 := lvl_length (l := 0) (by omega) h3
          have a4 := scanNext_length h4
          refine bind_ne_fuel (ih 0 (by omega) s4 (by omega)) ?_
          rintro ⟨e, s5⟩ _
          simp
      · simp
    | 1, _ =>
      simp only [lvl, logicalOr, bind] at low ⊢
      refine bind_ne_fuel (low 2 rfl (by omega)) ?_
      rintro ⟨c, s1⟩ h1
      simp only
      split
      · refine bind_ne_fuel scanNext_fuel (fun s2 h2 => ?_)
        refine bind_ne_fuel (step 2 1 s1 s2 c (by omega) (by omega) h1 h2) ?_
        rintro ⟨t, s3⟩ h3
        simp
      · simp
    | 2, _ =>
      simp only [lvl, logicalAnd, bind] at low ⊢
      refine bind_ne_fuel (low 3 rfl (by omega)) ?_
      rintro ⟨c, s1⟩ h1
      simp only
      split
      · refine bind_ne_fuel scanNext_fuel (fun s2 h2 => ?_)
        refine bind_ne_fuel (step 3 2 s1 s2 c (by omega) (by omega) h1 h2) ?_
        rintro ⟨t, s3⟩ h3
        simp
      · simp
    | 3, _ =>
      simp only [lvl, equality, bind] at low ⊢
      refine bind_ne_fuel (low 4 rfl (by omega)) ?_
      rintro ⟨c, s1⟩ h1
      simp only
      split
      · split
        · refine bind_ne_fuel scanNext_fuel (fun s2 h2 => ?_)
          refine bind_ne_fuel (step 4 4 s1 s2 c (by omega) (by omega) h1 h2) ?_
          rintro ⟨t, s3⟩ h3
          simp
        · simp
      · simp
    | 4, _ =>
      simp only [lvl, relational, bind] at low ⊢
      refine bind_ne_fuel (low 5 rfl (by omega)) ?_
      rintro ⟨c, s1⟩ h1
      simp only
      split
      · split
        · refine bind_ne_fuel scanNext_fuel (fun s2 h2 => ?_)
          refine bind_ne_fuel (step 5 5 s1 s2 c (by omega) (by omega) h1 h2) ?_
          rintro ⟨t, s3⟩ h3
          simp
        · simp
      · simp
    | 5, _ =>
      simp only [lvl, multiplicative, bind] at low ⊢
      refine bind_ne_fuel (low 6 rfl (by omega)) ?_
      rintro ⟨c, s1⟩ h1
      simp only
      split
      · refine bind_ne_fuel scanNext_fuel (fun s2 h2 => ?_)
        refine bind_ne_fuel (step 6 6 s1 s2 c (by omega) (by omega) h1 h2) ?_
        rintro ⟨t, s3⟩ h3
        simp
      · simp
    | 6, _ =>
      simp only [lvl, pm, bind]
      split
      · exact bind_ne_fuel scanNext_fuel (fun s2 h2 => by simp)
      · exact bind_ne_fuel scanNext_fuel (fun s2 h2 => by simp)
      · refine bind_ne_fuel scanNext_fuel (fun s2 h2 => ?_)
        have a2 := scanNext_length h2
        refine bind_ne_fuel (ih 0 (by omega) s2 (by omega)) ?_
        rintro ⟨e, s3⟩ _
        simp only
        split
        · simp
        · exact bind_ne_fuel scanNext_fuel (fun s4 h4 => by simp)
      · simp

end Verif.Proofs.PoPlural
