import Verif.Spec.GoCode
/-! The expression grammar of `Spec.GoCode` is unambiguous: an operator precedence parser finds
exactly its derivations.  Texts are cut into tokens piece by piece. -/
namespace Verif.Proofs.GoCode
open Verif.Go Verif.Spec.GoCode

/-! ## Texts -/

/-- The two characters would be read as one token or part of one. -/
def fuse (x y : Char) : Bool := (isWordChar x && isWordChar y) || (pairTok x y).isSome

/-- The texts do not run into each other. -/
def Apart (a b : List Char) : Prop := ∀ x y, a.getLast? = some x → b.head? = some y → fuse x y = false

theorem lexFrom_cons (p : Pend) (c : Char) (cs : List Char) :
    lexFrom p (c :: cs) = (step p c).1 ++ lexFrom (step p c).2 cs := rfl

/-- What is at hand after the character `x`. -/
theorem step_pend (p : Pend) (x : Char) :
    (step p x).2 = .none ∨ (isWordChar x = true ∧ ∃ w, (step p x).2 = .word w) ∨ (step p x).2 = .punct x := by
  have hs : (start x).2 = .none ∨ (isWordChar x = true ∧ ∃ w, (start x).2 = .word w) ∨ (start x).2 = .punct x := by
    unfold start
    split
    · rename_i h; exact Or.inr (Or.inl ⟨h, _, rfl⟩)
    · split
      · exact Or.inl rfl
      · split
        · exact Or.inl rfl
        · exact Or.inr (Or.inr rfl)
  cases p with
  | none => exact hs
  | word w =>
    unfold step
    simp only []
    split
    · rename_i h; exact Or.inr (Or.inl ⟨h, _, rfl⟩)
    · exact hs
  | punct a =>
    unfold step
    simp only []
    split
    · exact Or.inl rfl
    · exact hs

/-- The next character does not continue what is at hand. -/
theorem step_apart {p : Pend} {y : Char}
    (hw : ∀ w, p = .word w → isWordChar y = false) (hp : ∀ c, p = .punct c → pairTok c y = none) :
    step p y = (p.flush ++ (step .none y).1, (step .none y).2) := by
  cases p with
  | none => rfl
  | word w =>
    unfold step
    simp only [hw w rfl]
    rfl
  | punct c =>
    unfold step
    simp only [hp c rfl]
    rfl

theorem lexFrom_append : ∀ (a : List Char) (p : Pend) (b : List Char), a ≠ [] → Apart a b →
    lexFrom p (a ++ b) = lexFrom p a ++ lexFrom .none b
  | [], _, _, h, _ => absurd rfl h
  | [x], p, b, _, hab => by
    rw [List.singleton_append, lexFrom_cons, lexFrom_cons, List.append_assoc]
    congr 1
    cases b with
    | nil => simp [lexFrom, Pend.flush]
    | cons y ys =>
      have hf := hab x y rfl rfl
      unfold fuse at hf
      rw [Bool.or_eq_false_iff] at hf
      rw [lexFrom_cons, lexFrom_cons .none]
      have : step (step p x).2 y = ((step p x).2.flush ++ (step .none y).1, (step .none y).2) := by
        apply step_apart
        · intro w hw
          rcases step_pend p x with h | ⟨h, _⟩ | h
          · rw [hw] at h; cases h
          · have := hf.1
            rw [h, Bool.true_and] at this
            exact this
          · rw [hw] at h; cases h
        · intro c hc
          rcases step_pend p x with h | ⟨_, w, h⟩ | h
          · rw [hc] at h; cases h
          · rw [hc] at h; cases h
          · rw [hc] at h
            cases h
            have := hf.2
            cases hq : pairTok x y with
            | none => rfl
            | some t => rw [hq] at this; cases this
      rw [this]
      show _ = lexFrom _ [] ++ _
      simp [lexFrom]
  | x :: x' :: xs, p, b, _, hab => by
    rw [List.cons_append, lexFrom_cons, lexFrom_cons,
      lexFrom_append (x' :: xs) _ b (List.cons_ne_nil _ _) (fun u v hu hv => hab u v (by
        rw [List.getLast?_cons_cons]; exact hu) hv), List.append_assoc]

/-- The tokens of two texts one after the other. -/
theorem lex_append {a b : List Char} (h : Apart a b) :
    lexFrom .none (a ++ b) = lexFrom .none a ++ lexFrom .none b := by
  cases a with
  | nil => rfl
  | cons x xs => exact lexFrom_append _ _ _ (List.cons_ne_nil _ _) h

theorem semis_id : ∀ (p : Option Tok) (ts : List Tok), .nl ∉ ts → semis p ts = ts
  | _, [], _ => rfl
  | p, t :: ts, h => by
    have h1 : t ≠ .nl := fun e => h (e ▸ List.mem_cons_self)
    have h2 : Tok.nl ∉ ts := fun e => h (List.mem_cons_of_mem _ e)
    cases t <;> first
      | exact absurd rfl h1
      | (simp only [semis]; rw [semis_id _ ts h2])

/-! ## The parser -/

/-- What is waiting for its right operand or its closing bracket. -/
inductive Item
  | bin (a : Expr) (o : Op)
  | not
  | paren
  | call (f : Expr)
  | slice (x : List Char)

/-- Completes what binds at least as strongly as `p`. -/
def reduce (p : Nat) : Expr → List Item → Expr × List Item
  | e, .bin a o :: stk => if p ≤ o.prec then reduce p (.bin o a e) stk else (e, .bin a o :: stk)
  | e, .not :: stk => if p ≤ 6 then reduce p (.not e) stk else (e, .not :: stk)
  | e, stk => (e, stk)

def isComma : Expr → Bool
  | .bin .comma _ _ => true
  | _ => false

/-- The end of the expression. -/
def finish (stk : List Item) (e : Expr) (ts : List Tok) : Option (Expr × List Tok) :=
  match reduce 0 e stk with
  | (e', []) => if isComma e' then none else some (e', ts)
  | _ => none

/-- The third argument is the operand just read. -/
def run : List Tok → List Item → Option Expr → Option (Expr × List Tok)
  | .int n :: ts, stk, none => run ts stk (some (.int n))
  | .name x :: .dot :: .name y :: ts, stk, none => run ts stk (some (.sel x y))
  | .name x :: ts, stk, none => run ts stk (some (.name x))
  | .not :: ts, stk, none => run ts (.not :: stk) none
  | .lp :: ts, stk, none => run ts (.paren :: stk) none
  | .lbr :: .rbr :: .name x :: .lb :: ts, stk, none => run ts (.slice x :: stk) none
  | _, _, none => none
  | .op o :: ts, stk, some e => run ts (.bin (reduce o.prec e stk).1 o :: (reduce o.prec e stk).2) none
  | .lp :: ts, stk, some e => run ts (.call e :: stk) none
  | .rp :: ts, stk, some e =>
    match reduce 0 e stk with
    | (e', .paren :: stk') => if isComma e' then none else run ts stk' (some e')
    | (e', .call f :: stk') => run ts stk' (some (.call f e'))
    | (e', []) => if isComma e' then none else some (e', .rp :: ts)
    | _ => none
  | .rb :: ts, stk, some e =>
    match reduce 0 e stk with
    | (e', .slice x :: stk') => run ts stk' (some (.slice x e'))
    | (e', []) => if isComma e' then none else some (e', .rb :: ts)
    | _ => none
  | ts, stk, some e => finish stk e ts

/-- Reads an expression; the rest begins with a token that cannot continue it. -/
def parseExpr (ts : List Tok) : Option (Expr × List Tok) := run ts [] none

/-! ### It finds every derivation -/

theorem prec_le (o : Op) : o.prec ≤ 5 := by cases o <;> decide

theorem reduce7 (e : Expr) (stk : List Item) : reduce 7 e stk = (e, stk) := by
  cases stk with
  | nil => rfl
  | cons i stk =>
    cases i with
    | bin a o =>
      have := prec_le o
      simp only [reduce]
      rw [if_neg (by omega)]
    | not => rfl
    | paren => rfl
    | call f => rfl
    | slice x => rfl

theorem reduce_reduce {p q : Nat} (h : p ≤ q) : ∀ (stk : List Item) (e : Expr),
    reduce p (reduce q e stk).1 (reduce q e stk).2 = reduce p e stk
  | [], _ => rfl
  | .bin a o :: stk, e => by
    simp only [reduce]
    by_cases hq : q ≤ o.prec
    · rw [if_pos hq, if_pos (Nat.le_trans h hq)]
      exact reduce_reduce h stk _
    · rw [if_neg hq]
      rfl
  | .not :: stk, e => by
    simp only [reduce]
    by_cases hq : q ≤ 6
    · rw [if_pos hq, if_pos (Nat.le_trans h hq)]
      exact reduce_reduce h stk _
    · rw [if_neg hq]
      rfl
  | .paren :: _, _ => rfl
  | .call _ :: _, _ => rfl
  | .slice _ :: _, _ => rfl

theorem reduce_length (p : Nat) : ∀ (stk : List Item) (e : Expr), (reduce p e stk).2.length ≤ stk.length := by
  intro stk
  induction stk with
  | nil => intro e; exact Nat.le_refl _
  | cons i stk ih =>
    intro e
    cases i <;> simp only [reduce] <;> try exact Nat.le_refl _
    all_goals
      split
      · exact Nat.le_trans (ih _) (by simp)
      · exact Nat.le_refl _

/-- Nothing on the stack binds as strongly as `p`. -/
def Low (p : Nat) (stk : List Item) : Prop := ∀ x, reduce p x stk = (x, stk)

theorem Low.mono {p q : Nat} {stk : List Item} (h : Low p stk) (hpq : p ≤ q) : Low q stk := by
  intro x
  cases stk with
  | nil => rfl
  | cons i stk =>
    cases i with
    | bin a o =>
      have := h x
      simp only [reduce] at this ⊢
      by_cases hq : q ≤ o.prec
      · rw [if_pos (Nat.le_trans hpq hq)] at this
        have h2 := reduce_length p stk (.bin o a x)
        rw [this, List.length_cons] at h2
        omega
      · rw [if_neg hq]
    | not =>
      have := h x
      simp only [reduce] at this ⊢
      by_cases hq : q ≤ 6
      · rw [if_pos (Nat.le_trans hpq hq)] at this
        have h2 := reduce_length p stk (.not x)
        rw [this, List.length_cons] at h2
        omega
      · rw [if_neg hq]
    | paren => rfl
    | call f => rfl
    | slice x => rfl

theorem not_comma_aux {p : Nat} {ts : List Tok} {e : Expr} (h : Gram p ts e) : 1 ≤ p → isComma e = false := by
  induction h with
  | int => exact fun _ => rfl
  | name => exact fun _ => rfl
  | sel => exact fun _ => rfl
  | paren _ ih => exact fun _ => ih (Nat.le_refl _)
  | call => exact fun _ => rfl
  | slice => exact fun _ => rfl
  | not => exact fun _ => rfl
  | up _ ih => exact fun h => ih (by omega)
  | bin o => intro h; cases o <;> first | rfl | exact absurd h (by decide)

theorem not_comma {ts : List Tok} {e : Expr} (h : Gram 1 ts e) : isComma e = false :=
  not_comma_aux h (Nat.le_refl _)

/-- The rest does not continue a name. -/
def NoDot : List Tok → Prop
  | .dot :: _ => False
  | _ => True

theorem run_gram {p : Nat} {ts : List Tok} {e : Expr} (h : Gram p ts e) :
    ∀ (stk : List Item) (rest : List Tok), (p ≤ 5 → Low p stk) → NoDot rest →
    ∃ e0 stk0, run (ts ++ rest) stk none = run rest stk0 (some e0) ∧ reduce p e0 stk0 = reduce p e stk := by
  induction h with
  | int n => intro stk rest _ _; exact ⟨_, _, by simp only [List.singleton_append, run], rfl⟩
  | name x =>
    intro stk rest _ hd
    refine ⟨.name x, stk, ?_, rfl⟩
    rw [List.singleton_append]
    cases rest with
    | nil => rfl
    | cons t rest =>
      cases t <;> first | exact absurd hd id | rfl
  | sel x y => intro stk rest _ _; exact ⟨_, _, by simp only [List.cons_append, List.nil_append, run], rfl⟩
  | @paren ts e hg ih =>
    intro stk rest _ _
    obtain ⟨e1, stk1, hr, hd⟩ := ih (.paren :: stk) (.rp :: rest) (fun _ _ => rfl) trivial
    refine ⟨e, stk, ?_, rfl⟩
    rw [List.cons_append, List.cons_append, List.append_assoc, List.singleton_append]
    simp only [run]
    rw [hr]
    have h0 : reduce 0 e1 stk1 = (e, .paren :: stk) := by
      rw [← reduce_reduce (Nat.zero_le 1), hd]; rfl
    simp only [run, h0, not_comma hg]
    rfl
  | @call ts f us a hf ha ihf iha =>
    intro stk rest _ _
    obtain ⟨e0, stk0, hr0, hd0⟩ := ihf stk (.lp :: us ++ .rp :: rest) (fun h => absurd h (by decide)) trivial
    rw [reduce7, reduce7] at hd0
    cases hd0
    obtain ⟨e1, stk1, hr, hd⟩ := iha (.call f :: stk) (.rp :: rest) (fun _ _ => rfl) trivial
    refine ⟨.call f a, stk, ?_, rfl⟩
    rw [List.append_assoc, List.append_assoc, List.singleton_append, hr0]
    rw [List.cons_append]
    simp only [run]
    rw [hr]
    have h0 : reduce 0 e1 stk1 = (a, .call f :: stk) := hd
    simp only [run, h0]
  | @slice x us a ha ih =>
    intro stk rest _ _
    obtain ⟨e1, stk1, hr, hd⟩ := ih (.slice x :: stk) (.rb :: rest) (fun _ _ => rfl) trivial
    refine ⟨.slice x a, stk, ?_, rfl⟩
    simp only [List.cons_append, List.append_assoc, List.nil_append, run]
    rw [hr]
    have h0 : reduce 0 e1 stk1 = (a, .slice x :: stk) := hd
    simp only [run, h0]
  | @not ts e _ ih =>
    intro stk rest _ hd
    obtain ⟨e1, stk1, hr, he⟩ := ih (.not :: stk) rest (fun h => absurd h (by decide)) hd
    refine ⟨e1, stk1, ?_, ?_⟩
    · rw [List.cons_append]; simp only [run]; exact hr
    · rw [he]; rfl
  | @up p ts e _ ih =>
    intro stk rest hl hd
    obtain ⟨e1, stk1, hr, he⟩ := ih stk rest (fun h => (hl (by omega)).mono (Nat.le_succ p)) hd
    refine ⟨e1, stk1, hr, ?_⟩
    rw [← reduce_reduce (Nat.le_succ p) stk1, he, reduce_reduce (Nat.le_succ p)]
  | @bin o ts a us b ha hb iha ihb =>
    intro stk rest hl hd
    have hlow := hl (prec_le o)
    obtain ⟨e0, stk0, hr0, hd0⟩ := iha stk (.op o :: us ++ rest) hl trivial
    rw [hlow a] at hd0
    have hstop : ∀ x, reduce (o.prec + 1) x (.bin a o :: stk) = (x, .bin a o :: stk) := by
      intro x; simp only [reduce]; rw [if_neg (by omega)]
    obtain ⟨e1, stk1, hr1, hd1⟩ := ihb (.bin a o :: stk) rest (fun _ => hstop) hd
    refine ⟨e1, stk1, ?_, ?_⟩
    · rw [List.append_assoc, List.cons_append, ← List.cons_append, hr0, List.cons_append]
      simp only [run, hd0]
      exact hr1
    · rw [hstop] at hd1
      rw [← reduce_reduce (Nat.le_succ o.prec), hd1]
      simp only [reduce]
      rw [if_pos (Nat.le_refl _)]

/-- The rest cannot continue an expression. -/
def Stop : List Tok → Prop
  | [] => True
  | .lb :: _ => True
  | .rb :: _ => True
  | .semi :: _ => True
  | _ => False

theorem Stop.noDot {ts : List Tok} (h : Stop ts) : NoDot ts := by
  cases ts with
  | nil => trivial
  | cons t ts => cases t <;> first | exact absurd h id | trivial

theorem parseExpr_gram {ts : List Tok} {e : Expr} (h : Gram 1 ts e) {rest : List Tok} (hs : Stop rest) :
    parseExpr (ts ++ rest) = some (e, rest) := by
  obtain ⟨e1, stk1, hr, hd⟩ := run_gram h [] rest (fun _ _ => rfl) hs.noDot
  unfold parseExpr
  rw [hr]
  have h0 : reduce 0 e1 stk1 = (e, []) := by
    rw [← reduce_reduce (Nat.zero_le 1), hd]; rfl
  cases rest with
  | nil => simp only [run, finish, h0, not_comma h]; rfl
  | cons t rest =>
    cases t <;> first
      | exact absurd hs id
      | (simp only [run, finish, h0, not_comma h]; rfl)

/-! ### It finds nothing else -/

theorem gram_le {p q : Nat} {ts : List Tok} {e : Expr} (h : Gram q ts e) (hpq : p ≤ q) : Gram p ts e := by
  induction q generalizing p with
  | zero => rw [Nat.le_zero.mp hpq]; exact h
  | succ q ih =>
    rcases Nat.lt_or_ge p (q + 1) with hp | hp
    · exact ih (.up h) (by omega)
    · rw [show p = q + 1 by omega]; exact h

theorem gram_one {ts : List Tok} {e : Expr} (h : Gram 0 ts e) (hc : isComma e = false) : Gram 1 ts e := by
  generalize hp : 0 = p at h
  cases h with
  | int => cases hp
  | name => cases hp
  | sel => cases hp
  | paren => cases hp
  | call => cases hp
  | slice => cases hp
  | not => cases hp
  | up h => subst hp; exact h
  | bin o => cases o <;> first | exact absurd hp (by decide) | cases hc

/-- The stack stands for the tokens `ts`; the next operand must be of level `q` at least. -/
inductive Ctx : List Item → List Tok → Nat → Prop
  | nil : Ctx [] [] 0
  | bin {stk ts q o us a} : Ctx stk ts q → Gram o.prec us a → q ≤ o.prec →
      Ctx (.bin a o :: stk) (ts ++ us ++ [.op o]) (o.prec + 1)
  | not {stk ts q} : Ctx stk ts q → Ctx (.not :: stk) (ts ++ [.not]) 6
  | paren {stk ts q} : Ctx stk ts q → Ctx (.paren :: stk) (ts ++ [.lp]) 0
  | call {stk ts q us f} : Ctx stk ts q → Gram 7 us f → Ctx (.call f :: stk) (ts ++ us ++ [.lp]) 0
  | slice {stk ts q} (x) : Ctx stk ts q → Ctx (.slice x :: stk) (ts ++ [.lbr, .rbr, .name x, .lb]) 0

theorem Ctx.le {stk : List Item} {ts : List Tok} {q : Nat} (h : Ctx stk ts q) : q ≤ 6 := by
  cases h <;> first
    | omega
    | (rename_i o _ _ _ _ _; have := prec_le o; omega)

theorem reduce_sound {stk : List Item} {pre : List Tok} {q : Nat} (hc : Ctx stk pre q) {p : Nat} (hp6 : p ≤ 6) :
    ∀ {l : Nat} {us : List Tok} {e : Expr}, Gram l us e → q ≤ l → p ≤ l →
    ∃ pre' us' q', pre ++ us = pre' ++ us' ∧ Ctx (reduce p e stk).2 pre' q' ∧
      Gram p us' (reduce p e stk).1 ∧ q' ≤ p := by
  induction hc with
  | nil => exact fun hg _ hl => ⟨[], _, 0, rfl, .nil, gram_le hg hl, Nat.zero_le _⟩
  | bin hc' ha hq ih =>
    intro l us e hg hl hp
    rename_i stk ts q' o us' a
    simp only [reduce]
    split
    · rename_i h
      obtain ⟨pre', us'', q'', h1, h2, h3, h4⟩ := ih (Gram.bin o ha (gram_le hg hl)) hq h
      exact ⟨pre', us'', q'', by rw [← h1]; simp, h2, h3, h4⟩
    · rename_i h
      exact ⟨_, us, _, rfl, .bin hc' ha hq, gram_le hg hp, by omega⟩
  | not hc' ih =>
    intro l us e hg hl hp
    rename_i stk ts q'
    simp only [reduce]
    rw [if_pos hp6]
    obtain ⟨pre', us'', q'', h1, h2, h3, h4⟩ := ih (Gram.not (gram_le hg hl)) hc'.le hp6
    exact ⟨pre', us'', q'', by rw [← h1]; simp, h2, h3, h4⟩
  | paren hc' ih => exact fun hg _ hl => ⟨_, _, 0, rfl, .paren hc', gram_le hg hl, Nat.zero_le _⟩
  | call hc' hf ih => exact fun hg _ hl => ⟨_, _, 0, rfl, .call hc' hf, gram_le hg hl, Nat.zero_le _⟩
  | slice x hc' ih => exact fun hg _ hl => ⟨_, _, 0, rfl, .slice x hc', gram_le hg hl, Nat.zero_le _⟩

/-- The tokens before the operand and those of the operand itself. -/
def Have (stk : List Item) (pre : List Tok) (q : Nat) : Option Expr → Prop
  | none => Ctx stk pre q
  | some e => ∃ a us, pre = a ++ us ∧ Ctx stk a q ∧ Gram 7 us e

theorem end_sound {stk : List Item} {pre : List Tok} {q : Nat} {e0 e : Expr} (h : Have stk pre q (some e0))
    (hr : reduce 0 e0 stk = (e, [])) (hc : isComma e = false) : Gram 1 pre e := by
  obtain ⟨a, us, rfl, hctx, hg⟩ := h
  obtain ⟨pre', us', q', h1, h2, h3, h4⟩ := reduce_sound hctx (Nat.zero_le 6) hg (Nat.le_trans hctx.le (by decide)) (Nat.zero_le _)
  rw [hr] at h2 h3
  cases h2
  rw [h1]
  exact gram_one h3 hc

theorem close_sound {stk : List Item} {pre : List Tok} {q : Nat} {e0 e : Expr} {i : Item} {stk' : List Item}
    (h : Have stk pre q (some e0)) (hr : reduce 0 e0 stk = (e, i :: stk')) :
    ∃ pre' us' q', pre = pre' ++ us' ∧ Ctx (i :: stk') pre' q' ∧ Gram 0 us' e := by
  obtain ⟨a, us, rfl, hctx, hg⟩ := h
  obtain ⟨pre', us', q', h1, h2, h3, h4⟩ := reduce_sound hctx (Nat.zero_le 6) hg (Nat.le_trans hctx.le (by decide)) (Nat.zero_le _)
  rw [hr] at h2 h3
  exact ⟨pre', us', q', h1, h2, h3⟩

theorem run_sound (ts : List Tok) (stk : List Item) (cur : Option Expr) :
    ∀ {pre q e rest}, Have stk pre q cur → run ts stk cur = some (e, rest) →
    ∃ mid, ts = mid ++ rest ∧ Gram 1 (pre ++ mid) e := by
  induction ts, stk, cur using run.induct with
  | case1 n ts stk ih =>
    intro pre q e rest h hr
    simp only [run] at hr
    obtain ⟨mid, rfl, hg⟩ := ih (q := q) ⟨pre, [.int n], rfl, h, .int n⟩ hr
    exact ⟨.int n :: mid, rfl, by simpa using hg⟩
  | case2 x y ts stk ih =>
    intro pre q e rest h hr
    simp only [run] at hr
    obtain ⟨mid, rfl, hg⟩ := ih (q := q) ⟨pre, [.name x, .dot, .name y], rfl, h, .sel x y⟩ hr
    exact ⟨.name x :: .dot :: .name y :: mid, rfl, by simpa using hg⟩
  | case3 x ts stk hx ih =>
    intro pre q e rest h hr
    rw [run] at hr
    · obtain ⟨mid, rfl, hg⟩ := ih (q := q) ⟨pre, [.name x], rfl, h, .name x⟩ hr
      exact ⟨.name x :: mid, rfl, by simpa using hg⟩
    · exact hx
  | case4 ts stk ih =>
    intro pre q e rest h hr
    simp only [run] at hr
    obtain ⟨mid, rfl, hg⟩ := ih (pre := pre ++ [Tok.not]) (q := 6) (Ctx.not h) hr
    exact ⟨.not :: mid, rfl, by simpa using hg⟩
  | case5 ts stk ih =>
    intro pre q e rest h hr
    simp only [run] at hr
    obtain ⟨mid, rfl, hg⟩ := ih (pre := pre ++ [Tok.lp]) (q := 0) (Ctx.paren h) hr
    exact ⟨.lp :: mid, rfl, by simpa using hg⟩
  | case6 x ts stk ih =>
    intro pre q e rest h hr
    simp only [run] at hr
    obtain ⟨mid, rfl, hg⟩ := ih (pre := pre ++ [Tok.lbr, Tok.rbr, Tok.name x, Tok.lb]) (q := 0) (Ctx.slice x h) hr
    exact ⟨.lbr :: .rbr :: .name x :: .lb :: mid, rfl, by simpa using hg⟩
  | case7 ts stk h1 h2 h3 h4 h5 h6 =>
    intro pre q e rest h hr
    rw [run] at hr
    · cases hr
    all_goals assumption
  | case8 o ts stk e0 ih =>
    intro pre q e rest h hr
    simp only [run] at hr
    obtain ⟨a, us, rfl, hctx, hg⟩ := h
    obtain ⟨pre', us', q', g1, g2, g3, g4⟩ := reduce_sound hctx (Nat.le_trans (prec_le o) (by decide)) hg
      (Nat.le_trans hctx.le (by decide)) (Nat.le_trans (prec_le o) (by decide))
    obtain ⟨mid, rfl, hg⟩ := ih (pre := pre' ++ us' ++ [Tok.op o]) (q := o.prec + 1) (Ctx.bin g2 g3 g4) hr
    refine ⟨.op o :: mid, rfl, ?_⟩
    rw [g1]
    simpa using hg
  | case9 ts stk e0 ih =>
    intro pre q e rest h hr
    simp only [run] at hr
    obtain ⟨a, us, rfl, hctx, hg⟩ := h
    obtain ⟨mid, rfl, hg⟩ := ih (pre := a ++ us ++ [Tok.lp]) (q := 0) (Ctx.call hctx hg) hr
    exact ⟨.lp :: mid, rfl, by simpa using hg⟩
  | case10 ts stk e0 e' stk' h0 hc =>
    intro pre q e rest h hr
    simp only [run, h0, hc] at hr
    cases hr
  | case11 ts stk e0 e' stk' h0 hc ih =>
    intro pre q e rest h hr
    have hc' : isComma e' = false := by simpa using hc
    simp only [run, h0, hc'] at hr
    obtain ⟨pre', us', q', g1, g2, g3⟩ := close_sound h h0
    cases g2 with
    | paren hctx =>
      rename_i ts0 q0
      obtain ⟨mid, rfl, hg⟩ := ih (pre := ts0 ++ (.lp :: us' ++ [.rp])) (q := q0)
        ⟨_, _, rfl, hctx, .paren (gram_one g3 hc')⟩ hr
      refine ⟨.rp :: mid, rfl, ?_⟩
      rw [g1]
      simpa using hg
  | case12 ts stk e0 e' f stk' h0 ih =>
    intro pre q e rest h hr
    simp only [run, h0] at hr
    obtain ⟨pre', us', q', g1, g2, g3⟩ := close_sound h h0
    cases g2 with
    | call hctx hf =>
      rename_i ts0 q0 us0
      obtain ⟨mid, rfl, hg⟩ := ih (pre := ts0 ++ (us0 ++ .lp :: us' ++ [.rp])) (q := q0)
        ⟨_, _, rfl, hctx, .call hf g3⟩ hr
      refine ⟨.rp :: mid, rfl, ?_⟩
      rw [g1]
      simpa using hg
  | case13 ts stk e0 e' h0 hc =>
    intro pre q e rest h hr
    simp only [run, h0, hc] at hr
    cases hr
  | case14 ts stk e0 e' h0 hc =>
    intro pre q e rest h hr
    have hc' : isComma e' = false := by simpa using hc
    simp only [run, h0, hc'] at hr
    cases hr
    exact ⟨[], rfl, by rw [List.append_nil]; exact end_sound h h0 hc'⟩
  | case15 ts stk e0 h1 h2 h3 =>
    intro pre q e rest h hr
    rw [run] at hr
    split at hr
    · exact absurd ‹_› (h1 _ _)
    · exact absurd ‹_› (h2 _ _ _)
    · exact absurd ‹_› (h3 _)
    · cases hr
  | case16 ts stk e0 e' x stk' h0 ih =>
    intro pre q e rest h hr
    simp only [run, h0] at hr
    obtain ⟨pre', us', q', g1, g2, g3⟩ := close_sound h h0
    cases g2 with
    | slice _ hctx =>
      rename_i ts0 q0
      obtain ⟨mid, rfl, hg⟩ := ih (pre := ts0 ++ (.lbr :: .rbr :: .name x :: .lb :: us' ++ [.rb])) (q := q0)
        ⟨_, _, rfl, hctx, .slice x g3⟩ hr
      refine ⟨.rb :: mid, rfl, ?_⟩
      rw [g1]
      simpa using hg
  | case17 ts stk e0 e' h0 hc =>
    intro pre q e rest h hr
    simp only [run, h0, hc] at hr
    cases hr
  | case18 ts stk e0 e' h0 hc =>
    intro pre q e rest h hr
    have hc' : isComma e' = false := by simpa using hc
    simp only [run, h0, hc'] at hr
    cases hr
    exact ⟨[], rfl, by rw [List.append_nil]; exact end_sound h h0 hc'⟩
  | case19 ts stk e0 h1 h2 =>
    intro pre q e rest h hr
    rw [run] at hr
    split at hr
    · exact absurd ‹_› (h1 _ _ _)
    · exact absurd ‹_› (h2 _)
    · cases hr
  | case20 ts stk e0 h1 h2 h3 h4 =>
    intro pre q e rest h hr
    rw [run] at hr
    · unfold finish at hr
      split at hr
      · rename_i e' h0
        split at hr
        · cases hr
        · rename_i hc
          cases hr
          exact ⟨[], rfl, by rw [List.append_nil]; exact end_sound h h0 (by simpa using hc)⟩
      · cases hr
    all_goals assumption

/-- The parser reads exactly the expressions of the grammar. -/
theorem parseExpr_iff {ts : List Tok} {e : Expr} : parseExpr ts = some (e, []) ↔ Gram 1 ts e := by
  constructor
  · intro h
    obtain ⟨mid, h1, h2⟩ := run_sound ts [] none (pre := []) (q := 0) Ctx.nil h
    rw [List.append_nil] at h1
    rw [h1]; exact h2
  · intro h
    have := parseExpr_gram h (rest := []) trivial
    rwa [List.append_nil] at this

theorem parseExpr_sound {ts : List Tok} {e : Expr} {rest : List Tok} (h : parseExpr ts = some (e, rest)) :
    ∃ mid, ts = mid ++ rest ∧ Gram 1 mid e :=
  run_sound ts [] none (pre := []) (q := 0) Ctx.nil h

/-- A text has at most one reading. -/
theorem gram_unique {ts : List Tok} {e e' : Expr} (h : Gram 1 ts e) (h' : Gram 1 ts e') : e = e' := by
  have h1 := parseExpr_iff.mpr h
  rw [parseExpr_iff.mpr h'] at h1
  cases h1
  rfl

/-! ## Statements -/

/-- Reads statements up to the closing brace or the end. -/
def parseBody : Nat → List Tok → Option (Code × List Tok)
  | 0, _ => none
  | n + 1, ts =>
    match ts with
    | .kwReturn :: ts =>
      match parseExpr ts with
      | some (e, .semi :: ts) =>
        match parseBody n ts with
        | some (k, ts) => some (.ret e k, ts)
        | none => none
      | some (e, ts) => some (.ret e .done, ts)
      | none => none
    | .kwIf :: ts =>
      match parseExpr ts with
      | some (c, .lb :: ts) =>
        match parseBody n ts with
        | some (b, .rb :: .semi :: ts) =>
          match parseBody n ts with
          | some (k, ts) => some (.cond c b k, ts)
          | none => none
        | some (b, .rb :: ts) => some (.cond c b .done, ts)
        | _ => none
      | _ => none
    | ts => some (.done, ts)

/-- The rest is a closing brace or the end. -/
def AtEnd : List Tok → Prop
  | [] => True
  | .rb :: _ => True
  | _ => False

theorem AtEnd.stop {ts : List Tok} (h : AtEnd ts) : Stop ts := by
  cases ts with
  | nil => trivial
  | cons t ts => cases t <;> first | exact absurd h id | trivial

theorem parseBody_body {ts : List Tok} {k : Code} (h : Body ts k) :
    ∀ {n : Nat} {rest : List Tok}, ts.length < n → AtEnd rest → parseBody n (ts ++ rest) = some (k, rest) := by
  induction h with
  | nil =>
    intro n rest hn hr
    obtain ⟨n, rfl⟩ := Nat.exists_eq_succ_of_ne_zero (show n ≠ 0 by simp at hn; omega)
    cases rest with
    | nil => rfl
    | cons t rest => cases t <;> first | exact absurd hr id | rfl
  | @retLast ts e hg =>
    intro n rest hn hr
    obtain ⟨n, rfl⟩ := Nat.exists_eq_succ_of_ne_zero (show n ≠ 0 by simp at hn; omega)
    rw [List.cons_append]
    simp only [parseBody, parseExpr_gram hg hr.stop]
    cases rest with
    | nil => rfl
    | cons t rest => cases t <;> first | exact absurd hr id | rfl
  | @ret ts e us k hg _ ih =>
    intro n rest hn hr
    obtain ⟨n, rfl⟩ := Nat.exists_eq_succ_of_ne_zero (show n ≠ 0 by simp at hn; omega)
    have h1 := parseExpr_gram hg (rest := .semi :: us ++ rest) trivial
    have h2 := ih (n := n) (rest := rest) (by simp at hn ⊢; omega) hr
    rw [List.cons_append, List.cons_append, List.append_assoc]
    simp only [parseBody, h1]
    simp only [List.cons_append, h2]
  | @condLast ts c bs b hg _ ih =>
    intro n rest hn hr
    obtain ⟨n, rfl⟩ := Nat.exists_eq_succ_of_ne_zero (show n ≠ 0 by simp at hn; omega)
    have h1 := parseExpr_gram hg (rest := .lb :: (bs ++ .rb :: rest)) trivial
    have h2 := ih (n := n) (rest := .rb :: rest) (by simp at hn ⊢; omega) trivial
    have he : Tok.kwIf :: ts ++ .lb :: bs ++ [.rb] ++ rest = .kwIf :: (ts ++ .lb :: (bs ++ .rb :: rest)) := by simp
    rw [he]
    simp only [parseBody, h1, h2]
    cases rest with
    | nil => rfl
    | cons t rest => cases t <;> first | exact absurd hr id | rfl
  | @cond ts c bs b us k hg _ _ ihb ih =>
    intro n rest hn hr
    obtain ⟨n, rfl⟩ := Nat.exists_eq_succ_of_ne_zero (show n ≠ 0 by simp at hn; omega)
    have h1 := parseExpr_gram hg (rest := .lb :: (bs ++ .rb :: .semi :: (us ++ rest))) trivial
    have h2 := ihb (n := n) (rest := .rb :: .semi :: (us ++ rest)) (by simp at hn ⊢; omega) trivial
    have h3 := ih (n := n) (rest := rest) (by simp at hn ⊢; omega) hr
    have he : Tok.kwIf :: ts ++ .lb :: bs ++ .rb :: .semi :: us ++ rest =
      .kwIf :: (ts ++ .lb :: (bs ++ .rb :: .semi :: (us ++ rest))) := by simp
    rw [he]
    simp only [parseBody, h1, h2, h3]

theorem parseBody_sound : ∀ (n : Nat) {ts : List Tok} {k : Code} {rest : List Tok},
    parseBody n ts = some (k, rest) → ∃ mid, ts = mid ++ rest ∧ Body mid k
  | 0, _, _, _, h => by cases h
  | n + 1, ts, k, rest, h => by
    unfold parseBody at h
    split at h
    · rename_i ts
      split at h
      · rename_i e ts' he
        obtain ⟨m1, rfl, g1⟩ := parseExpr_sound he
        split at h
        · rename_i k' ts'' hk
          obtain ⟨m2, rfl, g2⟩ := parseBody_sound n hk
          cases h
          exact ⟨.kwReturn :: m1 ++ .semi :: m2, by simp, .ret g1 g2⟩
        · cases h
      · rename_i e ts' _ he
        obtain ⟨m1, rfl, g1⟩ := parseExpr_sound he
        cases h
        exact ⟨.kwReturn :: m1, by simp, .retLast g1⟩
      · cases h
    · rename_i ts
      split at h
      · rename_i c ts' he
        obtain ⟨m1, rfl, g1⟩ := parseExpr_sound he
        split at h
        · rename_i b ts'' hb
          obtain ⟨m2, rfl, g2⟩ := parseBody_sound n hb
          split at h
          · rename_i k' ts3 hk
            obtain ⟨m3, rfl, g3⟩ := parseBody_sound n hk
            cases h
            exact ⟨.kwIf :: m1 ++ .lb :: m2 ++ .rb :: .semi :: m3, by simp, .cond g1 g2 g3⟩
          · cases h
        · rename_i b ts'' _ hb
          obtain ⟨m2, rfl, g2⟩ := parseBody_sound n hb
          cases h
          exact ⟨.kwIf :: m1 ++ .lb :: m2 ++ [.rb], by simp, .condLast g1 g2⟩
        · cases h
      · cases h
    · cases h
      exact ⟨[], rfl, .nil⟩

/-- The parser reads exactly the function bodies of the grammar. -/
theorem parseBody_iff {ts : List Tok} {k : Code} : parseBody (ts.length + 1) ts = some (k, []) ↔ Body ts k := by
  constructor
  · intro h
    obtain ⟨mid, h1, h2⟩ := parseBody_sound _ h
    rw [List.append_nil] at h1
    rw [h1]; exact h2
  · intro h
    have := parseBody_body h (n := ts.length + 1) (rest := []) (by omega) trivial
    rwa [List.append_nil] at this

theorem body_unique {ts : List Tok} {k k' : Code} (h : Body ts k) (h' : Body ts k') : k = k' := by
  have h1 := parseBody_iff.mpr h
  rw [parseBody_iff.mpr h'] at h1
  cases h1
  rfl

end Verif.Proofs.GoCode
