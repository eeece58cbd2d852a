import Verif.Proofs.Cldr.Lexemes
/-! The parser of CLDR rules accepts exactly the rules of the specification. -/
namespace Verif.Proofs.Cldr.Rules
open Verif.Go Verif.Model.Cldr Verif.Spec.Cldr Verif.Cldr

/-! ## The tree of a condition -/

def exprNode (o : List Char) : Option Nat → ExprNode
  | none => .operand o
  | some m => .modulo o m

def relationNode (r : Relation) : Node := .rel (exprNode r.opd r.mod) r.neg (r.items.map astItem)

def conjNode : List Relation → Node
  | [] => .rel (.operand []) true []
  | [r] => relationNode r
  | r :: rs => .and (relationNode r) (conjNode rs)

def condNode : List (List Relation) → Node
  | [] => .rel (.operand []) false []
  | [c] => conjNode c
  | c :: cs => .or (conjNode c) (condNode cs)

/-! ## What is accepted is a rule -/

theorem Good.app {p q : List (Tok × List Char)} (h : Good (p ++ q)) : Good p ∧ Good q :=
  ⟨fun t ht => h t (List.mem_append_left _ ht), fun t ht => h t (List.mem_append_right _ ht)⟩

/-- From `st` to `st'` the known tokens `pre` are read. -/
def Past (st st' : PState) (pre : List (Tok × List Char)) : Prop := toks st = pre ++ toks st' ∧ Known pre

theorem Past.one {st : PState} {k : Tok} (h : st.tok = k) (h1 : k ≠ .eof) (h2 : k ≠ .unknown) : Past st (stateOf st.rest) [(k, st.lit)] := by
  subst h
  exact ⟨toks_cons h1, fun t ht => by rw [List.mem_singleton.mp ht]; exact h2⟩

theorem Past.trans {a b c : PState} {p q : List (Tok × List Char)} (h1 : Past a b p) (h2 : Past b c q) : Past a c (p ++ q) :=
  ⟨by rw [h1.1, h2.1, List.append_assoc], fun t ht => (List.mem_append.mp ht).elim (h1.2 t) (h2.2 t)⟩

theorem Past.good {a b : PState} {p : List (Tok × List Char)} (h : Past a b p) (hg : Good (toks a)) : Good (toks b) := by
  rw [h.1] at hg; exact hg.app.2

theorem good_head {st : PState} (hg : Good (toks st)) (hn : Num st.tok) : st.tok = classify st.lit := by
  have : st.tok ≠ .eof := by intro e; rw [e] at hn; rcases hn with h | h | h | h <;> cases h
  rw [toks_cons this] at hg
  exact hg _ List.mem_cons_self hn

theorem value_past {st st' : PState} {v : Int} (hg : Good (toks st)) (h : value st = .ok (v, st')) :
    ∃ m : Nat, v = m ∧ IsItem st.lit (m, none) ∧ Past st st' [(.value, st.lit)] := by
  unfold value at h
  split at h
  · cases h
  · rename_i ht
    have ht : st.tok = .value := by simpa using ht
    rw [scanNext_all] at h
    cases h
    have hc := classify_value_iff.mp ((good_head hg (Or.inl ht)) ▸ ht)
    exact ⟨_, satInt_min _, .value hc.1 hc.2, .one ht (by decide) (by decide)⟩

theorem expression_past {st st' : PState} {x : ExprNode} (hg : Good (toks st)) (h : expression st = .ok (x, st')) :
    ∃ pre o m, x = exprNode o m ∧ LeftSide (pre.map toLex) o m ∧ Past st st' pre := by
  unfold expression at h
  split at h
  · cases h
  · rename_i ht
    have ht : st.tok = .operand := by simpa using ht
    have p1 := Past.one ht (by decide) (by decide)
    rw [scanNext_all] at h
    simp only [bind, Except.bind, scanNext_all] at h
    split at h
    · rename_i hr
      have p2 := p1.trans (.one hr (by decide) (by decide))
      cases hv : value (stateOf (stateOf st.rest).rest) with
      | error e => rw [hv] at h; cases h
      | ok r =>
        rw [hv] at h
        cases h
        obtain ⟨m, hm, hi, p3⟩ := value_past (p2.good hg) hv
        refine ⟨_, st.lit, some m, by rw [hm]; rfl, ?_, p2.trans p3⟩
        exact .mod hi
    · cases h
      refine ⟨_, st.lit, none, rfl, ?_, p1⟩
      exact .plain

theorem item_past {st st' : PState} {x : Item} (hg : Good (toks st)) (h : item st = .ok (x, st')) :
    ∃ it t, x = astItem it ∧ IsItem st.lit it ∧ toLex (t, st.lit) = .number st.lit ∧ Past st st' [(t, st.lit)] := by
  obtain ⟨it, hx, hi, rfl, ht⟩ := item_sound (fun hk => good_head hg (by
    rcases hk with h | h
    · exact Or.inl h
    · exact Or.inr (Or.inr (Or.inl h)))) h
  refine ⟨it, st.tok, hx, hi, ?_, ?_⟩
  · rcases ht with h | h <;> rw [h] <;> rfl
  · rcases ht with h | h <;> exact .one rfl (by rw [h]; decide) (by rw [h]; decide)

theorem rangeList_past : ∀ (f : Nat) {st st' : PState} {xs : List Item}, Good (toks st) → rangeList f st = .ok (xs, st') →
    ∃ pre its, xs = its.map astItem ∧ Items (pre.map toLex) its ∧ Past st st' pre
  | 0, _, _, _, _, h => by cases h
  | f + 1, st, st', xs, hg, h => by
    unfold rangeList at h
    simp only [bind, Except.bind] at h
    cases hi : item st with
    | error e => rw [hi] at h; cases h
    | ok r =>
      obtain ⟨x, st1⟩ := r
      rw [hi] at h
      obtain ⟨it, t, rfl, h1, h2, p1⟩ := item_past hg hi
      simp only [] at h
      split at h
      · cases hr : rangeList f st1 with
        | error e => rw [hr] at h; cases h
        | ok r =>
          rw [hr] at h
          cases h
          obtain ⟨pre, its, hx, h3, p2⟩ := rangeList_past f (p1.good hg) hr
          refine ⟨_, it :: its, by rw [hx]; rfl, ?_, p1.trans p2⟩
          simp only [List.cons_append, List.nil_append, List.map_cons, h2]
          exact .more h1 h3
      · cases h
        refine ⟨_, [it], rfl, ?_, p1⟩
        simp only [List.map_cons, List.map_nil, h2]
        exact .one h1

theorem relation_past {f : Nat} {st st' : PState} {n : Node} (hg : Good (toks st)) (h : relation f st = .ok (n, st')) :
    ∃ pre r, n = relationNode r ∧ IsRelation (pre.map toLex) r ∧ Past st st' pre := by
  unfold relation at h
  simp only [bind, Except.bind] at h
  cases hx : expression st with
  | error e => rw [hx] at h; cases h
  | ok r =>
    obtain ⟨x, st1⟩ := r
    rw [hx] at h
    obtain ⟨p, o, m, rfl, h1, p1⟩ := expression_past hg hx
    simp only [scanNext_all] at h
    split at h
    · cases h
    · rename_i ht
      have ht : st1.tok = .equal ∨ st1.tok = .notEqual := by
        rcases Decidable.em (st1.tok = .equal) with h | h
        · exact Or.inl h
        · rcases Decidable.em (st1.tok = .notEqual) with h' | h'
          · exact Or.inr h'
          · exact absurd ⟨h, h'⟩ ht
      cases hr : rangeList f (stateOf st1.rest) with
      | error e => rw [hr] at h; cases h
      | ok r =>
        rw [hr] at h
        cases h
        have p2 : Past st1 (stateOf st1.rest) [(st1.tok, st1.lit)] := by
          rcases ht with h | h <;> exact .one rfl (by rw [h]; decide) (by rw [h]; decide)
        obtain ⟨q, its, hy, h3, p3⟩ := rangeList_past f ((p1.trans p2).good hg) hr
        refine ⟨_, ⟨o, m, decide (st1.tok = .notEqual), its⟩, by rw [hy]; rfl, ?_, (p1.trans p2).trans p3⟩
        have hs : toLex (st1.tok, st1.lit) = sign (decide (st1.tok = .notEqual)) := by
          rcases ht with h | h <;> rw [h] <;> rfl
        simp only [List.map_append, List.map_cons, hs, List.append_assoc, List.cons_append, List.nil_append]
        exact .mk _ h1 h3

theorem conj_ne {ls : List Lexeme} {c : List Relation} (h : IsConj ls c) : c ≠ [] := by cases h <;> simp

theorem cond_ne {ls : List Lexeme} {c : List (List Relation)} (h : IsCond ls c) : c ≠ [] := by cases h <;> simp

theorem conjNode_cons {r : Relation} {rs : List Relation} (h : rs ≠ []) : conjNode (r :: rs) = .and (relationNode r) (conjNode rs) := by
  cases rs with
  | nil => exact absurd rfl h
  | cons => rfl

theorem condNode_cons {c : List Relation} {cs : List (List Relation)} (h : cs ≠ []) : condNode (c :: cs) = .or (conjNode c) (condNode cs) := by
  cases cs with
  | nil => exact absurd rfl h
  | cons => rfl

theorem andCondition_past : ∀ (f : Nat) {st st' : PState} {n : Node}, Good (toks st) → andCondition f st = .ok (n, st') →
    ∃ pre c, n = conjNode c ∧ IsConj (pre.map toLex) c ∧ Past st st' pre
  | 0, _, _, _, _, h => by cases h
  | f + 1, st, st', n, hg, h => by
    unfold andCondition at h
    simp only [bind, Except.bind] at h
    cases hi : relation f st with
    | error e => rw [hi] at h; cases h
    | ok r =>
      obtain ⟨x, st1⟩ := r
      rw [hi] at h
      obtain ⟨p, r, rfl, h1, p1⟩ := relation_past hg hi
      simp only [scanNext_all] at h
      split at h
      · rename_i ht
        cases hr : andCondition f (stateOf st1.rest) with
        | error e => rw [hr] at h; cases h
        | ok r' =>
          rw [hr] at h
          cases h
          have p2 := p1.trans (.one ht (by decide) (by decide))
          obtain ⟨q, c, hx, h3, p3⟩ := andCondition_past f (p2.good hg) hr
          refine ⟨_, r :: c, by rw [hx, conjNode_cons (conj_ne h3)], ?_, p2.trans p3⟩
          simp only [List.map_append, List.map_cons, List.append_assoc, List.cons_append, List.nil_append]
          exact .more h1 h3
      · cases h
        exact ⟨p, [r], rfl, .one h1, p1⟩

theorem condition_past : ∀ (f : Nat) {st st' : PState} {n : Node}, Good (toks st) → condition f st = .ok (n, st') →
    ∃ pre c, n = condNode c ∧ IsCond (pre.map toLex) c ∧ Past st st' pre
  | 0, _, _, _, _, h => by cases h
  | f + 1, st, st', n, hg, h => by
    unfold condition at h
    simp only [bind, Except.bind] at h
    cases hi : andCondition f st with
    | error e => rw [hi] at h; cases h
    | ok r =>
      obtain ⟨x, st1⟩ := r
      rw [hi] at h
      obtain ⟨p, r, rfl, h1, p1⟩ := andCondition_past f hg hi
      simp only [scanNext_all] at h
      split at h
      · rename_i ht
        cases hr : condition f (stateOf st1.rest) with
        | error e => rw [hr] at h; cases h
        | ok r' =>
          rw [hr] at h
          cases h
          have p2 := p1.trans (.one ht (by decide) (by decide))
          obtain ⟨q, c, hx, h3, p3⟩ := condition_past f (p2.good hg) hr
          refine ⟨_, r :: c, by rw [hx, condNode_cons (cond_ne h3)], ?_, p2.trans p3⟩
          simp only [List.map_append, List.map_cons, List.append_assoc, List.cons_append, List.nil_append]
          exact .more h1 h3
      · cases h
        exact ⟨p, [r], rfl, .one h1, p1⟩

theorem sampleLoop_more {stop : List Char} : ∀ {f : Nat} {ex : List Char} {r : List (List Char)} (g : Nat),
    sampleLoop stop f ex = .ok r → f ≤ g → sampleLoop stop g ex = .ok r
  | 0, _, _, _, h, _ => by cases h
  | f + 1, ex, r, 0, _, h => by omega
  | f + 1, ex, r, g + 1, h, hg => by
    unfold sampleLoop at h ⊢
    split
    · rename_i he; rw [if_pos he] at h; exact h
    · rename_i he
      rw [if_neg he] at h
      simp only [bind, Except.bind] at h ⊢
      cases hs : sampleLoop stop f (increment ex) with
      | error e => rw [hs] at h; cases h
      | ok r' =>
        rw [hs] at h
        rw [sampleLoop_more g hs (by omega)]
        exact h

theorem parseSampleRange_more {s : List Char} {f g : Nat} {r : List (List Char)} (h : parseSampleRange f s = .ok r) (hg : f ≤ g) :
    parseSampleRange g s = .ok r := by
  unfold parseSampleRange at h ⊢
  split
  · rename_i hc; rw [hc] at h; exact h
  · rename_i hc; rw [hc] at h; exact sampleLoop_more g h hg

theorem sampleRange_stands {budget : Nat} {s : List Char} {vs : List (List Char)} (hc : classify s = .sampleRange)
    (h : parseSampleRange budget s = .ok vs) : Stands (.number s) vs := by
  obtain ⟨a, b, ha, hb, rfl⟩ := range_fixed (classify_sampleRange hc)
  rcases Classical.em (Ascending a b) with hu | hu
  · have h1 := range_up hb hu (budget := max budget (b.value - a.value + 1)) (by omega)
    rw [parseSampleRange_more h (by omega)] at h1
    cases h1
    exact .range ha hb hu
  · rw [range_never ha hb hu budget] at h; cases h

theorem samplesLoop_past (budget : Nat) : ∀ (f : Nat) {st : PState} {xs : List (List Char)}, Good (toks st) →
    samplesLoop budget f st = .ok xs → Samples ((toks st).map toLex) xs ∧ Known (toks st)
  | 0, _, _, _, h => by cases h
  | f + 1, st, xs, hg, h => by
    have step : ∀ {k : Tok} {ys zs : List (List Char)}, st.tok = k → k ≠ .eof → k ≠ .unknown → Stands (toLex (k, st.lit)) ys →
        samplesLoop budget f (stateOf st.rest) = .ok zs → Samples ((toks st).map toLex) (ys ++ zs) ∧ Known (toks st) := by
      intro k ys zs hk h1 h2 hs hr
      have p := Past.one hk h1 h2
      obtain ⟨h3, h4⟩ := samplesLoop_past budget f (p.good hg) hr
      rw [p.1]
      exact ⟨.more hs h3, fun t ht => (List.mem_append.mp ht).elim (p.2 t) (h4 t)⟩
    unfold samplesLoop at h
    simp only [bind, Except.bind, scanNext_all] at h
    split at h
    · rename_i ht
      cases h
      rw [toks_eof ht]
      exact ⟨.done, fun t ht => by cases ht⟩
    · rename_i ht
      exact step ht (by decide) (by decide) .heading h
    · rename_i ht
      cases hr : samplesLoop budget f (stateOf st.rest) with
      | error e => rw [hr] at h; cases h
      | ok r =>
        rw [hr] at h; cases h
        exact step ht (by decide) (by decide) (.one (sample_iff.mp (Or.inr ((good_head hg (Or.inr (Or.inl ht))) ▸ ht)))) hr
    · rename_i ht
      cases hr : samplesLoop budget f (stateOf st.rest) with
      | error e => rw [hr] at h; cases h
      | ok r =>
        rw [hr] at h; cases h
        exact step ht (by decide) (by decide) (.one (sample_iff.mp (Or.inl ((good_head hg (Or.inl ht)) ▸ ht)))) hr
    · rename_i ht
      cases hp : parseSampleRange budget st.lit with
      | error e => rw [hp] at h; cases h
      | ok vs =>
        rw [hp] at h
        cases hr : samplesLoop budget f (stateOf st.rest) with
        | error e => rw [hr] at h; cases h
        | ok r =>
          rw [hr] at h; cases h
          exact step ht (by decide) (by decide)
            (sampleRange_stands ((good_head hg (Or.inr (Or.inr (Or.inr ht)))) ▸ ht) hp) hr
    · cases h

/-- The samples: none, or behind a heading. -/
theorem samples_past {budget f : Nat} {st : PState} {xs : List (List Char)} (hg : Good (toks st))
    (h : samples budget f st = .ok xs) : Known (toks st) ∧ (toks st = [] ∧ xs = [] ∨
      ∃ ls, (toks st).map toLex = .samples :: ls ∧ Samples ls xs) := by
  unfold samples at h
  split at h
  · rename_i ht
    cases h
    rw [toks_eof ht]
    exact ⟨(fun t ht => by cases ht), Or.inl ⟨rfl, rfl⟩⟩
  · split at h
    · cases h
    · rename_i ht
      have ht : st.tok = .sample := by simpa using ht
      obtain ⟨h1, h2⟩ := samplesLoop_past budget f hg h
      refine ⟨h2, Or.inr ?_⟩
      rw [(Past.one ht (by decide) (by decide)).1] at h1 ⊢
      refine ⟨_, rfl, ?_⟩
      cases h1 with
      | more hs h1 => cases hs; exact h1

theorem parse_sound {budget : Nat} {text : List Char} {rule : Rule} (h : parse budget text = .ok rule) :
    ∃ c, IsRule text c rule.samples ∧ rule.root = c.map condNode := by
  have hw := splits_iff.mpr (rfl : generateTokens text = generateTokens text)
  unfold parse parseTokens at h
  generalize generateTokens text = ws at h hw
  have hg := toks_good _ ws (Nat.le_refl _)
  have hrd := fun hk => reads_sound _ ws (Nat.le_refl _) hk
  simp only [bind, Except.bind, scanNext_all] at h
  split at h
  · rename_i ht
    cases hc : condition (ws.length + 3) (stateOf ws) with
    | error e => rw [hc] at h; cases h
    | ok r =>
      obtain ⟨n, st⟩ := r
      rw [hc] at h
      simp only [] at h
      cases hs : samples budget (ws.length + 3) st with
      | error e => rw [hs] at h; cases h
      | ok xs =>
        rw [hs] at h
        cases h
        obtain ⟨pre, c, rfl, h1, p⟩ := condition_past _ hg hc
        obtain ⟨h2, h3⟩ := samples_past (p.good hg) hs
        have hr := hrd (by rw [p.1]; exact fun t ht => (List.mem_append.mp ht).elim (p.2 t) (h2 t))
        rw [p.1, List.map_append] at hr
        refine ⟨some c, ?_, rfl⟩
        rcases h3 with ⟨h3, rfl⟩ | ⟨ls, h3, h4⟩
        · rw [h3, List.map_nil, List.append_nil] at hr
          exact .cond hw hr h1
        · rw [h3] at hr
          exact .condSamples hw hr h1 h4
  · rename_i ht
    have ht : (stateOf ws).tok = .sample := by simpa using ht
    cases hs : samples budget (ws.length + 3) (stateOf ws) with
    | error e => rw [hs] at h; cases h
    | ok xs =>
      rw [hs] at h
      cases h
      obtain ⟨h2, h3⟩ := samples_past hg hs
      refine ⟨none, ?_, rfl⟩
      rcases h3 with ⟨h3, rfl⟩ | ⟨ls, h3, h4⟩
      · have := toks_nil h3; rw [ht] at this; cases this
      · have hr := hrd h2
        rw [h3] at hr
        exact .samples hw hr h4

/-! ## Every rule is accepted -/

theorem Full.app {p q : List (Tok × List Char)} (h : Full (p ++ q)) : Full p ∧ Full q :=
  ⟨fun t ht => h t (List.mem_append_left _ ht), fun t ht => h t (List.mem_append_right _ ht)⟩

theorem Full.tail {t : Tok × List Char} {q : List (Tok × List Char)} (h : Full (t :: q)) : Full q :=
  fun t ht => h t (List.mem_cons_of_mem _ ht)

theorem lex_tok {t : Tok × List Char} {l : Lexeme} (h : toLex t = l) : (match l with
    | .operand w => t = (.operand, w)
    | .mod => t.1 = .rem
    | .eq => t.1 = .equal
    | .ne => t.1 = .notEqual
    | .and => t.1 = .and
    | .or => t.1 = .or
    | .samples => t.1 = .sample
    | .number w => t.2 = w) := by
  subst h
  obtain ⟨k, v⟩ := t
  cases k <;> simp [toLex]

/-- The first of the tokens is none of these kinds. -/
def NoHead (suf : List (Tok × List Char)) (ks : List Tok) : Prop := ∀ t r, suf = t :: r → t.1 ∉ ks

theorem head_not {st : PState} {suf : List (Tok × List Char)} {ks : List Tok} (h : toks st = suf) (hn : NoHead suf ks)
    (he : .eof ∉ ks) : st.tok ∉ ks := by
  intro hm
  rcases Decidable.em (st.tok = .eof) with h' | h'
  · rw [h'] at hm; exact he hm
  · exact hn _ _ (h ▸ toks_cons h') hm

theorem NoHead.sub {suf : List (Tok × List Char)} {ks js : List Tok} (h : NoHead suf ks) (hs : ∀ j ∈ js, j ∈ ks) : NoHead suf js :=
  fun t r e hm => h t r e (hs _ hm)

theorem value_reads {st : PState} {w : List Char} {m : Nat} {t : Tok × List Char} {suf : List (Tok × List Char)}
    (h : toks st = t :: suf) (hf : Full (t :: suf)) (hl : toLex t = .number w) (hi : IsItem w (m, none)) :
    ∃ st', value st = .ok ((m : Int), st') ∧ toks st' = suf := by
  obtain ⟨h1, h2, h3, _⟩ := toks_inv h
  obtain ⟨h4, h5⟩ := hf t List.mem_cons_self w hl
  refine ⟨_, ?_, h3⟩
  generalize hx : ((m, none) : Nat × Option Nat) = x at hi
  cases hi with
  | value h0 hd =>
    cases hx
    have ht : st.tok = .value := by rw [h1, h4]; exact classify_value_iff.mpr ⟨h0, hd⟩
    unfold value
    rw [if_neg (by rw [ht]; simp), scanNext_all, h2, h5, satInt_min]
    rfl
  | range => cases hx

theorem expression_reads {ls : List Lexeme} {o : List Char} {m : Option Nat} (h : LeftSide ls o m) {st : PState}
    {pre suf : List (Tok × List Char)} (ht : toks st = pre ++ suf) (hl : pre.map toLex = ls) (hf : Full (pre ++ suf))
    (hn : NoHead suf [.rem]) : ∃ st', expression st = .ok (exprNode o m, st') ∧ toks st' = suf := by
  cases h with
  | plain =>
    obtain ⟨t, p, rfl, h1, h2⟩ := List.map_eq_cons_iff.mp hl
    cases List.map_eq_nil_iff.mp h2
    cases lex_tok h1
    obtain ⟨h3, h4, h5, _⟩ := toks_inv ht
    refine ⟨_, ?_, h5⟩
    unfold expression
    rw [if_neg (by rw [h3]; simp)]
    simp only [bind, Except.bind, scanNext_all]
    rw [if_neg (by have := head_not h5 hn (by decide); simpa using this), h4]
    rfl
  | mod hi =>
    obtain ⟨t, p, rfl, h1, h2⟩ := List.map_eq_cons_iff.mp hl
    obtain ⟨t2, p, rfl, h3, h4⟩ := List.map_eq_cons_iff.mp h2
    obtain ⟨t3, p, rfl, h5, h6⟩ := List.map_eq_cons_iff.mp h4
    cases List.map_eq_nil_iff.mp h6
    cases lex_tok h1
    obtain ⟨a1, a2, a3, _⟩ := toks_inv ht
    obtain ⟨b1, b2, b3, _⟩ := toks_inv a3
    obtain ⟨st', hv, hs⟩ := value_reads b3 hf.tail.tail h5 hi
    refine ⟨st', ?_, hs⟩
    unfold expression
    rw [if_neg (by rw [a1]; simp)]
    simp only [bind, Except.bind, scanNext_all]
    rw [if_pos (by rw [b1]; exact lex_tok h3), hv, a2]
    rfl

theorem items_head {ls : List Lexeme} {its : List (Nat × Option Nat)} (h : Items ls its) : ∃ w it ls', ls = .number w :: ls' ∧ IsItem w it := by
  cases h with
  | one h => exact ⟨_, _, _, rfl, h⟩
  | more h _ => exact ⟨_, _, _, rfl, h⟩

theorem rangeList_reads {ls : List Lexeme} {its : List (Nat × Option Nat)} (h : Items ls its) : ∀ (f : Nat) {st : PState}
    {pre suf : List (Tok × List Char)}, toks st = pre ++ suf → pre.map toLex = ls → Full (pre ++ suf) →
    NoHead suf [.value, .valueRange] → pre.length ≤ f → ∃ st', rangeList f st = .ok (its.map astItem, st') ∧ toks st' = suf := by
  induction h with
  | one hi =>
    intro f st pre suf ht hl hf hn hfu
    obtain ⟨t, p, rfl, h1, h2⟩ := List.map_eq_cons_iff.mp hl
    cases List.map_eq_nil_iff.mp h2
    obtain ⟨f, rfl⟩ : ∃ g, f = g + 1 := ⟨f - 1, by simp at hfu; omega⟩
    obtain ⟨a1, a2, a3, _⟩ := toks_inv ht
    obtain ⟨b1, b2⟩ := hf t List.mem_cons_self _ h1
    obtain ⟨c1, _⟩ := item_complete (st := st) (by rw [a1, b1, a2, b2]) (by rw [a2, b2]; exact hi)
    refine ⟨_, ?_, a3⟩
    have := head_not a3 hn (by decide)
    unfold rangeList
    simp only [bind, Except.bind, c1]
    rw [if_neg (by simp at this; exact fun h => h.elim this.2 this.1)]
    rfl
  | more hi hrest ih =>
    intro f st pre suf ht hl hf hn hfu
    obtain ⟨t, p, rfl, h1, h2⟩ := List.map_eq_cons_iff.mp hl
    obtain ⟨f, rfl⟩ : ∃ g, f = g + 1 := ⟨f - 1, by simp at hfu; omega⟩
    obtain ⟨a1, a2, a3, _⟩ := toks_inv ht
    obtain ⟨b1, b2⟩ := hf t List.mem_cons_self _ h1
    obtain ⟨c1, _⟩ := item_complete (st := st) (by rw [a1, b1, a2, b2]) (by rw [a2, b2]; exact hi)
    obtain ⟨st', d1, d2⟩ := ih f a3 h2 hf.tail hn (by simp at hfu; omega)
    refine ⟨st', ?_, d2⟩
    have hc : (stateOf st.rest).tok = .valueRange ∨ (stateOf st.rest).tok = .value := by
      obtain ⟨w, it, ls', rfl, hit⟩ := items_head hrest
      obtain ⟨t', p', rfl, e1, _⟩ := List.map_eq_cons_iff.mp h2
      obtain ⟨e2, e3⟩ := hf t' (by simp) _ e1
      rw [(toks_inv a3).1, e2]
      exact (item_classify hit).elim (fun h => Or.inr h.1) (fun h => Or.inl h.1)
    unfold rangeList
    simp only [bind, Except.bind, c1]
    rw [if_pos hc, d1]
    rfl

theorem relation_reads {ls : List Lexeme} {r : Relation} (h : IsRelation ls r) (f : Nat) {st : PState}
    {pre suf : List (Tok × List Char)} (ht : toks st = pre ++ suf) (hl : pre.map toLex = ls) (hf : Full (pre ++ suf))
    (hn : NoHead suf [.value, .valueRange]) (hfu : pre.length ≤ f) :
    ∃ st', relation f st = .ok (relationNode r, st') ∧ toks st' = suf := by
  cases h with
  | mk neg h1 h2 =>
    obtain ⟨p, q, rfl, e1, e2⟩ := List.map_eq_append_iff.mp hl
    obtain ⟨t, q, rfl, e3, e4⟩ := List.map_eq_cons_iff.mp e2
    rw [List.append_assoc] at ht hf
    have hs : t.1 = if neg then .notEqual else .equal := by
      cases neg with
      | true => exact lex_tok e3
      | false => exact lex_tok e3
    obtain ⟨st1, a1, a2⟩ := expression_reads h1 ht e1 hf (by
      intro t' r e
      cases e
      rw [hs]; cases neg <;> decide)
    obtain ⟨b1, b2, b3, _⟩ := toks_inv a2
    obtain ⟨st', c1, c2⟩ := rangeList_reads h2 f b3 e4 hf.app.2.tail hn (by simp at hfu; omega)
    refine ⟨st', ?_, c2⟩
    unfold relation
    simp only [bind, Except.bind, a1, scanNext_all]
    rw [if_neg (by rw [b1, hs]; cases neg <;> simp), c1]
    have : decide (st1.tok = .notEqual) = neg := by rw [b1, hs]; cases neg <;> rfl
    rw [this]
    rfl

theorem andCondition_reads {ls : List Lexeme} {c : List Relation} (h : IsConj ls c) : ∀ (f : Nat) {st : PState}
    {pre suf : List (Tok × List Char)}, toks st = pre ++ suf → pre.map toLex = ls → Full (pre ++ suf) →
    NoHead suf [.value, .valueRange, .and] → pre.length + 1 ≤ f →
    ∃ st', andCondition f st = .ok (conjNode c, st') ∧ toks st' = suf := by
  induction h with
  | one hr =>
    intro f st pre suf ht hl hf hn hfu
    obtain ⟨f, rfl⟩ : ∃ g, f = g + 1 := ⟨f - 1, by omega⟩
    obtain ⟨st', a1, a2⟩ := relation_reads hr f ht hl hf (hn.sub (by simp)) (by omega)
    refine ⟨st', ?_, a2⟩
    have := head_not a2 hn (by decide)
    unfold andCondition
    simp only [bind, Except.bind, a1]
    rw [if_neg (by simp at this; exact this.2.2)]
    rfl
  | more hr hrest ih =>
    intro f st pre suf ht hl hf hn hfu
    obtain ⟨f, rfl⟩ : ∃ g, f = g + 1 := ⟨f - 1, by omega⟩
    obtain ⟨p, q, rfl, e1, e2⟩ := List.map_eq_append_iff.mp hl
    obtain ⟨t, q, rfl, e3, e4⟩ := List.map_eq_cons_iff.mp e2
    rw [List.append_assoc] at ht hf
    have hs : t.1 = .and := lex_tok e3
    simp only [List.length_append, List.length_cons] at hfu
    obtain ⟨st1, a1, a2⟩ := relation_reads hr f ht e1 hf (by
      intro t' r e
      cases e
      rw [hs]; decide) (by omega)
    obtain ⟨b1, b2, b3, _⟩ := toks_inv a2
    obtain ⟨st', c1, c2⟩ := ih f b3 e4 hf.app.2.tail hn (by omega)
    refine ⟨st', ?_, c2⟩
    unfold andCondition
    simp only [bind, Except.bind, a1, scanNext_all]
    rw [if_pos (by rw [b1, hs]), c1, conjNode_cons (conj_ne hrest)]

theorem condition_reads {ls : List Lexeme} {c : List (List Relation)} (h : IsCond ls c) : ∀ (f : Nat) {st : PState}
    {pre suf : List (Tok × List Char)}, toks st = pre ++ suf → pre.map toLex = ls → Full (pre ++ suf) →
    NoHead suf [.value, .valueRange, .and, .or] → pre.length + 2 ≤ f →
    ∃ st', condition f st = .ok (condNode c, st') ∧ toks st' = suf := by
  induction h with
  | one hr =>
    intro f st pre suf ht hl hf hn hfu
    obtain ⟨f, rfl⟩ : ∃ g, f = g + 1 := ⟨f - 1, by omega⟩
    obtain ⟨st', a1, a2⟩ := andCondition_reads hr f ht hl hf (hn.sub (by simp)) (by omega)
    refine ⟨st', ?_, a2⟩
    have := head_not a2 hn (by decide)
    unfold condition
    simp only [bind, Except.bind, a1]
    rw [if_neg (by simp at this; exact this.2.2.2)]
    rfl
  | more hr hrest ih =>
    intro f st pre suf ht hl hf hn hfu
    obtain ⟨f, rfl⟩ : ∃ g, f = g + 1 := ⟨f - 1, by omega⟩
    obtain ⟨p, q, rfl, e1, e2⟩ := List.map_eq_append_iff.mp hl
    obtain ⟨t, q, rfl, e3, e4⟩ := List.map_eq_cons_iff.mp e2
    rw [List.append_assoc] at ht hf
    have hs : t.1 = .or := lex_tok e3
    simp only [List.length_append, List.length_cons] at hfu
    obtain ⟨st1, a1, a2⟩ := andCondition_reads hr f ht e1 hf (by
      intro t' r e
      cases e
      rw [hs]; decide) (by omega)
    obtain ⟨b1, b2, b3, _⟩ := toks_inv a2
    obtain ⟨st', c1, c2⟩ := ih f b3 e4 hf.app.2.tail hn (by omega)
    refine ⟨st', ?_, c2⟩
    unfold condition
    simp only [bind, Except.bind, a1, scanNext_all]
    rw [if_pos (by rw [b1, hs]), c1, condNode_cons (cond_ne hrest)]

theorem samplesLoop_reads {ls : List Lexeme} {xs : List (List Char)} (h : Samples ls xs) : ∀ (f : Nat) {st : PState},
    (toks st).map toLex = ls → Full (toks st) → (toks st).length + 1 ≤ f →
    ∃ b, ∀ budget, b ≤ budget → samplesLoop budget f st = .ok xs := by
  induction h with
  | done =>
    intro f st hl _ hfu
    obtain ⟨f, rfl⟩ : ∃ g, f = g + 1 := ⟨f - 1, by omega⟩
    refine ⟨0, fun budget _ => ?_⟩
    unfold samplesLoop
    rw [toks_nil (List.map_eq_nil_iff.mp hl)]
  | @more l ls xs ys hs hrest ih =>
    intro f st hl hf hfu
    obtain ⟨f, rfl⟩ : ∃ g, f = g + 1 := ⟨f - 1, by omega⟩
    obtain ⟨t, p, ht, e1, e2⟩ := List.map_eq_cons_iff.mp hl
    rw [ht] at hf hfu
    obtain ⟨a1, a2, a3, _⟩ := toks_inv ht
    obtain ⟨b, hb⟩ := ih f (st := stateOf st.rest) (by rw [a3]; exact e2) (by rw [a3]; exact hf.tail)
      (by rw [a3]; simp at hfu; omega)
    cases hs with
    | heading =>
      refine ⟨b, fun budget hbud => ?_⟩
      have hk : t.1 = .sample := lex_tok e1
      unfold samplesLoop
      rw [a1, hk]
      simp only [bind, Except.bind, scanNext_all]
      exact hb budget hbud
    | one hi =>
      refine ⟨b, fun budget hbud => ?_⟩
      obtain ⟨c1, c2⟩ := hf t List.mem_cons_self _ e1
      unfold samplesLoop
      rcases sample_complete hi with hc | hc
      · rw [a1, c1, hc]
        simp only [bind, Except.bind, scanNext_all, hb budget hbud, a2, c2]
        rfl
      · rw [a1, c1, hc]
        simp only [bind, Except.bind, scanNext_all, hb budget hbud, a2, c2]
        rfl
    | @range x y hx hy hu =>
      refine ⟨max b (y.value - x.value + 1), fun budget hbud => ?_⟩
      obtain ⟨c1, c2⟩ := hf t List.mem_cons_self _ e1
      unfold samplesLoop
      rw [a1, c1, classify_sample_range hx hy]
      simp only [bind, Except.bind, scanNext_all, a2, c2]
      rw [range_up hy hu (by omega), hb budget (by omega)]

theorem samples_reads {ls : List Lexeme} {xs : List (List Char)} (h : Samples ls xs) (f : Nat) {st : PState}
    (hl : (toks st).map toLex = .samples :: ls) (hf : Full (toks st)) (hfu : (toks st).length + 1 ≤ f) :
    ∃ b, samples b f st = .ok xs := by
  obtain ⟨b, hb⟩ := samplesLoop_reads (Samples.more .heading h) f hl hf hfu
  refine ⟨b, ?_⟩
  obtain ⟨t, p, ht, e1, e2⟩ := List.map_eq_cons_iff.mp hl
  have hk : st.tok = .sample := (toks_inv ht).1.trans (lex_tok e1)
  unfold samples
  rw [if_neg (by rw [hk]; decide), if_neg (by rw [hk]; decide)]
  exact hb b (Nat.le_refl _)

theorem cond_head {ls : List Lexeme} {c : List (List Relation)} (h : IsCond ls c) : ∃ o ls', ls = .operand o :: ls' := by
  have rel : ∀ {ls r}, IsRelation ls r → ∃ o ls', ls = .operand o :: ls' := by
    intro ls r h
    cases h with
    | mk _ h _ => cases h <;> exact ⟨_, _, rfl⟩
  have conj : ∀ {ls c}, IsConj ls c → ∃ o ls', ls = .operand o :: ls' := by
    intro ls c h
    cases h with
    | one h => exact rel h
    | more h _ => obtain ⟨o, ls', rfl⟩ := rel h; exact ⟨_, _, rfl⟩
  cases h with
  | one h => exact conj h
  | more h _ => obtain ⟨o, ls', rfl⟩ := conj h; exact ⟨_, _, rfl⟩

theorem parse_complete {text : List Char} {c : Option (List (List Relation))} {xs : List (List Char)} (h : IsRule text c xs) :
    ∃ budget, parse budget text = .ok ⟨c.map condNode, xs⟩ := by
  have withCond : ∀ {ws : List (List Char)} {ls ls' : List Lexeme} {c : List (List Relation)}, Reads ws (ls ++ ls') → IsCond ls c →
      (ls' = [] ∨ ∃ r, ls' = .samples :: r) → ∃ st, condition (ws.length + 3) (stateOf ws) = .ok (condNode c, st) ∧
      (toks st).map toLex = ls' ∧ Full (toks st) ∧ (toks st).length ≤ ws.length ∧ (stateOf ws).tok ≠ .sample := by
    intro ws ls ls' c hr hc hh
    obtain ⟨h1, h2⟩ := reads_complete hr
    have hlen := toks_length _ _ (size_stateOf ws)
    obtain ⟨p, q, hpq, e1, e2⟩ := List.map_eq_append_iff.mp h1
    rw [hpq] at h2 hlen
    simp only [List.length_append] at hlen
    obtain ⟨st, a1, a2⟩ := condition_reads hc (ws.length + 3) hpq e1 h2 (by
      intro t r e
      subst e
      rcases hh with rfl | ⟨r', rfl⟩
      · cases e2
      · rw [lex_tok (List.cons.inj e2).1]; decide) (by omega)
    refine ⟨st, a1, by rw [a2]; exact e2, by rw [a2]; exact h2.app.2, by rw [a2]; omega, ?_⟩
    obtain ⟨o, r, rfl⟩ := cond_head hc
    obtain ⟨t, p, rfl, e3, _⟩ := List.map_eq_cons_iff.mp e1
    rw [(toks_inv hpq).1, lex_tok e3]
    intro e; cases e
  cases h with
  | cond hw hr hc =>
    obtain ⟨st, a1, a2, a3, a4, a5⟩ := withCond (ls' := []) (by rw [List.append_nil]; exact hr) hc (Or.inl rfl)
    refine ⟨0, ?_⟩
    unfold parse parseTokens
    rw [splits_iff.mp hw]
    simp only [bind, Except.bind, scanNext_all]
    rw [if_pos a5, a1]
    simp only [samples]
    rw [if_pos (toks_nil (List.map_eq_nil_iff.mp a2))]
    rfl
  | @condSamples ws _ _ _ _ hw hr hc hs =>
    obtain ⟨st, a1, a2, a3, a4, a5⟩ := withCond hr hc (Or.inr ⟨_, rfl⟩)
    obtain ⟨b, hb⟩ := samples_reads hs (ws.length + 3) a2 a3 (by omega)
    refine ⟨b, ?_⟩
    unfold parse parseTokens
    rw [splits_iff.mp hw]
    simp only [bind, Except.bind, scanNext_all]
    rw [if_pos a5, a1]
    simp only [hb]
    rfl
  | @samples ws ls _ hw hr hs =>
    obtain ⟨h1, h2⟩ := reads_complete hr
    have hlen := toks_length _ _ (size_stateOf ws)
    obtain ⟨b, hb⟩ := samples_reads hs (ws.length + 3) h1 h2 (by omega)
    refine ⟨b, ?_⟩
    obtain ⟨t, p, ht, e1, _⟩ := List.map_eq_cons_iff.mp h1
    have hk : (stateOf ws).tok = .sample := (toks_inv ht).1.trans (lex_tok e1)
    unfold parse parseTokens
    rw [splits_iff.mp hw]
    simp only [bind, Except.bind, scanNext_all]
    rw [if_neg (by rw [hk]; simp), hb]
    rfl

theorem samplesLoop_more {b b' : Nat} (hb : b ≤ b') : ∀ (f : Nat) {st : PState} {xs : List (List Char)},
    samplesLoop b f st = .ok xs → samplesLoop b' f st = .ok xs
  | 0, _, _, h => by cases h
  | f + 1, st, xs, h => by
    unfold samplesLoop at h ⊢
    simp only [bind, Except.bind, scanNext_all] at h ⊢
    split at h
    · exact h
    · exact samplesLoop_more hb f h
    · cases hr : samplesLoop b f (stateOf st.rest) with
      | error e => rw [hr] at h; cases h
      | ok r => rw [hr] at h; rw [samplesLoop_more hb f hr]; exact h
    · cases hr : samplesLoop b f (stateOf st.rest) with
      | error e => rw [hr] at h; cases h
      | ok r => rw [hr] at h; rw [samplesLoop_more hb f hr]; exact h
    · cases hp : parseSampleRange b st.lit with
      | error e => rw [hp] at h; cases h
      | ok vs =>
        rw [hp] at h
        rw [parseSampleRange_more hp hb]
        cases hr : samplesLoop b f (stateOf st.rest) with
        | error e => rw [hr] at h; cases h
        | ok r => rw [hr] at h; simp only []; rw [samplesLoop_more hb f hr]; exact h
    · cases h

theorem samples_more {b b' : Nat} (hb : b ≤ b') {f : Nat} {st : PState} {xs : List (List Char)}
    (h : samples b f st = .ok xs) : samples b' f st = .ok xs := by
  unfold samples at h ⊢
  split
  · rename_i he; rw [if_pos he] at h; exact h
  · rename_i he
    rw [if_neg he] at h
    split
    · rename_i hs; rw [if_pos hs] at h; exact h
    · rename_i hs; rw [if_neg hs] at h; exact samplesLoop_more hb f h

theorem parse_more {b b' : Nat} (hb : b ≤ b') {text : List Char} {rule : Rule} (h : parse b text = .ok rule) : parse b' text = .ok rule := by
  unfold parse parseTokens at h ⊢
  simp only [bind, Except.bind, scanNext_all] at h ⊢
  split
  · rename_i ht
    rw [if_pos ht] at h
    cases hc : condition ((generateTokens text).length + 3) (stateOf (generateTokens text)) with
    | error e => rw [hc] at h; cases h
    | ok r =>
      rw [hc] at h
      simp only [] at h ⊢
      cases hs : samples b ((generateTokens text).length + 3) r.2 with
      | error e => rw [hs] at h; cases h
      | ok xs => rw [hs] at h; rw [samples_more hb hs]; exact h
  · rename_i ht
    rw [if_neg ht] at h
    cases hs : samples b ((generateTokens text).length + 3) (stateOf (generateTokens text)) with
    | error e => rw [hs] at h; cases h
    | ok xs => rw [hs] at h; rw [samples_more hb hs]; exact h

theorem parse_iff {text : List Char} {rule : Rule} :
    (∃ budget, parse budget text = .ok rule) ↔ ∃ c, IsRule text c rule.samples ∧ rule.root = c.map condNode := by
  constructor
  · rintro ⟨b, h⟩; exact parse_sound h
  · rintro ⟨c, h1, h2⟩
    obtain ⟨b, hb⟩ := parse_complete h1
    refine ⟨b, ?_⟩
    rw [hb, ← h2]

/-! ## Words that cannot occur -/

theorem cond_second {ls : List Lexeme} {c : List (List Relation)} (h : IsCond ls c) :
    ∃ o l ls', ls = .operand o :: l :: ls' ∧ (l = .mod ∨ l = .eq ∨ l = .ne) := by
  have rel : ∀ {ls r}, IsRelation ls r → ∃ o l ls', ls = .operand o :: l :: ls' ∧ (l = .mod ∨ l = .eq ∨ l = .ne) := by
    intro ls r h
    cases h with
    | mk neg h _ =>
      cases h with
      | plain => exact ⟨_, sign neg, _, rfl, by cases neg <;> simp [sign]⟩
      | mod => exact ⟨_, .mod, _, rfl, Or.inl rfl⟩
  have conj : ∀ {ls c}, IsConj ls c → ∃ o l ls', ls = .operand o :: l :: ls' ∧ (l = .mod ∨ l = .eq ∨ l = .ne) := by
    intro ls c h
    cases h with
    | one h => exact rel h
    | more h _ => obtain ⟨o, l, ls', rfl, hl⟩ := rel h; exact ⟨o, l, _, rfl, hl⟩
  cases h with
  | one h => exact conj h
  | more h _ => obtain ⟨o, l, ls', rfl, hl⟩ := conj h; exact ⟨o, l, _, rfl, hl⟩

/-- How a rule begins. -/
theorem rule_head {text : List Char} {c : Option (List (List Relation))} {xs : List (List Char)} (h : IsRule text c xs) :
    ∃ ws ls, Splits text ws ∧ Reads ws ls ∧ ((∃ r, ls = .samples :: r) ∨
      ∃ o l r, ls = .operand o :: l :: r ∧ (l = .mod ∨ l = .eq ∨ l = .ne)) := by
  cases h with
  | cond hw hr hc => exact ⟨_, _, hw, hr, Or.inr (cond_second hc)⟩
  | condSamples hw hr hc _ =>
    obtain ⟨o, l, r, rfl, hl⟩ := cond_second hc
    exact ⟨_, _, hw, hr, Or.inr ⟨o, l, _, rfl, hl⟩⟩
  | samples hw hr _ => exact ⟨_, _, hw, hr, Or.inl ⟨_, rfl⟩⟩

theorem splits_unique {s : List Char} {a b : List (List Char)} (h : Splits s a) (h' : Splits s b) : a = b :=
  (splits_iff.mp h).symm.trans (splits_iff.mp h')

end Verif.Proofs.Cldr.Rules
