import Verif.Proofs.PoPlural.Rule
import Verif.Proofs.PoPlural.Text
/-! Which texts the parser of plural formulas accepts. -/
namespace Verif.Proofs.PoPlural.Text
open Verif.Model.PoPlural Verif.Spec.PoPlural Verif.Proofs.PoPlural

/-! ## Numerals -/

theorem digits_cut (a r : List Char) (h : ∀ c ∈ a, c.isDigit) (acc : Nat) (hacc : acc < 2 ^ 64) :
    parseDigits acc (a ++ '_' :: r) =
      if 2 ^ 64 ≤ a.foldl (fun a c => a * 10 + (c.toNat - '0'.toNat)) acc then 2 ^ 63 - 1 else 0 := by
  induction a generalizing acc with
  | nil =>
    rw [if_neg (by simpa using hacc)]
    have : Model.PoPlural.isDigit '_' = false := by decide
    simp [parseDigits, this]
  | cons c a ih =>
    have hc : Model.PoPlural.isDigit c = true := h c (by simp)
    rw [List.cons_append, List.foldl_cons]
    simp only [parseDigits, hc, if_true]
    split
    · rename_i hb
      rw [if_pos (Nat.le_trans hb (foldl_ge a _))]
    · rename_i hb
      exact ih (fun d hd => h d (by simp [hd])) _ (by omega)

theorem cut_at (ds : List Char) (h : '_' ∈ ds) (hd : ∀ d ∈ ds, d.isDigit ∨ d = '_') :
    ∃ r, ds = ds.takeWhile Char.isDigit ++ '_' :: r := by
  induction ds with
  | nil => cases h
  | cons c ds ih =>
    by_cases hc : c.isDigit = true
    · have h' : '_' ∈ ds := by
        rcases List.mem_cons.mp h with rfl | h
        · exact absurd hc (by decide)
        · exact h
      obtain ⟨r, hr⟩ := ih h' (fun d hx => hd d (by simp [hx]))
      exact ⟨r, by rw [List.takeWhile_cons, if_pos hc, List.cons_append, ← hr]⟩
    · rcases hd c (by simp) with h1 | rfl
      · exact absurd h1 hc
      · exact ⟨ds, by rw [List.takeWhile_cons, if_neg hc]; rfl⟩

theorem takeWhile_digits (ds : List Char) : ∀ c ∈ ds.takeWhile Char.isDigit, c.isDigit := by
  induction ds with
  | nil => simp
  | cons c ds ih =>
    by_cases hc : c.isDigit = true
    · rw [List.takeWhile_cons, if_pos hc]
      intro d hd
      rcases List.mem_cons.mp hd with rfl | hd
      · exact hc
      · exact ih d hd
    · rw [List.takeWhile_cons, if_neg hc]; simp

theorem numeral_all {ds : List Char} (h : Numeral ds) : ∀ d ∈ ds, d.isDigit ∨ d = '_' := by
  obtain ⟨c, r, rfl, hc, hr⟩ := h
  intro d hd
  rcases List.mem_cons.mp hd with rfl | hd
  · exact .inl hc
  · exact hr d hd

theorem readNum_digits {ds : List Char} (h : Numeral ds) : readNum ds ≠ [] ∧ ∀ c ∈ readNum ds, c.isDigit := by
  have hall := numeral_all h
  obtain ⟨c, r, rfl, hc, hr⟩ := h
  unfold readNum
  split
  · split
    · exact ⟨by rw [List.takeWhile_cons, if_pos hc]; simp, takeWhile_digits _⟩
    · refine ⟨by simp, ?_⟩
      intro c hc
      rw [List.mem_singleton.mp hc]; decide
  · rename_i hn
    refine ⟨by simp, fun d hd => ?_⟩
    rcases hall d hd with h | rfl
    · exact h
    · exact absurd hd hn

theorem digits_read {ds : List Char} (h : Numeral ds) : parseDigits 0 (readNum ds) = parseDigits 0 ds := by
  by_cases hu : '_' ∈ ds
  · obtain ⟨r, hr⟩ := cut_at ds hu (numeral_all h)
    have hcut := digits_cut (ds.takeWhile Char.isDigit) r (takeWhile_digits ds) 0 (by decide)
    rw [← hr] at hcut
    have hv : (ds.takeWhile Char.isDigit).foldl (fun a c => a * 10 + (c.toNat - '0'.toNat)) 0 =
        decVal (ds.takeWhile Char.isDigit) := rfl
    rw [hv] at hcut
    rw [hcut]
    unfold readNum
    rw [if_pos hu]
    by_cases hb : 2 ^ 64 ≤ decVal (ds.takeWhile Char.isDigit)
    · rw [if_pos hb, if_pos hb, parseDigits_spec _ (takeWhile_digits ds) 0, hv]
      unfold sat
      have h3 : (2:Nat) ^ 64 = 2 * 2 ^ 63 := by decide
      rw [if_neg (by omega)]
    · rw [if_neg hb, if_neg hb]; decide
  · unfold readNum; rw [if_neg hu]

/-! ## Tokens with the same meaning -/

/-- A token with the value of its numeral. -/
def key : Tok → Tok × Int
  | .value lit => (.value [], parseDigits 0 lit)
  | t => (t, 0)

theorem key_value {t : Tok} {lit : List Char} (h : key t = key (.value lit)) :
    ∃ l, t = .value l ∧ parseDigits 0 l = parseDigits 0 lit := by
  cases t with
  | value l => exact ⟨l, rfl, by simpa [key] using h⟩
  | _ => simp [key] at h

theorem key_other {t u : Tok} (hu : ∀ l, u ≠ .value l) (h : key t = key u) : t = u := by
  cases u with
  | value l => exact absurd rfl (hu l)
  | _ => cases t <;> simp_all [key]

theorem derP_same {l : Nat} {toks : List Tok} {n : Node} (h : DerP l toks n) :
    ∀ ts : List Tok, ts.map key = toks.map key → DerP l ts n := by
  induction h with
  | operand =>
    intro ts h
    obtain ⟨t, rfl, ht⟩ := List.map_eq_singleton_iff.mp h
    obtain rfl := key_other (by simp) ht
    exact .operand
  | value lit =>
    intro ts h
    obtain ⟨t, rfl, ht⟩ := List.map_eq_singleton_iff.mp h
    obtain ⟨l, rfl, hl⟩ := key_value ht
    rw [← hl]; exact .value l
  | paren _ ih =>
    intro ts h
    rw [List.map_append] at h
    obtain ⟨a, b, rfl, ha, hb⟩ := List.map_eq_append_iff.mp h
    obtain ⟨t, rfl, ht⟩ := List.map_eq_singleton_iff.mp hb
    obtain ⟨t1, a', rfl, ht1, ha'⟩ := List.map_eq_cons_iff.mp ha
    obtain rfl := key_other (by simp) ht
    obtain rfl := key_other (by simp) ht1
    exact .paren (ih a' ha')
  | up hl _ ih => intro ts h; exact .up hl (ih ts h)
  | bin ho _ _ ih1 ih2 =>
    intro ts h
    rw [List.map_append] at h
    obtain ⟨a, b, rfl, ha, hb⟩ := List.map_eq_append_iff.mp h
    obtain ⟨t, b', rfl, ht, hb'⟩ := List.map_eq_cons_iff.mp hb
    obtain rfl := key_other (by simp) ht
    exact .bin ho (ih1 a ha) (ih2 b' hb')
  | cond _ _ _ ih1 ih2 ih3 =>
    intro ts h
    rw [List.map_append] at h
    obtain ⟨a, b, rfl, ha, hb⟩ := List.map_eq_append_iff.mp h
    obtain ⟨t, b', rfl, ht, hb'⟩ := List.map_eq_cons_iff.mp hb
    rw [List.map_append] at hb'
    obtain ⟨b1, b2, rfl, hb1, hb2⟩ := List.map_eq_append_iff.mp hb'
    obtain ⟨t2, d, rfl, ht2, hd⟩ := List.map_eq_cons_iff.mp hb2
    obtain rfl := key_other (by simp) ht
    obtain rfl := key_other (by simp) ht2
    exact .cond (ih1 a ha) (ih2 b1 hb1) (ih3 d hd)

theorem key_read {ts : List T} (h : ∀ t ∈ ts, t.Written) :
    ((ts.map T.read).map tokOf).map key = (ts.map tokOf).map key := by
  simp only [List.map_map]
  apply List.map_congr_left
  intro t ht
  cases t with
  | num ds => simp [T.read, tokOf, key, digits_read (h _ ht)]
  | _ => rfl

theorem read_wf {t : T} (h : t.Written) : t.read.WF := by
  cases t with
  | num ds => exact readNum_digits h
  | word k w => exact h
  | _ => trivial

theorem reads_written {ts : List T} {s : List Char} (h : Reads ts s) : ∀ t ∈ ts, t.Written := by
  induction h with
  | stop => simp
  | cons g t tail ts s _ ht _ _ ih =>
    intro x hx
    rcases List.mem_cons.mp hx with rfl | hx
    · exact ht
    · exact ih x hx

/-- A text that spells tokens is read as these tokens. -/
theorem spells_reads {ts : List T} {s : List Char} (h : Spells ts s) : Reads ts s := by
  induction h with
  | nil w hw => exact .stop w (.inl hw)
  | cons w t ts s hw ht hm hs ih =>
    have hwr : t.Written := by
      cases t with
      | num ds =>
        obtain ⟨hne, hd⟩ := ht
        cases ds with
        | nil => exact absurd rfl hne
        | cons c r => exact ⟨c, r, rfl, hd c (by simp), fun d h => .inl (hd d (by simp [h]))⟩
      | word k w => exact ht
      | _ => trivial
    have := Reads.cons w t [] ts s (.inl hw) hwr (.inl ⟨rfl, hm, fun _ => spells_head ts s hs⟩) ih
    rwa [List.nil_append, ← List.append_assoc] at this

/-! ## Parsing -/

/-- The tokens of a value with the formula `ts`. -/
def header (w₁ ds w₂ : List Char) (ts : List T) : List T :=
  .word .nplurals w₁ :: .assign :: .num ds :: .semi :: .word .plural w₂ :: .assign :: (ts ++ [.semi])

theorem reads_lx (a : List T) (u : T) (b : List T) : ∀ st : PState,
    (∃ t rest, a ++ u :: b = t :: rest ∧ st.tok = tokOf t ∧ Reads rest st.rest) →
    ∃ st' : PState, Lx st (a.map tokOf) st' ∧ st'.tok = tokOf u ∧ Reads b st'.rest := by
  induction a with
  | nil =>
    rintro st ⟨t, rest, he, ht, hs⟩
    simp only [List.nil_append, List.cons.injEq] at he
    obtain ⟨rfl, rfl⟩ := he
    exact ⟨st, rfl, ht, hs⟩
  | cons t a ih =>
    rintro st ⟨t', rest, he, ht, hs⟩
    simp only [List.cons_append, List.cons.injEq] at he
    obtain ⟨rfl, rfl⟩ := he
    obtain ⟨v, vs, hv⟩ : ∃ v vs, a ++ u :: b = v :: vs := by
      cases a with
      | nil => exact ⟨_, _, rfl⟩
      | cons v a => exact ⟨_, _, rfl⟩
    rw [hv] at hs
    obtain ⟨s, h1, h2, _⟩ := next_reads v vs st.rest hs
    have hsn : scanNext st = .ok ⟨tokOf v, s⟩ := by
      obtain ⟨tk, r⟩ := st
      exact scanNext_of_next h1
    obtain ⟨st', hx, hp⟩ := ih ⟨tokOf v, s⟩ ⟨v, vs, hv, rfl, h2⟩
    exact ⟨st', ⟨ht, _, hsn, hx⟩, hp⟩

theorem expect_reads {t : T} {ts : List T} {cs : List Char} (h : Reads (t :: ts) cs) :
    ∃ s, expect (tokOf t) cs = .ok s ∧ Reads ts s ∧ s.length < cs.length := by
  obtain ⟨s, h1, h2, h3⟩ := next_reads t ts cs h
  exact ⟨s, by simp [expect, h1], h2, h3⟩

/-- The parser returns the tree of the tokens. -/
theorem complete {text w₁ ds w₂ : List Char} {ts : List T} {n : Node} (h : Reads (header w₁ ds w₂ ts) text)
    (hd : DerP 0 (ts.map tokOf) n) : astParse text = .ok ⟨parseDigits 0 ds, n⟩ := by
  obtain ⟨s1, e1, p1, q1⟩ := expect_reads h
  obtain ⟨s2, e2, p2, q2⟩ := expect_reads p1
  obtain ⟨s3, e3, p3, q3⟩ := next_reads _ _ _ p2
  obtain ⟨s4, e4, p4, q4⟩ := expect_reads p3
  obtain ⟨s5, e5, p5, q5⟩ := expect_reads p4
  obtain ⟨s6, e6, p6, q6⟩ := expect_reads p5
  obtain ⟨v, vs, hv⟩ : ∃ v vs, ts ++ [T.semi] = v :: vs := by
    cases ts with
    | nil => exact ⟨_, _, rfl⟩
    | cons v a => exact ⟨_, _, rfl⟩
  rw [hv] at p6
  obtain ⟨s7, e7, p7, q7⟩ := next_reads v vs s6 p6
  have hsn : scanNext ⟨.assign, s6⟩ = .ok ⟨tokOf v, s7⟩ := scanNext_of_next e7
  obtain ⟨st', hx, ht', hs'⟩ := reads_lx ts .semi [] ⟨tokOf v, s7⟩ ⟨v, vs, hv, rfl, p7⟩
  have hlen := Lx_length hx
  simp only at hlen
  have hparse := parse_complete hd _ _ (8 * text.length + 8) hx
    (by rw [ht']; intro p hp; simp [tokOf, tokLevel] at hp) (by omega)
  simp only [lvl] at hparse
  have heof : (next st'.rest).1 = .eof := by
    cases hs' with
    | stop _ he => exact next_ends _ he
  have e1' : expect .nplurals text = .ok s1 := e1
  have e2' : expect .assign s1 = .ok s2 := e2
  have e3' : expectValue s2 = .ok (parseDigits 0 ds, s3) := by simp [expectValue, e3, tokOf]
  have e4' : expect .semicolon s3 = .ok s4 := e4
  have e5' : expect .plural s4 = .ok s5 := e5
  have e6' : expect .assign s5 = .ok s6 := e6
  have hsemi : st'.tok = .semicolon := ht'
  simp [astParse, parseWith, bind, Except.bind, e1', e2', e3', e4', e5', e6', hsn, hparse, hsemi, heof]

theorem lx_reads (toks : List Tok) : ∀ (st st' : PState) (t0 : T), Lx st toks st' → Tok.ws ∉ toks → st'.tok ≠ .ws →
    st.tok = tokOf t0 → ∃ ts u rest, ts ++ [u] = t0 :: rest ∧ ts.map tokOf = toks ∧ st'.tok = tokOf u ∧
      ∀ qs, Reads qs st'.rest → Reads (rest ++ qs) st.rest := by
  induction toks with
  | nil =>
    intro st st' t0 h _ _ ht
    cases h
    exact ⟨[], t0, [], rfl, rfl, ht, fun qs h => h⟩
  | cons tk toks ih =>
    rintro st st' t0 ⟨h1, s, h2, h3⟩ hws hws' ht
    unfold scanNext at h2
    simp only at h2
    split at h2
    · cases h2
    · rename_i hn
      cases h2
      simp only [not_or] at hn
      rcases next_cases st.rest with ⟨h, _⟩ | h | h | ⟨t1, g1, g2, g3⟩
      · exact absurd h hn.1
      · exact absurd h hn.2
      · exfalso
        cases toks with
        | nil => cases h3; exact hws' h
        | cons t2 toks =>
          have : (next st.rest).1 = t2 := h3.1
          exact hws (by rw [← this, h]; simp)
      · obtain ⟨ts, u, rest, r1, r2, r3, r4⟩ := ih _ _ t1 h3 (fun h => hws (by simp [h])) hws' g2
        refine ⟨t0 :: ts, u, t1 :: rest, by rw [List.cons_append, r1], ?_, r3, ?_⟩
        · simp only [List.map_cons, r2, List.cons.injEq, and_true]; rw [← ht]; exact h1
        · intro qs hq
          exact g3 _ (r4 qs hq)

theorem derP_no_ws {l : Nat} {toks : List Tok} {n : Node} (h : DerP l toks n) : Tok.ws ∉ toks := by
  induction h <;> simp_all

theorem derP_head {l : Nat} {toks : List Tok} {n : Node} (h : DerP l toks n) : toks ≠ [] := by
  intro e
  have := DerP_length h
  rw [e] at this
  simp at this

theorem expect_back {t : Tok} {cs s : List Char} (h : expect t cs = .ok s) (h1 : t ≠ .eof) (h2 : t ≠ .failure)
    (h3 : t ≠ .ws) : ∃ u : T, tokOf u = t ∧ ∀ ts, Reads ts s → Reads (u :: ts) cs := by
  unfold expect at h
  simp only at h
  split at h
  · rename_i ht
    cases h
    rcases next_cases cs with ⟨g, _⟩ | g | g | ⟨u, g1, g2, g3⟩
    · exact absurd (ht.symm.trans g) h1
    · exact absurd (ht.symm.trans g) h2
    · exact absurd (ht.symm.trans g) h3
    · exact ⟨u, g2.symm.trans ht, g3⟩
  · cases h

/-- What the parser accepts is read as the tokens of its tree. -/
theorem sound {text : List Char} {f : Forms} (h : astParse text = .ok f) :
    ∃ w₁ ds w₂ ts, Reads (header w₁ ds w₂ ts) text ∧ DerP 0 (ts.map tokOf) f.root ∧ f.nPlurals = parseDigits 0 ds := by
  simp only [astParse, parseWith, bind] at h
  obtain ⟨s1, e1, h⟩ := bind_ok h
  obtain ⟨s2, e2, h⟩ := bind_ok h
  obtain ⟨⟨np, s3⟩, e3, h⟩ := bind_ok h
  obtain ⟨s4, e4, h⟩ := bind_ok h
  obtain ⟨s5, e5, h⟩ := bind_ok h
  obtain ⟨s6, e6, h⟩ := bind_ok h
  obtain ⟨st, e7, h⟩ := bind_ok h
  obtain ⟨⟨n, st'⟩, e8, h⟩ := bind_ok h
  simp only at h
  split at h
  · cases h
  rename_i hsemi
  split at h
  · cases h
  rename_i heof
  cases h
  have hsemi' : st'.tok = .semicolon := Classical.not_not.mp hsemi
  have heof' : (next st'.rest).1 = .eof := Classical.not_not.mp heof
  obtain ⟨u1, b1, d1⟩ := expect_back e1 (by simp) (by simp) (by simp)
  obtain ⟨u2, b2, d2⟩ := expect_back e2 (by simp) (by simp) (by simp)
  obtain ⟨lit, hlit, hnp⟩ : ∃ lit, (next s2) = (.value lit, s3) ∧ np = parseDigits 0 lit := by
    unfold expectValue at e3
    split at e3
    · rename_i lit r hr; cases e3; exact ⟨lit, hr, rfl⟩
    · cases e3
  obtain ⟨u3, b3, d3⟩ : ∃ u : T, tokOf u = .value lit ∧ ∀ ts, Reads ts s3 → Reads (u :: ts) s2 := by
    have hi := next_cases s2
    rw [hlit] at hi
    rcases hi with ⟨g, _⟩ | g | g | ⟨u, g1, g2, g3⟩
    · cases g
    · cases g
    · cases g
    · exact ⟨u, g2.symm, g3⟩
  obtain ⟨u4, b4, d4⟩ := expect_back e4 (by simp) (by simp) (by simp)
  obtain ⟨u5, b5, d5⟩ := expect_back e5 (by simp) (by simp) (by simp)
  obtain ⟨u6, b6, d6⟩ := expect_back e6 (by simp) (by simp) (by simp)
  obtain ⟨toks, hd, hx⟩ := parse_sound (8 * text.length + 8) 0 (by omega) st st' n e8
  have hnws := derP_no_ws hd
  have hstws : st.tok ≠ .ws := by
    cases toks with
    | nil => exact absurd rfl (derP_head hd)
    | cons t toks =>
      obtain ⟨ht, _⟩ := hx
      rw [ht]
      exact fun e => hnws (by simp [e])
  obtain ⟨u7, b7, d7⟩ : ∃ u : T, st.tok = tokOf u ∧ ∀ ts, Reads ts st.rest → Reads (u :: ts) s6 := by
    unfold scanNext at e7
    simp only at e7
    split at e7
    · cases e7
    · rename_i hn
      cases e7
      simp only [not_or] at hn
      rcases next_cases s6 with ⟨g, _⟩ | g | g | ⟨t1, g1, g2, g3⟩
      · exact absurd g hn.1
      · exact absurd g hn.2
      · exact absurd g hstws
      · exact ⟨t1, g2, g3⟩
  obtain ⟨ts, u, rest, r1, r2, r3, r5⟩ := lx_reads toks st st' u7 hx hnws (by rw [hsemi']; simp) b7
  have hend : Reads [] st'.rest := by
    rcases next_cases st'.rest with ⟨_, g⟩ | g | g | ⟨t, _, g, _⟩
    · exact .stop _ g
    · rw [heof'] at g; cases g
    · rw [heof'] at g; cases g
    · rw [heof'] at g; exact absurd g.symm (tokOf_facts t).2.1
  have hfin := d7 _ (r5 [] hend)
  rw [List.append_nil, ← r1] at hfin
  have inv : ∀ t : T, (tokOf t = .nplurals → ∃ w, t = .word .nplurals w) ∧
      (tokOf t = .plural → ∃ w, t = .word .plural w) ∧
      (∀ lit, tokOf t = .value lit → t = .num lit) ∧ (tokOf t = .assign → t = .assign) ∧
      (tokOf t = .semicolon → t = .semi) := by
    intro t
    cases t with
    | word k w => cases k <;> simp [tokOf]
    | _ => simp [tokOf]
  obtain ⟨w1, rfl⟩ := (inv u1).1 b1
  obtain rfl := (inv u2).2.2.2.1 b2
  obtain rfl := (inv u3).2.2.1 _ b3
  obtain rfl := (inv u4).2.2.2.2 b4
  obtain ⟨w2, rfl⟩ := (inv u5).2.1 b5
  obtain rfl := (inv u6).2.2.2.1 b6
  obtain rfl := (inv u).2.2.2.2 (r3.symm.trans hsemi')
  exact ⟨w1, lit, w2, ts, d1 _ (d2 _ (d3 _ (d4 _ (d5 _ (d6 _ hfin))))), by rw [r2]; exact hd, hnp⟩

/-! ## The texts -/

theorem accepted_of_parse {text : List Char} {f : Forms} (h : astParse text = .ok f) : ∃ k e, Accepted text k e := by
  obtain ⟨w₁, ds, w₂, ts, hr, hd, _⟩ := sound h
  have hw := reads_written hr
  have hts : ∀ t ∈ ts, t.Written := fun t ht => hw t (by simp [header, ht])
  obtain ⟨e, he⟩ := derP_to_der (derP_same hd _ (key_read hts)) (ts.map T.read) rfl
  exact ⟨_, e, w₁, ds, w₂, ts, hr, rfl, he⟩

/-- An accepted text is parsed like a formula without NUL and underscores. -/
theorem parse_of_accepted {text : List Char} {k : Nat} {e : Expr} (h : Accepted text k e) :
    ∃ clean n, Formula clean k e ∧ astParse text = .ok ⟨sat k, n⟩ ∧ astParse clean = .ok ⟨sat k, n⟩ := by
  obtain ⟨w₁, ds, w₂, ts, hr, hk, hd⟩ := h
  have hw := reads_written hr
  have hds : Numeral ds := hw (.num ds) (by simp)
  have hts : ∀ t ∈ ts, t.Written := fun t ht => hw t (by simp [ht])
  have hwf : ∀ t ∈ ts.map T.read, t.WF := by
    intro t ht
    obtain ⟨u, hu, rfl⟩ := List.mem_map.mp ht
    exact read_wf (hts u hu)
  obtain ⟨n, hn, _⟩ := der_to_derP hd hwf
  obtain ⟨s, hs⟩ := spells_spaced (header w₁ (readNum ds) w₂ (ts.map T.read)) (by
    intro t ht
    simp only [header, List.mem_cons, List.mem_append, List.mem_nil_iff, or_false] at ht
    rcases ht with rfl | rfl | rfl | rfl | rfl | rfl | ht | rfl
    · exact hw (.word .nplurals w₁) (by simp)
    · trivial
    · exact readNum_digits hds
    · trivial
    · exact hw (.word .plural w₂) (by simp)
    · trivial
    · exact hwf t ht
    · trivial)
  have hv : parseDigits 0 (readNum ds) = sat k := by
    rw [parseDigits_spec _ (readNum_digits hds).2 0, hk]; rfl
  refine ⟨' ' :: s, n, ⟨w₁, readNum ds, w₂, ts.map T.read, hs, hk, hd⟩, ?_, ?_⟩
  · have := complete hr (derP_same hn _ (key_read hts).symm)
    rw [this, ← digits_read hds, hv]
  · rw [complete (spells_reads hs) hn, hv]

theorem spells_of_reads {ts : List T} {s : List Char} (h : Reads ts s) (h0 : '\x00' ∉ s) (h1 : '_' ∉ s) :
    Spells ts s := by
  induction h with
  | stop s he =>
    rcases he with he | ⟨j, rfl⟩ | ⟨b, _, _, rfl | ⟨j, rfl⟩⟩
    · exact .nil s he
    · exact absurd (by simp [NUL]) h0
    · exact absurd (by simp [NUL]) h0
    · exact absurd (by simp [NUL]) h0
  | cons g t tail ts s hg ht hm hs ih =>
    have hg' : ∀ c ∈ g, Blank c := by
      rcases hg with hg | ⟨b, _, _, rfl⟩
      · exact hg
      · exact absurd (by simp [NUL]) h0
    rcases hm with ⟨rfl, hm, _⟩ | ⟨rfl, _⟩
    · have hwf : t.WF := by
        cases t with
        | num ds =>
          refine ⟨by obtain ⟨c, r, rfl, _⟩ := ht; simp, fun d hd => ?_⟩
          rcases numeral_all ht d hd with h | rfl
          · exact h
          · exact absurd (by simp [T.text, hd]) h1
        | word k w => exact ht
        | _ => trivial
      have := Spells.cons g t ts s hg' hwf hm
        (ih (fun h => h0 (by simp [h])) (fun h => h1 (by simp [h])))
      rw [List.append_assoc] at this
      rwa [List.nil_append]
    · exact absurd (by simp [NUL]) h0

end Verif.Proofs.PoPlural.Text
