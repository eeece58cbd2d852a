import Verif.Proofs.PoPlural.Parser
/-! From the specification's grammar to the parser's grammar and back. -/
namespace Verif.Proofs.PoPlural
open Verif.Model.PoPlural Verif.Spec.PoPlural

/-- The value of a numeral: it saturates at the largest int64. -/
def sat (k : Nat) : Int := if k < 2 ^ 63 then k else 2 ^ 63 - 1

/-- The tree of an expression; numerals saturate at the largest int64. -/
def toNode : Expr → Node
  | .n => .operand
  | .num k => .value (sat k)
  | .bin o x y => .binary (toNode x) (opOf o) (toNode y)
  | .cond c t e => .question (toNode c) (toNode t) (toNode e)

/-- Equality of trees up to the association of `&&` and `||`. -/
inductive Re : Node → Node → Prop
  | refl (x) : Re x x
  | symm {x y} : Re x y → Re y x
  | trans {x y z} : Re x y → Re y z → Re x z
  | bin {x x' o y y'} : Re x x' → Re y y' → Re (.binary x o y) (.binary x' o y')
  | cond {c c' t t' e e'} : Re c c' → Re t t' → Re e e' → Re (.question c t e) (.question c' t' e')
  | assoc {o a b c} : (o = .and ∨ o = .or) →
      Re (.binary (.binary a o b) o c) (.binary a o (.binary b o c))

theorem truth_eq_one (b : Bool) : truth b = 1 ↔ b = true := by cases b <;> simp [truth]

theorem Re.eval {x y : Node} (h : Re x y) (m : Int) : evaluate x m = evaluate y m := by
  induction h with
  | refl => rfl
  | symm _ ih => exact ih.symm
  | trans _ _ ih1 ih2 => exact ih1.trans ih2
  | bin _ _ ih1 ih2 => simp only [evaluate, ih1, ih2]
  | cond _ _ _ ih1 ih2 ih3 => simp only [evaluate, ih1, ih2, ih3]
  | assoc ho =>
    rcases ho with rfl | rfl
    · simp [evaluate, truth_eq_one, Bool.and_assoc]
    · simp [evaluate, truth_eq_one, Bool.or_assoc]

theorem Re.mkAnd (x y : Node) : Re (.binary x .and y) (Model.PoPlural.mkAnd x y) := by
  unfold Model.PoPlural.mkAnd
  split
  · exact .symm (.assoc (.inl rfl))
  · exact .refl _

theorem Re.mkOr (x y : Node) : Re (.binary x .or y) (Model.PoPlural.mkOr x y) := by
  unfold Model.PoPlural.mkOr
  split
  · exact .symm (.assoc (.inr rfl))
  · exact .refl _

theorem Re.mk (o : Op) (x y : Node) : Re (.binary x o y) (Proofs.PoPlural.mk o x y) := by
  cases o
  case and => exact Re.mkAnd x y
  case or => exact Re.mkOr x y
  all_goals exact .refl _

theorem DerP_le {l : Nat} {ts : List Tok} {n : Node} (h : DerP l ts n) : l ≤ 6 := by
  cases h with
  | up h _ => omega
  | bin h _ _ => have := level_le _ _ h; omega
  | cond => omega
  | _ => omega

/-! Numerals -/

theorem foldl_ge (ds : List Char) (acc : Nat) :
    acc ≤ ds.foldl (fun a c => a * 10 + (c.toNat - '0'.toNat)) acc := by
  induction ds generalizing acc with
  | nil => simp
  | cons c ds ih =>
    have := ih (acc * 10 + (c.toNat - '0'.toNat))
    simp only [List.foldl_cons]
    omega

theorem parseDigits_spec (ds : List Char) (h : ∀ c ∈ ds, c.isDigit) (acc : Nat) :
    parseDigits acc ds = sat (ds.foldl (fun a c => a * 10 + (c.toNat - '0'.toNat)) acc) := by
  induction ds generalizing acc with
  | nil =>
    show (if acc ≥ 2 ^ 63 then (2 ^ 63 - 1 : Int) else acc) = sat acc
    unfold sat
    by_cases hk : acc < 2 ^ 63
    · rw [if_pos hk, if_neg (by omega)]
    · rw [if_neg hk, if_pos (by omega)]
  | cons c ds ih =>
    have hc : Model.PoPlural.isDigit c = true := h c (by simp)
    have hi := ih (fun d hd => h d (by simp [hd])) (acc * 10 + (c.toNat - '0'.toNat))
    rw [List.foldl_cons, ← hi]
    simp only [parseDigits, hc, if_true]
    split
    · rename_i hb
      rw [hi]
      have := foldl_ge ds (acc * 10 + (c.toNat - '0'.toNat))
      unfold sat
      rw [if_neg]
      have h3 : (2:Nat) ^ 64 = 2 * 2 ^ 63 := by decide
      rw [h3] at hb
      exact Nat.not_lt.mpr (Nat.le_trans (by omega) this)
    · rfl

/-! Specification to parser grammar -/

theorem derP_append {o : Op} {l : Nat} (hl : tokLevel (.op o) = some l) (ho : o = .and ∨ o = .or)
    {a b : List Tok} {x y : Node} (h1 : DerP l a x) (h2 : DerP l b y) :
    ∃ z, DerP l (a ++ .op o :: b) z ∧ Re (.binary x o y) z := by
  have hr : rightLevel l = l := by rcases ho with rfl | rfl <;> cases hl <;> rfl
  have key : ∀ l' a x, DerP l' a x → l' = l →
      ∃ z, DerP l (a ++ .op o :: b) z ∧ Re (.binary x o y) z := by
    intro l' a x h
    induction h with
    | operand => intro e; have := level_le _ _ hl; omega
    | value => intro e; have := level_le _ _ hl; omega
    | paren => intro e; have := level_le _ _ hl; omega
    | @up l' ts n _ hd _ =>
      intro e; subst e
      exact ⟨_, .bin hl hd (by rw [hr]; exact h2), Re.mk o _ _⟩
    | @bin l' a1 x1 a2 x2 o' ho' hd1 hd2 _ ih2 =>
      intro e; subst e
      have : o' = o := by
        rcases ho with rfl | rfl <;> cases hl <;> cases o' <;> simp [tokLevel] at ho' <;> rfl
      subst this
      obtain ⟨z2, hz, hz2⟩ := ih2 hr
      refine ⟨Proofs.PoPlural.mk o' x1 z2, ?_, ?_⟩
      · rw [List.append_assoc, List.cons_append]
        exact .bin hl hd1 (by rw [hr]; exact hz)
      · refine .trans (.bin (.symm (Re.mk o' x1 x2)) (.refl y)) ?_
        exact .trans (.assoc ho) (.trans (.bin (.refl x1) hz2) (Re.mk o' x1 z2))
    | cond => intro e; subst e; rcases ho with rfl | rfl <;> cases hl
  exact key l a x h1 rfl

theorem der_to_derP {l : Nat} {ts : List T} {e : Expr} (h : Der l ts e) (hwf : ∀ t ∈ ts, t.WF) :
    ∃ n, DerP l (ts.map tokOf) n ∧ Re (toNode e) n := by
  induction h with
  | n w => exact ⟨_, .operand, .refl _⟩
  | num ds =>
    refine ⟨_, .value ds, ?_⟩
    have := parseDigits_spec ds (hwf (.num ds) (by simp)).2 0
    rw [this]
    exact .refl _
  | @paren ts e _ ih =>
    obtain ⟨n, hd, hr⟩ := ih (fun t ht => hwf t (by simp [ht]))
    refine ⟨n, ?_, hr⟩
    have := DerP.paren hd
    simpa [tokOf] using this
  | up _ ih =>
    obtain ⟨n, hd, hr⟩ := ih hwf
    exact ⟨n, .up (by have := DerP_le hd; omega) hd, hr⟩
  | @rem a x b y _ _ ih1 ih2 =>
    obtain ⟨n1, hd1, hr1⟩ := ih1 (fun t ht => hwf t (by simp [ht]))
    obtain ⟨n2, hd2, hr2⟩ := ih2 (fun t ht => hwf t (by simp [ht]))
    refine ⟨_, ?_, .trans (.bin hr1 hr2) (Re.mk .rem n1 n2)⟩
    have := DerP.bin (o := .rem) rfl hd1 hd2
    simpa [tokOf, opOf] using this
  | @rel a x b y o ho _ _ ih1 ih2 =>
    obtain ⟨n1, hd1, hr1⟩ := ih1 (fun t ht => hwf t (by simp [ht]))
    obtain ⟨n2, hd2, hr2⟩ := ih2 (fun t ht => hwf t (by simp [ht]))
    refine ⟨_, ?_, .trans (.bin hr1 hr2) (Re.mk (opOf o) n1 n2)⟩
    have hl : tokLevel (.op (opOf o)) = some 4 := by
      cases o <;> simp [BinOp.isRel] at ho <;> rfl
    have := DerP.bin hl hd1 hd2
    simpa [tokOf] using this
  | @eq a x b y o ho _ _ ih1 ih2 =>
    obtain ⟨n1, hd1, hr1⟩ := ih1 (fun t ht => hwf t (by simp [ht]))
    obtain ⟨n2, hd2, hr2⟩ := ih2 (fun t ht => hwf t (by simp [ht]))
    refine ⟨_, ?_, .trans (.bin hr1 hr2) (Re.mk (opOf o) n1 n2)⟩
    have hl : tokLevel (.op (opOf o)) = some 3 := by
      cases o <;> simp [BinOp.isEq] at ho <;> rfl
    have := DerP.bin hl hd1 hd2
    simpa [tokOf] using this
  | @and a x b y _ _ ih1 ih2 =>
    obtain ⟨n1, hd1, hr1⟩ := ih1 (fun t ht => hwf t (by simp [ht]))
    obtain ⟨n2, hd2, hr2⟩ := ih2 (fun t ht => hwf t (by simp [ht]))
    obtain ⟨z, hz, hzr⟩ := derP_append (o := .and) rfl (.inl rfl) hd1 (.up (by omega) hd2)
    exact ⟨z, by simpa [tokOf, opOf] using hz, .trans (.bin hr1 hr2) hzr⟩
  | @or a x b y _ _ ih1 ih2 =>
    obtain ⟨n1, hd1, hr1⟩ := ih1 (fun t ht => hwf t (by simp [ht]))
    obtain ⟨n2, hd2, hr2⟩ := ih2 (fun t ht => hwf t (by simp [ht]))
    obtain ⟨z, hz, hzr⟩ := derP_append (o := .or) rfl (.inr rfl) hd1 (.up (by omega) hd2)
    exact ⟨z, by simpa [tokOf, opOf] using hz, .trans (.bin hr1 hr2) hzr⟩
  | @cond a c b t d e _ _ _ ih1 ih2 ih3 =>
    obtain ⟨n1, hd1, hr1⟩ := ih1 (fun t ht => hwf t (by simp [ht]))
    obtain ⟨n2, hd2, hr2⟩ := ih2 (fun t ht => hwf t (by simp [ht]))
    obtain ⟨n3, hd3, hr3⟩ := ih3 (fun t ht => hwf t (by simp [ht]))
    refine ⟨_, ?_, .cond hr1 hr2 hr3⟩
    have := DerP.cond hd1 hd2 hd3
    simpa [tokOf] using this

/-! Parser grammar to specification -/

theorem der_append {o : BinOp} {l : Nat} (ho : (o = .and ∧ l = 2) ∨ (o = .or ∧ l = 1))
    {a b : List T} {x y : Expr} (h1 : Der l a x) (h2 : Der l b y) :
    ∃ z, Der l (a ++ .bin o :: b) z ∧ Re (toNode (.bin o x y)) (toNode z) := by
  have mkbin : ∀ {a b x y}, Der l a x → Der (l + 1) b y → Der l (a ++ .bin o :: b) (.bin o x y) := by
    intro a b x y h1 h2
    rcases ho with ⟨rfl, rfl⟩ | ⟨rfl, rfl⟩
    · exact .and h1 h2
    · exact .or h1 h2
  have hoo : opOf o = .and ∨ opOf o = .or := by
    rcases ho with ⟨rfl, _⟩ | ⟨rfl, _⟩ <;> simp [opOf]
  have key : ∀ l' b y, Der l' b y → l' = l →
      ∃ z, Der l (a ++ .bin o :: b) z ∧ Re (toNode (.bin o x y)) (toNode z) := by
    intro l' b y h
    induction h with
    | n => intro e; subst e; rcases ho with ⟨_, h⟩ | ⟨_, h⟩ <;> cases h
    | num => intro e; subst e; rcases ho with ⟨_, h⟩ | ⟨_, h⟩ <;> cases h
    | paren => intro e; subst e; rcases ho with ⟨_, h⟩ | ⟨_, h⟩ <;> cases h
    | up hd _ => intro e; subst e; exact ⟨_, mkbin h1 hd, .refl _⟩
    | rem => intro e; subst e; rcases ho with ⟨_, h⟩ | ⟨_, h⟩ <;> cases h
    | rel => intro e; subst e; rcases ho with ⟨_, h⟩ | ⟨_, h⟩ <;> cases h
    | eq => intro e; subst e; rcases ho with ⟨_, h⟩ | ⟨_, h⟩ <;> cases h
    | @and b1 y1 b2 y2 hd1 hd2 ih _ =>
      intro e; subst e
      rcases ho with ⟨rfl, _⟩ | ⟨_, h⟩
      · obtain ⟨z, hz, hr⟩ := ih rfl
        refine ⟨.bin .and z y2, ?_, ?_⟩
        · have := mkbin hz hd2
          simpa using this
        · exact .trans (.symm (.assoc hoo)) (.bin hr (.refl _))
      · cases h
    | @or b1 y1 b2 y2 hd1 hd2 ih _ =>
      intro e; subst e
      rcases ho with ⟨_, h⟩ | ⟨rfl, _⟩
      · cases h
      · obtain ⟨z, hz, hr⟩ := ih rfl
        refine ⟨.bin .or z y2, ?_, ?_⟩
        · have := mkbin hz hd2
          simpa using this
        · exact .trans (.symm (.assoc hoo)) (.bin hr (.refl _))
    | cond => intro e; subst e; rcases ho with ⟨_, h⟩ | ⟨_, h⟩ <;> cases h
  exact key l b y h2 rfl

theorem derP_to_der {l : Nat} {toks : List Tok} {n : Node} (h : DerP l toks n) :
    ∀ ts : List T, ts.map tokOf = toks → ∃ e, Der l ts e := by
  have inv : ∀ t : T, (tokOf t = .operand → ∃ w, t = .word .n w) ∧
      (∀ lit, tokOf t = .value lit → t = .num lit) ∧ (tokOf t = .lparen → t = .lp) ∧
      (tokOf t = .rparen → t = .rp) ∧ (tokOf t = .question → t = .quest) ∧
      (tokOf t = .colon → t = .colon) ∧ (∀ o, tokOf t = .op o → ∃ o', t = .bin o' ∧ opOf o' = o) := by
    intro t
    cases t with
    | word k w => cases k <;> simp [tokOf]
    | _ => simp [tokOf]
  induction h with
  | operand =>
    intro ts h
    obtain ⟨t, rfl, ht⟩ := List.map_eq_singleton_iff.mp h
    obtain ⟨w, rfl⟩ := (inv t).1 ht
    exact ⟨_, .n w⟩
  | value lit =>
    intro ts h
    obtain ⟨t, rfl, ht⟩ := List.map_eq_singleton_iff.mp h
    obtain rfl := (inv t).2.1 _ ht
    exact ⟨_, .num lit⟩
  | paren _ ih =>
    intro ts h
    obtain ⟨a, b, rfl, ha, hb⟩ := List.map_eq_append_iff.mp h
    obtain ⟨t, rfl, ht⟩ := List.map_eq_singleton_iff.mp hb
    obtain ⟨t1, a', rfl, ht1, ha'⟩ := List.map_eq_cons_iff.mp ha
    obtain rfl := (inv t).2.2.2.1 ht
    obtain rfl := (inv t1).2.2.1 ht1
    obtain ⟨e, he⟩ := ih a' ha'
    exact ⟨e, .paren he⟩
  | up _ _ ih =>
    intro ts h
    obtain ⟨e, he⟩ := ih ts h
    exact ⟨e, .up he⟩
  | @bin l a x b y o ho _ _ ih1 ih2 =>
    intro ts h
    obtain ⟨a, b, rfl, ha, hb⟩ := List.map_eq_append_iff.mp h
    obtain ⟨t, b', rfl, ht, hb'⟩ := List.map_eq_cons_iff.mp hb
    obtain ⟨o', rfl, ho'⟩ := (inv t).2.2.2.2.2.2 o ht
    obtain ⟨e1, h1⟩ := ih1 a ha
    obtain ⟨e2, h2⟩ := ih2 b' hb'
    subst ho'
    cases o' <;> simp [opOf, tokLevel] at ho <;> subst ho <;> simp only [rightLevel] at h2
    case and => obtain ⟨z, hz, _⟩ := der_append (.inl ⟨rfl, rfl⟩) (.up h1) h2; exact ⟨z, hz⟩
    case or => obtain ⟨z, hz, _⟩ := der_append (.inr ⟨rfl, rfl⟩) (.up h1) h2; exact ⟨z, hz⟩
    case rem => exact ⟨_, .rem h1 h2⟩
    case eq => exact ⟨_, .eq trivial h1 h2⟩
    case ne => exact ⟨_, .eq trivial h1 h2⟩
    all_goals exact ⟨_, .rel trivial h1 h2⟩
  | cond _ _ _ ih1 ih2 ih3 =>
    intro ts h
    obtain ⟨a, b, rfl, ha, hb⟩ := List.map_eq_append_iff.mp h
    obtain ⟨t, b', rfl, ht, hb'⟩ := List.map_eq_cons_iff.mp hb
    obtain ⟨b1, b2, rfl, hb1, hb2⟩ := List.map_eq_append_iff.mp hb'
    obtain ⟨t2, d, rfl, ht2, hd⟩ := List.map_eq_cons_iff.mp hb2
    obtain rfl := (inv t).2.2.2.2.1 ht
    obtain rfl := (inv t2).2.2.2.2.2.1 ht2
    obtain ⟨e1, h1⟩ := ih1 _ ha
    obtain ⟨e2, h2⟩ := ih2 _ hb1
    obtain ⟨e3, h3⟩ := ih3 _ hd
    exact ⟨_, .cond h1 h2 h3⟩

/-! Texts -/

/-- The state has read the first token and the text left spells the others. -/
def Presents (st : PState) (ts : List T) : Prop :=
  ∃ t rest, ts = t :: rest ∧ st.tok = tokOf t ∧ Spells rest st.rest

theorem scanNext_of_next {t0 : Tok} {cs s : List Char} {t : T} (h : next cs = (tokOf t, s)) :
    scanNext ⟨t0, cs⟩ = .ok ⟨tokOf t, s⟩ := by
  have := tokOf_facts t
  simp [scanNext, h, this]

theorem presents_lx (a : List T) (u : T) (b : List T) : ∀ st, Presents st (a ++ u :: b) →
    ∃ st', Lx st (a.map tokOf) st' ∧ Presents st' (u :: b) := by
  induction a with
  | nil => intro st h; exact ⟨st, rfl, h⟩
  | cons t a ih =>
    rintro st ⟨t', rest, he, ht, hs⟩
    simp only [List.cons_append, List.cons.injEq] at he
    obtain ⟨rfl, rfl⟩ := he
    obtain ⟨v, vs, hv⟩ : ∃ v vs, a ++ u :: b = v :: vs := by
      cases a with
      | nil => exact ⟨_, _, rfl⟩
      | cons v a => exact ⟨_, _, rfl⟩
    rw [hv] at hs
    obtain ⟨s, h1, h2, _⟩ := next_spells v vs st.rest hs
    have hsn : scanNext st = .ok ⟨tokOf v, s⟩ := by
      obtain ⟨tk, r⟩ := st
      exact scanNext_of_next h1
    obtain ⟨st', hx, hp⟩ := ih ⟨tokOf v, s⟩ ⟨v, vs, hv, rfl, h2⟩
    exact ⟨st', ⟨ht, _, hsn, hx⟩, hp⟩

theorem spells_wf {ts : List T} {s : List Char} (h : Spells ts s) : ∀ t ∈ ts, t.WF := by
  induction h with
  | nil => simp
  | cons w t ts s _ ht _ _ ih =>
    intro x hx
    rcases List.mem_cons.mp hx with rfl | hx
    · exact ht
    · exact ih x hx

theorem expect_spells {t : T} {ts : List T} {cs : List Char} (h : Spells (t :: ts) cs) :
    ∃ s, expect (tokOf t) cs = .ok s ∧ Spells ts s ∧ s.length < cs.length := by
  obtain ⟨s, h1, h2, h3⟩ := next_spells t ts cs h
  exact ⟨s, by simp [expect, h1], h2, h3⟩

/-- The parser accepts every formula and returns its tree up to association. -/
theorem astParse_complete {text : List Char} {k : Nat} {e : Expr} (h : Formula text k e) :
    ∃ n, astParse text = .ok ⟨sat k, n⟩ ∧ Re (toNode e) n := by
  obtain ⟨w1, ds, w2, ts, hsp, hk, hder⟩ := h
  have hwf := spells_wf hsp
  have hds := (hwf (.num ds) (by simp)).2
  obtain ⟨s1, e1, p1, q1⟩ := expect_spells hsp
  obtain ⟨s2, e2, p2, q2⟩ := expect_spells p1
  obtain ⟨s3, e3, p3, q3⟩ := next_spells _ _ _ p2
  obtain ⟨s4, e4, p4, q4⟩ := expect_spells p3
  obtain ⟨s5, e5, p5, q5⟩ := expect_spells p4
  obtain ⟨s6, e6, p6, q6⟩ := expect_spells p5
  obtain ⟨n, hd, hr⟩ := der_to_derP hder (fun t ht => hwf t (by simp [ht]))
  refine ⟨n, ?_, hr⟩
  obtain ⟨v, vs, hv⟩ : ∃ v vs, ts ++ [T.semi] = v :: vs := by
    cases ts with
    | nil => exact ⟨_, _, rfl⟩
    | cons v a => exact ⟨_, _, rfl⟩
  have p6' := p6
  rw [hv] at p6'
  obtain ⟨s7, e7, p7, q7⟩ := next_spells v vs s6 p6'
  have hsn : scanNext ⟨.assign, s6⟩ = .ok ⟨tokOf v, s7⟩ := scanNext_of_next e7
  obtain ⟨st', hx, t', rest, hu, ht', hs'⟩ := presents_lx ts .semi [] ⟨tokOf v, s7⟩ ⟨v, vs, hv, rfl, p7⟩
  simp only [List.cons.injEq] at hu
  obtain ⟨rfl, rfl⟩ := hu
  have hlen := Lx_length hx
  simp only at hlen
  have hparse := parse_complete hd _ _ (8 * text.length + 8) hx
    (by rw [ht']; intro p hp; simp [tokOf, tokLevel] at hp) (by omega)
  simp only [lvl] at hparse
  have heof := next_spells_nil _ hs'
  have hnum : parseDigits 0 ds = sat k := by
    rw [parseDigits_spec ds hds 0, hk]; rfl
  have e1' : expect .nplurals text = .ok s1 := e1
  have e2' : expect .assign s1 = .ok s2 := e2
  have e3' : expectValue s2 = .ok (parseDigits 0 ds, s3) := by simp [expectValue, e3, tokOf]
  have e4' : expect .semicolon s3 = .ok s4 := e4
  have e5' : expect .plural s4 = .ok s5 := e5
  have e6' : expect .assign s5 = .ok s6 := e6
  have hsemi : st'.tok = .semicolon := ht'
  simp [astParse, parseWith, bind, Except.bind, e1', e2', e3', e4', e5', e6', hsn, hparse, hsemi,
    heof, hnum]

theorem lx_spells (toks : List Tok) : ∀ (st st' : PState) (t0 : T), Lx st toks st' →
    Clean st.rest → st.tok = tokOf t0 → t0.WF →
    ∃ ts u rest, ts ++ [u] = t0 :: rest ∧ ts.map tokOf = toks ∧ st'.tok = tokOf u ∧
      Clean st'.rest ∧ ∀ qs, Spells qs st'.rest → Spells (rest ++ qs) st.rest := by
  induction toks with
  | nil =>
    intro st st' t0 h hc ht hw
    cases h
    exact ⟨[], t0, [], rfl, rfl, ht, hc, fun qs h => h⟩
  | cons tk toks ih =>
    rintro st st' t0 ⟨h1, s, h2, h3⟩ hc ht hw
    unfold scanNext at h2
    simp only at h2
    split at h2
    · cases h2
    · rename_i hn
      cases h2
      simp only [not_or] at hn
      rcases next_inv st.rest hc with ⟨h, _⟩ | h | ⟨t1, g1, g2, g3, g4⟩
      · exact absurd h hn.1
      · exact absurd h hn.2
      · obtain ⟨ts, u, rest, r1, r2, r3, r4, r5⟩ := ih _ _ t1 h3 g3 g2 g1
        refine ⟨t0 :: ts, u, t1 :: rest, by rw [List.cons_append, r1], ?_, r3, r4, ?_⟩
        · simp only [List.map_cons, r2, List.cons.injEq, and_true]; rw [← ht]; exact h1
        · intro qs hq
          exact g4 _ (r5 qs hq)

theorem expect_inv {t : Tok} {cs s : List Char} (h : expect t cs = .ok s) (hc : Clean cs)
    (h1 : t ≠ .eof) (h2 : t ≠ .failure) :
    ∃ u : T, u.WF ∧ tokOf u = t ∧ Clean s ∧ ∀ ts, Spells ts s → Spells (u :: ts) cs := by
  unfold expect at h
  simp only at h
  split at h
  · rename_i ht
    cases h
    rcases next_inv cs hc with ⟨g, _⟩ | g | ⟨u, g1, g2, g3, g4⟩
    · exact absurd (ht.symm.trans g) h1
    · exact absurd (ht.symm.trans g) h2
    · exact ⟨u, g1, g2.symm.trans ht, g3, g4⟩
  · cases h

/-- What the parser accepts is a formula. -/
theorem astParse_sound {text : List Char} {f : Forms} (hc : Clean text)
    (h : astParse text = .ok f) : ∃ k e, Formula text k e := by
  simp only [astParse, parseWith, bind] at h
  obtain ⟨s1, e1, h⟩ := bind_ok h
  obtain ⟨s2, e2, h⟩ := bind_ok h
  obtain ⟨⟨np, s3⟩, e3, h⟩ := bind_ok h
  obtain ⟨s4, e4, h⟩ := bind_ok h
  obtain ⟨s5, e5, h⟩ := bind_ok h
  obtain ⟨s6, e6, h⟩ := bind_ok h
  obtain ⟨st, e7, h⟩ := bind_ok h
  obtain ⟨⟨n, st'⟩, e8, h⟩ := bind_ok h
  simp only at h
  split at h
  · cases h
  rename_i hsemi
  split at h
  · cases h
  rename_i heof
  have hsemi' : st'.tok = .semicolon := Classical.not_not.mp hsemi
  have heof' : (next st'.rest).1 = .eof := Classical.not_not.mp heof
  obtain ⟨u1, a1, b1, c1, d1⟩ := expect_inv e1 hc (by simp) (by simp)
  obtain ⟨u2, a2, b2, c2, d2⟩ := expect_inv e2 c1 (by simp) (by simp)
  obtain ⟨lit, hlit⟩ : ∃ lit, (next s2) = (.value lit, s3) := by
    unfold expectValue at e3
    split at e3
    · rename_i lit r hr; cases e3; exact ⟨lit, hr⟩
    · cases e3
  have hv : ∃ u : T, u.WF ∧ tokOf u = .value lit ∧ Clean s3 ∧
      ∀ ts, Spells ts s3 → Spells (u :: ts) s2 := by
    have hi := next_inv s2 c2
    rw [hlit] at hi
    rcases hi with ⟨g, _⟩ | g | ⟨u, g1, g2, g3, g4⟩
    · cases g
    · cases g
    · exact ⟨u, g1, g2.symm, g3, g4⟩
  obtain ⟨u3, a3, b3, c3, d3⟩ := hv
  obtain ⟨u4, a4, b4, c4, d4⟩ := expect_inv e4 c3 (by simp) (by simp)
  obtain ⟨u5, a5, b5, c5, d5⟩ := expect_inv e5 c4 (by simp) (by simp)
  obtain ⟨u6, a6, b6, c6, d6⟩ := expect_inv e6 c5 (by simp) (by simp)
  have hst : ∃ u : T, u.WF ∧ st.tok = tokOf u ∧ Clean st.rest ∧
      ∀ ts, Spells ts st.rest → Spells (u :: ts) s6 := by
    unfold scanNext at e7
    simp only at e7
    split at e7
    · cases e7
    · rename_i hn
      cases e7
      simp only [not_or] at hn
      rcases next_inv s6 c6 with ⟨g, _⟩ | g | ⟨t1, g1, g2, g3, g4⟩
      · exact absurd g hn.1
      · exact absurd g hn.2
      · exact ⟨t1, g1, g2, g3, g4⟩
  obtain ⟨u7, a7, b7, c7, d7⟩ := hst
  obtain ⟨toks, hd, hx⟩ := parse_sound (8 * text.length + 8) 0 (by omega) st st' n e8
  obtain ⟨ts, u, rest, r1, r2, r3, r4, r5⟩ := lx_spells toks st st' u7 hx c7 b7 a7
  obtain ⟨e, he⟩ := derP_to_der hd ts r2
  have hend : Spells [] st'.rest := by
    rcases next_inv _ r4 with ⟨_, g⟩ | g | ⟨t, _, g, _⟩
    · exact g
    · rw [heof'] at g; cases g
    · rw [heof'] at g; exact absurd g.symm (tokOf_facts t).2.1
  have hfin := d7 _ (r5 [] hend)
  rw [List.append_nil, ← r1] at hfin
  have inv : ∀ t : T, (tokOf t = .nplurals → ∃ w, t = .word .nplurals w) ∧
      (tokOf t = .plural → ∃ w, t = .word .plural w) ∧
      (∀ lit, tokOf t = .value lit → t = .num lit) ∧ (tokOf t = .assign → t = .assign) ∧
      (tokOf t = .semicolon → t = .semi) := by
    intro t
    cases t with
    | word k w => cases k <;> simp [tokOf]
    | _ => simp [tokOf]
  obtain ⟨w1, rfl⟩ := (inv u1).1 b1
  obtain rfl := (inv u2).2.2.2.1 b2
  obtain rfl := (inv u3).2.2.1 _ b3
  obtain rfl := (inv u4).2.2.2.2 b4
  obtain ⟨w2, rfl⟩ := (inv u5).2.1 b5
  obtain rfl := (inv u6).2.2.2.1 b6
  obtain rfl := (inv u).2.2.2.2 (r3.symm.trans hsemi')
  exact ⟨_, e, w1, lit, w2, ts, d1 _ (d2 _ (d3 _ (d4 _ (d5 _ (d6 _ hfin))))), rfl, he⟩

theorem astParse_total (cs : List Char) : astParse cs ≠ .error .fuel := by
  have hexp : ∀ t cs, expect t cs ≠ .error .fuel := by
    intro t cs; unfold expect; simp only; split <;> simp
  have hl : ∀ t cs s, expect t cs = .ok s → s.length ≤ cs.length := by
    intro t cs s h
    unfold expect at h; simp only at h
    split at h
    · cases h; exact (next_length cs).1
    · cases h
  simp only [astParse, parseWith, bind]
  refine bind_ne_fuel (hexp _ _) (fun s1 h1 => ?_)
  refine bind_ne_fuel (hexp _ _) (fun s2 h2 => ?_)
  refine bind_ne_fuel (by unfold expectValue; split <;> simp) ?_
  rintro ⟨np, s3⟩ h3
  have l3 : s3.length ≤ s2.length := by
    unfold expectValue at h3
    have := (next_length s2).1
    split at h3
    · rename_i lit r hr; cases h3; rw [hr] at this; exact this
    · cases h3
  refine bind_ne_fuel (hexp _ _) (fun s4 h4 => ?_)
  refine bind_ne_fuel (hexp _ _) (fun s5 h5 => ?_)
  refine bind_ne_fuel (hexp _ _) (fun s6 h6 => ?_)
  refine bind_ne_fuel scanNext_fuel (fun st h7 => ?_)
  have l1 := hl _ _ _ h1
  have l2 := hl _ _ _ h2
  have l4 := hl _ _ _ h4
  have l5 := hl _ _ _ h5
  have l6 := hl _ _ _ h6
  simp only at l4
  have l7 := scanNext_length h7
  simp only at l7
  refine bind_ne_fuel (parse_total (8 * cs.length + 8) 0 (by omega) st (by omega)) ?_
  rintro ⟨n, st'⟩ _
  simp only
  split
  · simp
  · split <;> simp

end Verif.Proofs.PoPlural
