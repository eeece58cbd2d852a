import Verif.Model.PoPlural.Builtin
import Verif.Proofs.PoPlural.Grammar
/-! C values, normal forms and the built-in table. -/
namespace Verif.Proofs.PoPlural
open Verif.Model.PoPlural Verif.Spec.PoPlural

theorem ofBool_truth (b : Bool) : ofBool b = truth b := rfl

theorem ofBool_01 (b : Bool) : ofBool b = 0 ∨ ofBool b = 1 := by cases b <;> simp [ofBool]

theorem bind_some' {α β : Type} {x : Option α} {f : α → Option β} {r : β}
    (h : x.bind f = some r) : ∃ a, x = some a ∧ f a = some r := by
  cases x with
  | none => cases h
  | some a => exact ⟨a, rfl, h⟩

/-- A logical expression has value 0 or 1. -/
theorem logical_01 {e : Expr} (h : Logical e) {m v : Int} (hv : cval e m = some v) :
    v = 0 ∨ v = 1 := by
  cases e with
  | bin o x y =>
    cases o
    case rem => exact h.elim
    case and =>
      simp only [cval, bind] at hv
      obtain ⟨a, _, hv⟩ := bind_some' hv
      split at hv
      · cases hv; left; rfl
      · obtain ⟨b, _, hv⟩ := bind_some' hv
        cases hv; exact ofBool_01 _
    case or =>
      simp only [cval, bind] at hv
      obtain ⟨a, _, hv⟩ := bind_some' hv
      split at hv
      · cases hv; right; rfl
      · obtain ⟨b, _, hv⟩ := bind_some' hv
        cases hv; exact ofBool_01 _
    all_goals
      simp only [cval, bind, pure] at hv
      obtain ⟨a, _, hv⟩ := bind_some' hv
      obtain ⟨b, _, hv⟩ := bind_some' hv
      cases hv; exact ofBool_01 _
  | _ => exact h.elim

theorem eval_cval {e : Expr} (hs : Small e) (hb : Boolean e) {m v : Int}
    (hv : cval e m = some v) : evaluate (toNode e) m = v := by
  induction e generalizing v with
  | n => simpa [cval, toNode, evaluate] using hv
  | num k =>
    simp only [cval, Option.some.injEq] at hv
    have : k < 2 ^ 63 := hs
    simp only [toNode, evaluate, sat, if_pos this]
    exact hv
  | cond c t e ihc iht ihe =>
    obtain ⟨s1, s2, s3⟩ := hs
    obtain ⟨l, b1, b2, b3⟩ := hb
    simp only [cval, bind] at hv
    obtain ⟨a, ha, hv⟩ := bind_some' hv
    have e1 := ihc s1 b1 ha
    simp only [toNode, evaluate, e1]
    rcases logical_01 l ha with rfl | rfl
    · simp at hv; simpa using ihe s3 b3 hv
    · simp at hv; simpa using iht s2 b2 hv
  | bin o x y ihx ihy =>
    obtain ⟨s1, s2⟩ := hs
    cases o
    case and =>
      obtain ⟨l1, l2, b1, b2⟩ := hb
      simp only [cval, bind] at hv
      obtain ⟨a, ha, hv⟩ := bind_some' hv
      have e1 := ihx s1 b1 ha
      simp only [toNode, opOf, evaluate, e1]
      rcases logical_01 l1 ha with rfl | rfl
      · simp at hv; subst hv; simp [truth]
      · simp only [Int.reduceEq, if_false] at hv
        obtain ⟨b, hb, hv⟩ := bind_some' hv
        have e2 := ihy s2 b2 hb
        rcases logical_01 l2 hb with rfl | rfl
        · simp [e2, truth]; simpa [ofBool] using hv
        · simp [e2, truth]; simpa [ofBool] using hv
    case or =>
      obtain ⟨l1, l2, b1, b2⟩ := hb
      simp only [cval, bind] at hv
      obtain ⟨a, ha, hv⟩ := bind_some' hv
      have e1 := ihx s1 b1 ha
      simp only [toNode, opOf, evaluate, e1]
      rcases logical_01 l1 ha with rfl | rfl
      · simp only [ne_eq, not_true_eq_false, if_false] at hv
        obtain ⟨b, hb, hv⟩ := bind_some' hv
        have e2 := ihy s2 b2 hb
        rcases logical_01 l2 hb with rfl | rfl
        · simp [e2, truth]; simpa [ofBool] using hv
        · simp [e2, truth]; simpa [ofBool] using hv
      · simp at hv; simp [truth, hv]
    case rem =>
      obtain ⟨b1, b2⟩ := hb
      simp only [cval, bind] at hv
      obtain ⟨a, ha, hv⟩ := bind_some' hv
      obtain ⟨b, hb, hv⟩ := bind_some' hv
      split at hv
      · cases hv
      · rename_i h0
        simp only [toNode, opOf, evaluate, ihx s1 b1 ha, ihy s2 b2 hb, if_neg h0]
        simpa using hv
    all_goals
      obtain ⟨b1, b2⟩ := hb
      simp only [cval, bind, pure] at hv
      obtain ⟨a, ha, hv⟩ := bind_some' hv
      obtain ⟨b, hb, hv⟩ := bind_some' hv
      simp only [toNode, opOf, evaluate, ihx s1 b1 ha, ihy s2 b2 hb]
      simpa [ofBool_truth] using hv

/-! `Plain` on trees -/

/-- `Plain` for trees, together with the range of numerals. -/
def PlainN : Nat → Node → Prop
  | _, .operand => True
  | _, .value v => 0 ≤ v ∧ v < 2 ^ 63
  | l, .binary x o y =>
    match o with
    | .or => PlainN 1 x ∧ PlainN 1 y
    | .and => l ≤ 2 ∧ PlainN 2 x ∧ PlainN 2 y
    | .eq => l ≤ 3 ∧ PlainN 4 x ∧ PlainN 4 y
    | .ne => l ≤ 3 ∧ PlainN 4 x ∧ PlainN 4 y
    | .rem => l ≤ 5 ∧ PlainN 6 x ∧ PlainN 6 y
    | _ => l ≤ 4 ∧ PlainN 5 x ∧ PlainN 5 y
  | l, .question c t e => l ≤ 0 ∧ PlainN 1 c ∧ PlainN 0 t ∧ PlainN 0 e

theorem sat_range (k : Nat) : 0 ≤ sat k ∧ sat k < 2 ^ 63 := by
  unfold sat; split <;> omega

theorem plain_toNode (e : Expr) : ∀ l, Plain l e → PlainN l (toNode e) := by
  induction e with
  | n => intro l _; trivial
  | num k => intro l _; exact sat_range k
  | bin o x y ihx ihy =>
    intro l h
    cases o
    case or => exact ⟨ihx _ h.1, ihy _ h.2⟩
    all_goals exact ⟨h.1, ihx _ h.2.1, ihy _ h.2.2⟩
  | cond c t e ihc iht ihe =>
    intro l h
    exact ⟨h.1, ihc _ h.2.1, iht _ h.2.2.1, ihe _ h.2.2.2⟩

theorem Re.plain {x y : Node} (h : Re x y) : ∀ l, PlainN l x ↔ PlainN l y := by
  induction h with
  | refl => intro l; rfl
  | symm _ ih => intro l; exact (ih l).symm
  | trans _ _ ih1 ih2 => intro l; exact (ih1 l).trans (ih2 l)
  | @bin x x' o y y' _ _ ih1 ih2 => intro l; cases o <;> simp only [PlainN, ih1, ih2]
  | cond _ _ _ ih1 ih2 ih3 => intro l; simp only [PlainN, ih1, ih2, ih3]
  | assoc ho =>
    intro l
    rcases ho with rfl | rfl
    · simp only [PlainN]
      constructor
      · rintro ⟨h, ⟨h2, a, b⟩, c⟩; exact ⟨h, a, h2, b, c⟩
      · rintro ⟨h, a, h2, b, c⟩; exact ⟨h, ⟨h2, a, b⟩, c⟩
    · simp only [PlainN]
      constructor
      · rintro ⟨⟨a, b⟩, c⟩; exact ⟨a, b, c⟩
      · rintro ⟨a, b, c⟩; exact ⟨⟨a, b⟩, c⟩

/-! Decimal numerals -/

theorem decLE_spec (f n : Nat) (h : n < f) :
    decLE f n ≠ [] ∧ (∀ c ∈ decLE f n, c.isDigit) ∧
      (decLE f n).foldr (fun c a => a * 10 + (c.toNat - '0'.toNat)) 0 = n := by
  have digit : ∀ d : Fin 10, (Char.ofNat (48 + d.val)).isDigit = true ∧
      (Char.ofNat (48 + d.val)).toNat - '0'.toNat = d.val := by decide
  induction f generalizing n with
  | zero => omega
  | succ f ih =>
    obtain ⟨d1, d2⟩ := digit ⟨n % 10, by omega⟩
    unfold decLE
    by_cases h0 : n / 10 = 0
    · rw [if_pos h0]
      refine ⟨by simp, ?_, ?_⟩
      · intro c hc; simp only [List.mem_singleton] at hc; subst hc; exact d1
      · simp only [List.foldr_cons, List.foldr_nil, d2]; omega
    · rw [if_neg h0]
      obtain ⟨_, i2, i3⟩ := ih (n / 10) (by omega)
      refine ⟨by simp, ?_, ?_⟩
      · intro c hc
        rcases List.mem_cons.mp hc with rfl | hc
        · exact d1
        · exact i2 c hc
      · simp only [List.foldr_cons, i3, d2]; omega

theorem natDec_spec (n : Nat) :
    natDec n ≠ [] ∧ (∀ c ∈ natDec n, c.isDigit) ∧ decVal (natDec n) = n := by
  obtain ⟨a, b, c⟩ := decLE_spec (n + 1) n (by omega)
  refine ⟨by simpa [natDec] using a, by simpa [natDec] using b, ?_⟩
  unfold decVal natDec
  rw [List.foldl_reverse]
  exact c

/-! Spelling of normal forms -/

/-- A text that cannot continue a token. -/
def SafeHead (s : List Char) : Prop :=
  ∀ c, s.head? = some c → c = ' ' ∨ c = ')' ∨ c = ';'

theorem safe_noMerge (t : T) (s : List Char) (h : SafeHead s) : NoMerge t s := by
  have aux : ∀ p : Char → Prop, ¬ p ' ' → ¬ p ')' → ¬ p ';' → ∀ c, s.head? = some c → ¬ p c := by
    intro p h1 h2 h3 c hc
    rcases h c hc with rfl | rfl | rfl <;> assumption
  have eqq : s.head? ≠ some '=' := by
    intro hc
    exact aux (· = '=') (by decide) (by decide) (by decide) _ hc rfl
  cases t with
  | word k w => exact aux _ (by decide) (by decide) (by decide)
  | num ds => exact aux _ (by decide) (by decide) (by decide)
  | bin o => cases o <;> first | trivial | exact eqq
  | assign => exact eqq
  | _ => trivial

theorem spells_blank {ts : List T} {s : List Char} (h : Spells ts s) : Spells ts (' ' :: s) := by
  have hb : Blank ' ' := .inl rfl
  cases h with
  | nil w hw =>
    refine .nil _ ?_
    intro c hc
    rcases List.mem_cons.mp hc with rfl | hc
    · exact hb
    · exact hw c hc
  | cons w t ts s hw h1 h2 h3 =>
    refine .cons (' ' :: w) t ts s ?_ h1 h2 h3
    intro c hc
    rcases List.mem_cons.mp hc with rfl | hc
    · exact hb
    · exact hw c hc

theorem spells_tok {t : T} {ts : List T} {s : List Char} (hw : t.WF) (hm : NoMerge t s)
    (h : Spells ts s) : Spells (t :: ts) (t.text ++ s) := by
  have := Spells.cons [] t ts s (by simp) hw hm h
  simpa using this

theorem safe_blank (s : List Char) : SafeHead (' ' :: s) := by
  intro c hc; simp at hc; left; exact hc.symm

/-- `text` spells `ts` in front of anything that cannot continue it. -/
def SpellsIn (ts : List T) (text : List Char) : Prop :=
  ∀ qs s, SafeHead s → Spells qs s → Spells (ts ++ qs) (text ++ s)

theorem SpellsIn.paren {ts : List T} {x : List Char} (h : SpellsIn ts x) :
    SpellsIn (.lp :: ts ++ [.rp]) (paren x) := by
  intro qs s hs hq
  have h1 : Spells (.rp :: qs) (')' :: s) := spells_tok (t := .rp) trivial trivial hq
  have h2 := h (.rp :: qs) (')' :: s) (by intro c hc; simp at hc; right; left; exact hc.symm) h1
  have h3 : Spells (.lp :: (ts ++ .rp :: qs)) ('(' :: (x ++ ')' :: s)) :=
    spells_tok (t := .lp) trivial trivial h2
  simpa [Model.PoPlural.paren] using h3

theorem SpellsIn.op {a b : List T} {x y : List Char} (o : BinOp) (h1 : SpellsIn a x)
    (h2 : SpellsIn b y) : SpellsIn (a ++ .bin o :: b) (x ++ opText (opOf o) ++ y) := by
  intro qs s hs hq
  have g1 := spells_blank (h2 qs s hs hq)
  have g2 : Spells (.bin o :: (b ++ qs)) (o.text ++ (' ' :: (y ++ s))) :=
    spells_tok (t := .bin o) trivial (safe_noMerge _ _ (safe_blank _)) g1
  have g3 := h1 _ _ (safe_blank _) (spells_blank g2)
  have e : opText (opOf o) = ' ' :: o.text ++ [' '] := by cases o <;> rfl
  rw [e]
  simpa using g3

theorem der_le {l l' : Nat} {ts : List T} {e : Expr} (h : l ≤ l') (hd : Der l' ts e) : Der l ts e := by
  induction h with
  | refl => exact hd
  | step _ ih => exact ih (.up hd)

theorem wrap_spells {ts : List T} {e : Expr} {x : List Char} (hd : Der 0 ts e) (hx : SpellsIn ts x) :
    ∃ ts', Der 0 ts' e ∧ SpellsIn ts' (wrapLong x) := by
  unfold wrapLong
  split
  · exact ⟨_, der_le (by omega) (.paren hd), hx.paren⟩
  · exact ⟨ts, hd, hx⟩

theorem wrapCond_spells {ts : List T} {e : Expr} {x : List Char} (hd : Der 1 ts e)
    (hx : SpellsIn ts x) : ∃ ts', Der 1 ts' e ∧ SpellsIn ts' (wrapCond x) := by
  unfold wrapCond
  split
  · exact ⟨_, der_le (by omega) (.paren (.up hd)), hx.paren⟩
  · exact ⟨ts, hd, hx⟩

theorem compile_spells (n : Node) : ∀ l, l ≤ 6 → PlainN l n →
    ∃ ts e, Der l ts e ∧ Re (toNode e) n ∧ SpellsIn ts (compileNode n) := by
  induction n with
  | operand =>
    intro l hl _
    refine ⟨_, _, der_le hl (.n ['n']), .refl _, ?_⟩
    intro qs s hs hq
    exact spells_tok (t := .word .n ['n']) (by rfl) (safe_noMerge _ _ hs) hq
  | value v =>
    intro l hl hp
    obtain ⟨h0, h1⟩ := hp
    obtain ⟨a, b, c⟩ := natDec_spec v.natAbs
    refine ⟨_, _, der_le hl (.num (natDec v.natAbs)), ?_, ?_⟩
    · rw [c]
      have : sat v.natAbs = v := by unfold sat; split <;> omega
      simp only [toNode, this]; exact .refl _
    · intro qs s hs hq
      have : compileNode (.value v) = natDec v.natAbs := by
        simp only [compileNode, intDec]; rw [if_neg (by omega)]
      rw [this]
      exact spells_tok (t := .num (natDec v.natAbs)) ⟨a, b⟩ (safe_noMerge _ _ hs) hq
  | question c t f ihc iht ihf =>
    intro l hl hp
    obtain ⟨h0, p1, p2, p3⟩ := hp
    obtain rfl : l = 0 := by omega
    obtain ⟨a1, e1, d1, r1, x1⟩ := ihc 1 (by omega) p1
    obtain ⟨a2, e2, d2, r2, x2⟩ := iht 0 (by omega) p2
    obtain ⟨a3, e3, d3, r3, x3⟩ := ihf 0 (by omega) p3
    obtain ⟨b1, g1, y1⟩ := wrapCond_spells d1 x1
    obtain ⟨b2, g2, y2⟩ := wrap_spells d2 x2
    obtain ⟨b3, g3, y3⟩ := wrap_spells d3 x3
    refine ⟨_, _, .cond g1 g2 g3, .cond r1 r2 r3, ?_⟩
    intro qs s hs hq
    have z1 := spells_blank (y3 qs s hs hq)
    have z2 : Spells (.colon :: (b3 ++ qs)) (':' :: ' ' :: _) :=
      spells_tok (t := .colon) trivial trivial z1
    have z3 := spells_blank (y2 _ _ (safe_blank _) (spells_blank z2))
    have z4 : Spells (.quest :: _) ('?' :: ' ' :: _) := spells_tok (t := .quest) trivial trivial z3
    have z5 := y1 _ _ (safe_blank _) (spells_blank z4)
    have : compileNode (.question c t f) = wrapCond (compileNode c) ++ (' ' :: '?' :: ' ' ::
        (wrapLong (compileNode t) ++ (' ' :: ':' :: ' ' :: wrapLong (compileNode f)))) := by
      simp [compileNode]
    rw [this]
    simpa using z5
  | binary x o y ihx ihy =>
    intro l hl hp
    have nonor : ∀ l', l ≤ l' → l' ≤ 5 → ∀ (o' : BinOp), opOf o' = o → o ≠ .or →
        PlainN (l' + 1) x → PlainN (l' + 1) y →
        (∀ {a b e1 e2}, Der (l' + 1) a e1 → Der (l' + 1) b e2 → Der l' (a ++ .bin o' :: b) (.bin o' e1 e2)) →
        ∃ ts e, Der l ts e ∧ Re (toNode e) (.binary x o y) ∧ SpellsIn ts (compileNode (.binary x o y)) := by
      intro l' h1 h1' o' ho hne px py hd
      obtain ⟨a1, e1, d1, r1, x1⟩ := ihx _ (by omega) px
      obtain ⟨a2, e2, d2, r2, x2⟩ := ihy _ (by omega) py
      refine ⟨_, _, der_le h1 (hd d1 d2), ?_, ?_⟩
      · subst ho; exact .bin r1 r2
      · have : compileNode (.binary x o y) = compileNode x ++ opText o ++ compileNode y := by
          simp [compileNode, hne]
        rw [this]
        subst ho
        exact x1.op o' x2
    cases o with
    | rem => exact nonor 5 hp.1 (by omega) .rem rfl (by simp) hp.2.1 hp.2.2 .rem
    | gt => exact nonor 4 hp.1 (by omega) .gt rfl (by simp) hp.2.1 hp.2.2 (.rel trivial)
    | ge => exact nonor 4 hp.1 (by omega) .ge rfl (by simp) hp.2.1 hp.2.2 (.rel trivial)
    | lt => exact nonor 4 hp.1 (by omega) .lt rfl (by simp) hp.2.1 hp.2.2 (.rel trivial)
    | le => exact nonor 4 hp.1 (by omega) .le rfl (by simp) hp.2.1 hp.2.2 (.rel trivial)
    | eq => exact nonor 3 hp.1 (by omega) .eq rfl (by simp) hp.2.1 hp.2.2 (.eq trivial)
    | ne => exact nonor 3 hp.1 (by omega) .ne rfl (by simp) hp.2.1 hp.2.2 (.eq trivial)
    | and =>
      obtain ⟨h1, px, py⟩ := hp
      obtain ⟨a1, e1, d1, r1, x1⟩ := ihx 2 (by omega) px
      obtain ⟨a2, e2, d2, r2, x2⟩ := ihy 2 (by omega) py
      obtain ⟨z, hz, hr⟩ := der_append (.inl ⟨rfl, rfl⟩) d1 d2
      exact ⟨_, z, der_le h1 hz, .trans (.symm hr) (.bin r1 r2), x1.op .and x2⟩
    | or =>
      obtain ⟨px, py⟩ := hp
      obtain ⟨a1, e1, d1, r1, x1⟩ := ihx 1 (by omega) px
      obtain ⟨a2, e2, d2, r2, x2⟩ := ihy 1 (by omega) py
      obtain ⟨z, hz, hr⟩ := der_append (.inr ⟨rfl, rfl⟩) d1 d2
      exact ⟨_, z, der_le hl (.paren (.up hz)), .trans (.symm hr) (.bin r1 r2), (x1.op .or x2).paren⟩

/-- The text of an expression never starts with `=`. -/
theorem compile_head (n : Node) : ∀ l, PlainN l n → ∃ c1 r1, compileNode n = c1 :: r1 ∧ c1 ≠ '=' := by
  induction n with
  | operand => intro l _; exact ⟨_, _, rfl, by decide⟩
  | value v =>
    intro l hp
    obtain ⟨a, b, _⟩ := natDec_spec v.natAbs
    have : compileNode (.value v) = natDec v.natAbs := by
      simp only [compileNode, intDec]; rw [if_neg (by have := hp.1; omega)]
    rw [this]
    cases hn : natDec v.natAbs with
    | nil => exact absurd hn a
    | cons c r =>
      refine ⟨c, r, rfl, ?_⟩
      rintro rfl
      have := b '=' (by simp [hn])
      exact absurd this (by decide)
  | question c t e ihc _ _ =>
    intro l hp
    obtain ⟨c1, r1, h1, h2⟩ := ihc _ hp.2.1
    simp only [compileNode, wrapCond, h1]
    split
    · exact ⟨_, _, rfl, by decide⟩
    · exact ⟨_, _, rfl, h2⟩
  | binary x o y ihx _ =>
    intro l hp
    have : ∃ l', PlainN l' x := by
      cases o
      case or => exact ⟨_, hp.1⟩
      all_goals exact ⟨_, hp.2.1⟩
    obtain ⟨l', hx⟩ := this
    obtain ⟨c1, r1, h1, h2⟩ := ihx _ hx
    simp only [compileNode, h1]
    split
    · exact ⟨_, _, rfl, by decide⟩
    · exact ⟨_, _, rfl, h2⟩

/-- The normal form of a plain formula is a formula of the same meaning. -/
theorem compile_formula (f : Forms) (h0 : 0 ≤ f.nPlurals) (hp : PlainN 0 f.root) :
    ∃ e, Formula (compileToString f) f.nPlurals.natAbs e ∧ Re (toNode e) f.root := by
  obtain ⟨ts, e, hd, hr, hx⟩ := compile_spells f.root 0 (by omega) hp
  refine ⟨e, ?_, hr⟩
  obtain ⟨a, b, c⟩ := natDec_spec f.nPlurals.natAbs
  refine ⟨"nplurals".toList, natDec f.nPlurals.natAbs, "plural".toList, ts, ?_, c.symm, hd⟩
  have hint : intDec f.nPlurals = natDec f.nPlurals.natAbs := by
    simp only [intDec]; rw [if_neg (by omega)]
  have semi : Spells [.semi] [';'] := spells_tok (t := .semi) (s := []) trivial trivial (.nil _ (by simp))
  have s1 := hx [.semi] [';'] (by intro c hc; simp at hc; right; right; exact hc.symm) semi
  obtain ⟨c1, r1, e1, hc1⟩ := compile_head f.root 0 hp
  have s2 : Spells (.assign :: (ts ++ [.semi])) ('=' :: (compileNode f.root ++ [';'])) :=
    spells_tok (t := .assign) trivial (by rw [e1]; simpa [NoMerge] using hc1) s1
  have nm : ∀ (t : T) (k w r), t = .word k w → NoMerge t ('=' :: r) := by
    rintro t k w r rfl c hc
    simp at hc; subst hc; decide
  have s3 : Spells (.word .plural "plural".toList :: _) ("plural".toList ++ ('=' :: _)) :=
    spells_tok (t := .word .plural "plural".toList) (by show List.map _ _ = _; decide) (nm _ _ _ _ rfl) s2
  have s4 : Spells (.semi :: _) (';' :: _) := spells_tok (t := .semi) trivial trivial (spells_blank s3)
  have s5 : Spells (.num (natDec f.nPlurals.natAbs) :: _) (natDec f.nPlurals.natAbs ++ (';' :: _)) :=
    spells_tok (t := .num _) ⟨a, b⟩ (safe_noMerge _ _ (by
      intro c hc; simp at hc; right; right; exact hc.symm)) s4
  have s6 : Spells (.assign :: _) ('=' :: _) := spells_tok (t := .assign) trivial (by
    cases hn : natDec f.nPlurals.natAbs with
    | nil => exact absurd hn a
    | cons c r =>
      show (c :: r ++ _).head? ≠ some '='
      simp only [List.cons_append, List.head?_cons, ne_eq, Option.some.injEq]
      rintro rfl
      have := b '=' (by simp [hn])
      exact absurd this (by decide)) s5
  have s7 : Spells (.word .nplurals "nplurals".toList :: _) ("nplurals".toList ++ ('=' :: _)) :=
    spells_tok (t := .word .nplurals "nplurals".toList) (by show List.map _ _ = _; decide) (nm _ _ _ _ rfl) s6
  have hl1 : "nplurals=".toList = "nplurals".toList ++ ['='] := by decide
  have hl2 : "; plural=".toList = ';' :: ' ' :: ("plural".toList ++ ['=']) := by decide
  have hl3 : ";".toList = [';'] := by decide
  have hfin : compileToString f = "nplurals".toList ++ ('=' :: (natDec f.nPlurals.natAbs ++
      (';' :: ' ' :: ("plural".toList ++ ('=' :: (compileNode f.root ++ [';'])))))) := by
    unfold compileToString
    rw [hint, hl1, hl2, hl3]
    simp only [List.append_assoc, List.cons_append, List.nil_append]
  rw [hfin]
  exact s7

end Verif.Proofs.PoPlural
