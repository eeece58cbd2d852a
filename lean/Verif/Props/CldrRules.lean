import Verif.Proofs.Cldr.Accepted
import Verif.Go.Chars
import Verif.Model.Must
/-!
# C121: the CLDR rule parser accepts exactly the rules of the specification

`Spec/CldrRules.lean` says what a rule is.  `parse` has a budget for enumerating sample ranges; a text is accepted if some
budget suffices, and then every larger one does (`C121_meaning`).
-/
namespace Verif.Props.CldrRules
open Verif.Go Verif.Model.Cldr Verif.Spec.Cldr Verif.Proofs.Cldr Verif.Proofs.Cldr.Rules

/-- `Parse` returns a rule for the text. -/
def Accepted (text : List Char) : Prop := ∃ budget rule, parse budget text = .ok rule

/-- Exactly the rules are accepted, with the tree of their condition and their samples. -/
theorem C121_accepted_iff {text : List Char} {rule : Rule} :
    (∃ budget, parse budget text = .ok rule) ↔ ∃ c, IsRule text c rule.samples ∧ rule.root = c.map condNode :=
  parse_iff

example : IsRule c!"n % 10 != 2, 4..6 and v = 0 or i = 1 @integer 1~3, 7, … @decimal 1.5c2"
    (some [[⟨['n'], some 10, true, [(2, none), (4, some 6)]⟩, ⟨['v'], none, false, [(0, none)]⟩], [⟨['i'], none, false, [(1, none)]⟩]])
    [['1'], ['2'], ['3'], ['7'], ['1', '.', '5', 'c', '2']] := by
  have it : ∀ {w : List Char} {n : Nat}, w ≠ [] → AllDigits w → min (Spec.Cldr.digitsVal w) (2 ^ 63 - 1) = n → IsItem w (n, none) :=
    fun h0 h e => e ▸ .value h0 h
  have kw : ∀ {o : List Char}, o ∈ [['n'], ['i'], ['v'], ['w'], ['f'], ['t'], ['c'], ['e']] → Keyword o (.operand o) := by
    intro o ho
    exact .operand ho ((spelled_lower (by revert o; decide)).mpr (by revert o; decide))
  have hs : Splits c!"n % 10 != 2, 4..6 and v = 0 or i = 1 @integer 1~3, 7, … @decimal 1.5c2"
      [c!"n", c!"%", c!"10", c!"!=", c!"2", c!"4..6", c!"and", c!"v", c!"=", c!"0", c!"or", c!"i", c!"=", c!"1", c!"@integer",
        c!"1~3", c!"7", c!"…", c!"@decimal", c!"1.5c2"] := splits_iff.mpr (by decide +kernel)
  have sp : ∀ {w k : List Char}, (∀ c ∈ k, Lowc c) → w.map lower = k → Spelled w k := fun h e => (spelled_lower h).mpr e
  have nk : ∀ {w : List Char}, lexOf w (w.map lower) = none → ∀ l, ¬ Keyword w l := by
    intro w h l hk
    rw [keyword_lexOf hk] at h; cases h
  have ne : ∀ {w : List Char}, (w ≠ ['…'] ∧ w ≠ ['.', '.', '.'] ∧ w ≠ ['.']) → ¬ Ellipsis w := by
    intro w h he
    rcases he with e | e | e
    · exact h.1 e
    · exact h.2.1 e
    · exact h.2.2 e
  have nj : ∀ {v : List Char} {r : List (List Char)}, (v ≠ ['.', '.'] ∧ v ≠ ['~']) → ∀ j ws', v :: r = j :: ws' → ¬ Joins j := by
    intro v r h j ws' e hj
    cases e
    exact hj.elim h.1 h.2
  have hr : Reads [c!"n", c!"%", c!"10", c!"!=", c!"2", c!"4..6", c!"and", c!"v", c!"=", c!"0", c!"or", c!"i", c!"=", c!"1", c!"@integer",
        c!"1~3", c!"7", c!"…", c!"@decimal", c!"1.5c2"]
      ((([.operand ['n'], .mod, .number c!"10"] ++ sign true :: [.number c!"2", .number c!"4..6"]) ++ .and ::
        ([.operand ['v']] ++ sign false :: [.number c!"0"]) ) ++ .or :: ([.operand ['i']] ++ sign false :: [.number c!"1"]) ++ .samples ::
        [.number c!"1~3", .number c!"7", .samples, .number c!"1.5c2"]) :=
    .keyword (kw (by decide)) <| .keyword .percent <| .number (nk (by decide)) (ne (by decide)) (nj (by decide)) <|
    .keyword .ne <| .number (nk (by decide)) (ne (by decide)) (nj (by decide)) <|
    .number (nk (by decide)) (ne (by decide)) (nj (by decide)) <| .keyword (.and (sp (by decide) (by decide))) <|
    .keyword (kw (by decide)) <| .keyword .eq <| .number (nk (by decide)) (ne (by decide)) (nj (by decide)) <|
    .keyword (.or (sp (by decide) (by decide))) <| .keyword (kw (by decide)) <| .keyword .eq <|
    .number (nk (by decide)) (ne (by decide)) (nj (by decide)) <| .keyword (.integer (sp (by decide) (by decide))) <|
    .number (nk (by decide)) (ne (by decide)) (nj (by decide)) <| .number (nk (by decide)) (ne (by decide)) (nj (by decide)) <|
    .skip (Or.inl rfl) <| .keyword (.decimal (sp (by decide) (by decide))) <|
    .number (nk (by decide)) (ne (by decide)) (by intro j ws' e; cases e) .done
  refine .condSamples hs hr ?_ ?_
  · refine .more (.more (.mk true (.mod (it (by decide) (by decide) (by decide))) (.more (it (by decide) (by decide) (by decide)) (.one ?_)))
      (.one (.mk false .plain (.one (it (by decide) (by decide) (by decide)))))) (.one (.one (.mk false .plain
        (.one (it (by decide) (by decide) (by decide))))))
    exact IsItem.range (a := ['4']) (b := ['6']) (by decide) (by decide) (by decide) (by decide) (by decide) (by decide) (by decide)
  · refine Samples.more (xs := [['1'], ['2'], ['3']]) ?_ (Samples.more (xs := [['7']]) (.one (.digits (by decide) (by decide)))
      (.more .heading (Samples.more (xs := [c!"1.5c2"]) (.one ?_) .done)))
    · exact Stands.range (a := ⟨false, 0, 1⟩) (b := ⟨false, 0, 3⟩) (fun _ => rfl) (fun _ => rfl) ⟨rfl, rfl, by decide⟩
    · exact IsSample.pointExp (i := ['1']) (f := ['5']) (e := ['2']) ⟨by decide, by decide, by decide⟩ (by decide) (by decide)

/-- A text has one meaning: whatever reading as a rule it has, every sufficient budget gives its tree and its samples. -/
theorem C121_meaning {text : List Char} {c : Option (List (List Relation))} {xs : List (List Char)} (h : IsRule text c xs) :
    ∃ b, ∀ budget, b ≤ budget → parse budget text = .ok ⟨c.map condNode, xs⟩ := by
  obtain ⟨b, hb⟩ := parse_complete h
  exact ⟨b, fun budget hle => parse_more hle hb⟩

theorem C121_one_meaning {text : List Char} {c c' : Option (List (List Relation))} {xs xs' : List (List Char)}
    (h : IsRule text c xs) (h' : IsRule text c' xs') : c.map condNode = c'.map condNode ∧ xs = xs' := by
  obtain ⟨b, hb⟩ := C121_meaning h
  obtain ⟨b', hb'⟩ := C121_meaning h'
  have h1 := hb (max b b') (by omega)
  rw [hb' (max b b') (by omega)] at h1
  have h2 := Except.ok.inj h1
  exact ⟨(congrArg Rule.root h2).symm, (congrArg Rule.samples h2).symm⟩

/-- Every other text is rejected: the parser reports an error or enumerates a sample range without end. -/
theorem C121_rejected_iff {text : List Char} : ¬ Accepted text ↔ ∀ c xs, ¬ IsRule text c xs := by
  constructor
  · intro h c xs hr
    obtain ⟨b, hb⟩ := parse_complete hr
    exact h ⟨b, _, hb⟩
  · rintro h ⟨b, rule, hp⟩
    obtain ⟨c, hc, _⟩ := parse_sound hp
    exact h c _ hc

/-- The first word (apart from dots) has to be an operand or a heading of samples. -/
theorem C121_first_word {text w : List Char} {ws : List (List Char)} (h : Splits text (w :: ws)) (he : ¬ Ellipsis w)
    (ho : ¬ Keyword w (.operand w)) (hs : ¬ Keyword w .samples) : ¬ Accepted text := by
  rw [C121_rejected_iff]
  intro c xs hr
  obtain ⟨ws', ls, h1, h2, h3⟩ := rule_head hr
  rw [splits_unique h1 h] at h2
  cases h2 with
  | skip h _ => exact he h
  | @keyword _ l _ _ hk _ =>
    rcases h3 with ⟨r, h3⟩ | ⟨o, l', r, h3, _⟩
    · cases h3; exact hs hk
    · cases h3
      cases hk with
      | operand h1 h2 => exact ho (.operand h1 h2)
  | joined => rcases h3 with ⟨r, h3⟩ | ⟨o, l', r, h3, _⟩ <;> cases h3
  | number => rcases h3 with ⟨r, h3⟩ | ⟨o, l', r, h3, _⟩ <;> cases h3

/-- After the first operand comes `%`, `mod`, `=` or `!=`. -/
theorem C121_second_word {text o w : List Char} {ws : List (List Char)} (h : Splits text (o :: w :: ws))
    (ho : Keyword o (.operand o)) (he : ¬ Ellipsis w) (hm : ¬ Keyword w .mod) (h1 : ¬ Keyword w .eq) (h2 : ¬ Keyword w .ne) :
    ¬ Accepted text := by
  rw [C121_rejected_iff]
  intro c xs hr
  obtain ⟨ws', ls, h3, h4, h5⟩ := rule_head hr
  rw [splits_unique h3 h] at h4
  cases h4 with
  | skip h _ => exact (ellipsis_not_keyword h ho).elim
  | joined hn => exact hn _ ho
  | number hn => exact hn _ ho
  | @keyword _ l _ ls hk hrest =>
    cases keyword_unique ho hk
    rcases h5 with ⟨r, h5⟩ | ⟨o', l', r, h5, hl⟩
    · cases h5
    · cases h5
      cases hrest with
      | skip h _ => exact he h
      | joined => rcases hl with h | h | h <;> cases h
      | number => rcases hl with h | h | h <;> cases h
      | keyword hk _ =>
        rcases hl with h | h | h
        · exact hm (h ▸ hk)
        · exact h1 (h ▸ hk)
        · exact h2 (h ▸ hk)

/-- The relations of the grammar in parser.go:16-19 that are spelled with words, and a relation without spaces, which
parser.go:33 allows. -/
inductive Documented : List Char → Prop
  | is {o v : List Char} : o ∈ [['n'], ['i'], ['f'], ['t'], ['v'], ['w'], ['c'], ['e']] → v ≠ [] → AllDigits v → Documented (o ++ c!" is " ++ v)
  | inList {o v : List Char} : o ∈ [['n'], ['i'], ['f'], ['t'], ['v'], ['w'], ['c'], ['e']] → v ≠ [] → AllDigits v → Documented (o ++ c!" in " ++ v)
  | within {o v : List Char} : o ∈ [['n'], ['i'], ['f'], ['t'], ['v'], ['w'], ['c'], ['e']] → v ≠ [] → AllDigits v →
      Documented (o ++ c!" within " ++ v)
  | notIn {o v : List Char} : o ∈ [['n'], ['i'], ['f'], ['t'], ['v'], ['w'], ['c'], ['e']] → v ≠ [] → AllDigits v →
      Documented (o ++ c!" not in " ++ v)
  | tight {o v : List Char} : o ∈ [['n'], ['i'], ['f'], ['t'], ['v'], ['w'], ['c'], ['e']] → v ≠ [] → AllDigits v → Documented (o ++ '=' :: v)

theorem digits_gap {v : List Char} (h : AllDigits v) : ∀ c ∈ v, ¬ Gap c := by
  intro c hc hg
  have := digit_sepc (h c hc)
  rw [gap_sepc.mpr hg] at this; cases this

theorem no_keyword {w : List Char} (h : lexOf w (w.map lower) = none) (l : Lexeme) : ¬ Keyword w l := by
  intro hk; rw [keyword_lexOf hk] at h; cases h

/-- None of these documented forms is accepted. -/
theorem C121_documented_rejected {text : List Char} (h : Documented text) : ¬ Accepted text := by
  have opd : ∀ {o : List Char}, o ∈ [['n'], ['i'], ['f'], ['t'], ['v'], ['w'], ['c'], ['e']] →
      Keyword o (.operand o) ∧ o ≠ [] ∧ ∀ c ∈ o, ¬ Gap c := by
    intro o ho
    refine ⟨operand_iff.mp (by revert o; decide), by revert o; decide, ?_⟩
    intro c hc hg
    have : sepc c = false := by clear hg; revert c; revert o; decide
    rw [gap_sepc.mpr hg] at this; cases this
  have nogap : ∀ {k : List Char}, (∀ c ∈ k, sepc c = false) → ∀ c ∈ k, ¬ Gap c := by
    intro k hk c hc hg
    have := hk c hc
    rw [gap_sepc.mpr hg] at this; cases this
  have key : ∀ {o k rest : List Char}, o ∈ [['n'], ['i'], ['f'], ['t'], ['v'], ['w'], ['c'], ['e']] → k ≠ [] →
      (∀ c ∈ k, sepc c = false) → lexOf k (k.map lower) = none → ¬ Ellipsis k → ¬ Accepted (o ++ ' ' :: (k ++ ' ' :: rest)) := by
    intro o k rest ho hk0 hk hn he
    obtain ⟨h1, h2, h3⟩ := opd ho
    have hg : Gap ' ' := Or.inl (by decide)
    refine C121_second_word (w := k) (.word h2 h3 (Or.inr ⟨_, _, rfl, hg⟩) (.gap hg (.word hk0 (nogap hk) (Or.inr ⟨_, _, rfl, hg⟩)
      (.gap hg (splits_iff.mpr rfl))))) h1 he (no_keyword hn _) (no_keyword hn _) (no_keyword hn _)
  cases h with
  | @is o v ho h0 h => simpa using key (k := c!"is") (rest := v) ho (by decide) (by decide) (by decide) (by rintro (h | h | h) <;> cases h)
  | @inList o v ho h0 h => simpa using key (k := c!"in") (rest := v) ho (by decide) (by decide) (by decide) (by rintro (h | h | h) <;> cases h)
  | @within o v ho h0 h => simpa using key (k := c!"within") (rest := v) ho (by decide) (by decide) (by decide) (by rintro (h | h | h) <;> cases h)
  | @notIn o v ho h0 h =>
    simpa using key (k := c!"not") (rest := c!"in " ++ v) ho (by decide) (by decide) (by decide) (by rintro (h | h | h) <;> cases h)
  | @tight o v ho h0 h =>
    obtain ⟨h1, h2, h3⟩ := opd ho
    have hs : Splits (o ++ '=' :: v) [o ++ '=' :: v] := by
      have := Splits.word (w := o ++ '=' :: v) (s := []) (by simp) (by
        intro c hc
        rcases List.mem_append.mp hc with hc | hc
        · exact h3 c hc
        · rcases List.mem_cons.mp hc with rfl | hc
          · exact nogap (k := ['=']) (by decide) _ (by simp)
          · exact digits_gap h c hc) (Or.inl rfl) .done
      rwa [List.append_nil] at this
    have hl : ∀ {c : Char} {v : List Char}, lexOf (c :: '=' :: v) ((c :: '=' :: v).map lower) = none ∨ c = '!' := by
      intro c v
      have he : lower '=' = '=' := by decide
      by_cases hc : lower c = '!'
      · exact Or.inr ((lower_sign (by decide)).mp hc)
      · left
        simp [lexOf, he, hc]
    refine C121_first_word hs ?_ ?_ ?_
    · rintro (e | e | e)
      all_goals
        simp only [List.mem_cons, List.not_mem_nil, or_false] at ho
        rcases ho with rfl | rfl | rfl | rfl | rfl | rfl | rfl | rfl <;> cases e
    all_goals
      simp only [List.mem_cons, List.not_mem_nil, or_false] at ho
      rcases ho with rfl | rfl | rfl | rfl | rfl | rfl | rfl | rfl <;>
      exact no_keyword (hl.resolve_right (by decide)) _

/-- So the parser does not implement the grammar in its comment. -/
theorem C121_documented_negation : ¬ ∀ text, Documented text → Accepted text := fun h =>
  C121_documented_rejected (text := c!"n is 1") (.is (o := ['n']) (v := ['1']) (by decide) (by decide) (by decide))
    (h _ (.is (o := ['n']) (v := ['1']) (by decide) (by decide) (by decide)))

/-- A range may not end in zero, although `0..0` is a range of the grammar; a sample may have no sign. -/
theorem C121_zero_range_negation : ¬ Accepted c!"n = 0..0" ∧ ¬ Accepted c!"@integer -1" := by
  constructor
  · rintro ⟨b, rule, h⟩
    have : parse b c!"n = 0..0" = .error .syntax := by revert b; intro b _; rfl
    rw [this] at h; cases h
  · rintro ⟨b, rule, h⟩
    have : parse b c!"@integer -1" = .error .syntax := by revert b; intro b _; rfl
    rw [this] at h; cases h

/-- Beyond the grammar: numbers need no comma between them, the operand may be a capital letter, the samples may be empty
and in any order. -/
example : parse 3 c!"N = 1 2 @decimal @integer 1 @decimal 007" =
    .ok ⟨some (.rel (.operand ['N']) false [.value 1, .value 2]), [['1'], ['0', '0', '7']]⟩ := by decide +kernel

example : Accepted c!"@integer 1" := ⟨1, _, (by decide +kernel : parse 1 c!"@integer 1" = .ok ⟨none, [['1']]⟩)⟩

/-! ## Several rules and the functions that panic -/

theorem parseAll_iff (raw : List (Cldr.Category × List Char)) :
    (∃ b, ∀ budget, b ≤ budget → ∃ rules, parseAll budget raw = .ok rules) ↔ ∀ p ∈ raw, ∃ c xs, IsRule p.2 c xs := by
  induction raw with
  | nil => simp [parseAll]
  | cons p raw ih =>
    obtain ⟨cat, text⟩ := p
    constructor
    · rintro ⟨b, h⟩
      have hall : ∀ budget, b ≤ budget → (∃ rule, parse budget text = .ok rule) ∧ ∃ rules, parseAll budget raw = .ok rules := by
        intro budget hb
        obtain ⟨rules, hr⟩ := h budget hb
        simp only [parseAll, bind, Except.bind] at hr
        cases hp : parse budget text with
        | error e => rw [hp] at hr; cases hr
        | ok rule =>
          rw [hp] at hr
          cases ha : parseAll budget raw with
          | error e => simp only [ha] at hr; cases hr
          | ok rs => exact ⟨⟨rule, rfl⟩, rs, rfl⟩
      intro q hq
      rcases List.mem_cons.mp hq with rfl | hq
      · obtain ⟨⟨rule, hr⟩, _⟩ := hall b (Nat.le_refl _)
        obtain ⟨c, hc, _⟩ := parse_sound hr
        exact ⟨c, _, hc⟩
      · exact ih.mp ⟨b, fun budget hb => (hall budget hb).2⟩ q hq
    · intro h
      obtain ⟨b, hb⟩ := ih.mpr (fun q hq => h q (by simp [hq]))
      obtain ⟨c, xs, hc⟩ := h (cat, text) (by simp)
      obtain ⟨b', hb'⟩ := C121_meaning hc
      refine ⟨max b b', fun budget hle => ?_⟩
      obtain ⟨rs, hrs⟩ := hb budget (by omega)
      exact ⟨_, by simp only [parseAll, bind, Except.bind, hb' budget (by omega), hrs]; rfl⟩

/-- `ParseRules` returns a rule set exactly if every text is a rule, whatever the order of the iteration over the map is; the
categories of the set are those of the map, and Other. -/
theorem C121_rules_iff (raw : List (Cldr.Category × List Char)) :
    (∃ b, ∀ budget, b ≤ budget → ∃ cats rules, parseRules budget raw = .ok (cats, rules) ∧
      (∀ c, c ∈ cats ↔ c = .other ∨ ∃ t, (c, t) ∈ raw)) ↔ ∀ p ∈ raw, ∃ c xs, IsRule p.2 c xs := by
  rw [← parseAll_iff]
  constructor
  · rintro ⟨b, h⟩
    refine ⟨b, fun budget hb => ?_⟩
    obtain ⟨cats, rules, h, _⟩ := h budget hb
    simp only [parseRules, bind, Except.bind] at h
    cases ha : parseAll budget raw with
    | error e => rw [ha] at h; cases h
    | ok rs => exact ⟨rs, rfl⟩
  · rintro ⟨b, h⟩
    refine ⟨b, fun budget hb => ?_⟩
    obtain ⟨rs, hrs⟩ := h budget hb
    refine ⟨_, rs, by simp only [parseRules, bind, Except.bind, hrs]; rfl, fun c => ?_⟩
    have hm : c ∈ raw.map (·.1) ↔ ∃ t, (c, t) ∈ raw := by
      simp [List.mem_map]
    rw [← hm]
    split
    · rename_i ho
      have ho : Cldr.Category.other ∈ raw.map (·.1) := by simpa using ho
      constructor
      · exact .inr
      · rintro (rfl | h)
        · exact ho
        · exact h
    · rw [List.mem_append, List.mem_singleton]; exact Or.comm

example : ∀ p ∈ [(Cldr.Category.one, c!"@integer 1"), (.few, c!"@integer 1")], ∃ c xs, IsRule p.2 c xs := by
  have h : ∃ c xs, IsRule c!"@integer 1" c xs := by
    obtain ⟨c, hc, _⟩ := parse_sound (by decide +kernel : parse 1 c!"@integer 1" = .ok ⟨none, [['1']]⟩)
    exact ⟨c, _, hc⟩
  intro p hp
  simp only [List.mem_cons, List.mem_nil_iff, or_false] at hp
  rcases hp with rfl | rfl <;> exact h

/-- `MustParse` and `MustParseRules` return what the functions without Must return; for a text that is no rule `MustParse` panics or
does not return, and without `~` it panics. -/
theorem C121_must (budget : Nat) :
    (∀ text r, mustParse budget text = .ret r ↔ parse budget text = .ok r) ∧
    (∀ raw r, mustParseRules budget raw = .ret r ↔ parseRules budget raw = .ok r) ∧
    (∀ text, (∀ c xs, ¬ IsRule text c xs) → '~' ∉ text → mustParse budget text = .panic) ∧
    (∀ text, (∀ c xs, ¬ IsRule text c xs) → mustParse budget text = .panic ∨ mustParse budget text = .hang) := by
  have hret : ∀ {α : Type} (x : Except PErr α) (r : α), must x = .ret r ↔ x = .ok r := by
    intro α x r
    rcases x with (_ | _ | _) | a <;> simp [must]
  have hrej : ∀ text, (∀ c xs, ¬ IsRule text c xs) → parse budget text = .error .syntax ∨ parse budget text = .error .hang := by
    intro text h
    cases hp : parse budget text with
    | ok r =>
      obtain ⟨c, hc, _⟩ := parse_sound hp
      exact absurd hc (h c _)
    | error e =>
      cases e with
      | «syntax» => exact .inl rfl
      | fuel => exact absurd hp (parse_no_fuel budget text)
      | hang => exact .inr rfl
  refine ⟨fun text r => hret _ r, fun raw r => hret _ r, fun text h hn => ?_, fun text h => ?_⟩
  · rcases hrej text h with h | h
    · simp [mustParse, h, must]
    · exact absurd h (parse_no_hang budget text hn)
  · rcases hrej text h with h | h
    · exact .inl (by simp [mustParse, h, must])
    · exact .inr (by simp [mustParse, h, must])

/-- The hypotheses are met by a documented rule. -/
example : (∀ c xs, ¬ IsRule c!"n = 0..0" c xs) ∧ '~' ∉ c!"n = 0..0" :=
  ⟨C121_rejected_iff.mp C121_zero_range_negation.1, by decide⟩

end Verif.Props.CldrRules
