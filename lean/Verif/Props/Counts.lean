import Verif.Props.Locales
import Verif.Props.Natural
import Verif.Spec.Counts
/-!
# The numbers in the texts of the shipped locales: C98
-/
namespace Verif.Props.Counts
open Verif.Go Verif.Model.Humanize Verif.Spec.Counts Verif.Model.PoPlural
open Verif.Props.Locales (declared C94_rules)

/-! ## Texts with one directive -/

/-- The only argument of the parts is the first one, with the verb. -/
def oneB (verb : UInt8) (ps : List Piece) : Bool :=
  match ps with
  | [] => false
  | .byte _ :: r => oneB verb r
  | .arg i v :: r => v == verb && (i == none || i == some 1) && r.all fun | .byte _ => true | _ => false

/-- The text has one directive, for the first argument, with the verb. -/
def showsB (verb : UInt8) (t : Bytes) : Bool :=
  match scan .text t with
  | none => false
  | some ps => oneB verb ps

theorem bytes_same (w : Writer) : ∀ (ps : List Piece), (ps.all fun | .byte _ => true | _ => false) = true →
    ∃ out, ∀ args k, w.pieces args k ps = out
  | [], _ => ⟨[], fun _ _ => rfl⟩
  | .byte b :: r, h => by
    obtain ⟨out, ho⟩ := bytes_same w r (by simpa using h)
    exact ⟨b :: out, fun args k => by rw [Writer.pieces, ho]⟩
  | .arg i v :: r, h => by simp at h

theorem one_shows (w : Writer) (verb : UInt8) : ∀ (ps : List Piece), oneB verb ps = true →
    ∃ before after : Bytes, ∀ a : Arg, takes a verb = true →
      surplus [a] ps = false ∧ w.pieces [a] 0 ps = before ++ w.show' verb a ++ after
  | [], h => by cases h
  | .byte b :: r, h => by
    obtain ⟨x, y, hxy⟩ := one_shows w verb r h
    refine ⟨b :: x, y, fun a ha => ?_⟩
    obtain ⟨h1, h2⟩ := hxy a ha
    exact ⟨h1, by rw [Writer.pieces, h2]; rfl⟩
  | .arg i v :: r, h => by
    simp only [oneB, Bool.and_eq_true, Bool.or_eq_true, beq_iff_eq] at h
    obtain ⟨⟨rfl, hi⟩, hr⟩ := h
    obtain ⟨out, ho⟩ := bytes_same w r hr
    refine ⟨[], out, fun a ha => ?_⟩
    rcases hi with rfl | rfl
    · refine ⟨?_, ?_⟩
      · unfold surplus
        simp only [List.filter_cons, if_true, List.length_cons, List.length_nil]
        simp
      · rw [Writer.pieces]
        simp only [List.getElem?_cons_zero, ho, Writer.value, ha, if_true, List.nil_append]
    · refine ⟨?_, ?_⟩
      · unfold surplus
        simp only [List.any_cons, Bool.true_or, Bool.not_true, Bool.false_and]
      · rw [Writer.pieces]
        simp only [Nat.sub_self, List.getElem?_cons_zero, ho, Writer.value, ha, if_true, List.nil_append]

theorem shows (w : Writer) {verb : UInt8} {t : Bytes} (h : showsB verb t = true) : Shows w verb t := by
  unfold showsB at h
  cases hs : scan .text t with
  | none => rw [hs] at h; cases h
  | some ps =>
    rw [hs] at h
    obtain ⟨x, y, hxy⟩ := one_shows w verb ps h
    refine ⟨x, y, fun a ha => ?_⟩
    obtain ⟨h1, h2⟩ := hxy a ha
    show (match scan .text t with
      | none => none
      | some ps => if surplus [a] ps then none else some (w.pieces [a] 0 ps)) = _
    rw [hs]
    simp only [h1, h2, Bool.false_eq_true, if_false]

/-! ## Forms that belong to one number -/

/-- What a condition says about every number from `lo` on except `c`, if that can be seen. -/
def truthOf (lo c : Int) : Node → Option Bool
  | .binary .operand .eq (.value v) => if v = c then some false else none
  | .binary .operand .ne (.value v) => if v = c then some true else none
  | .binary .operand .gt (.value v) => if v = c ∧ lo = c then some true else none
  | .binary x .and y =>
    if truthOf lo c x = some false ∨ truthOf lo c y = some false then some false
    else if truthOf lo c x = some true ∧ truthOf lo c y = some true then some true
    else none
  | .binary x .or y =>
    if truthOf lo c x = some true ∨ truthOf lo c y = some true then some true
    else if truthOf lo c x = some false ∧ truthOf lo c y = some false then some false
    else none
  | _ => none

/-- The node does not have the value `i` for any number from `lo` on except `c`, as far as can be seen. -/
def avoidsB (lo c i : Int) : Node → Bool
  | .value v => decide (v ≠ i)
  | .operand => false
  | .question k t f =>
    match truthOf lo c k with
    | some true => avoidsB lo c i t
    | some false => avoidsB lo c i f
    | none => avoidsB lo c i t && avoidsB lo c i f
  | .binary x op y =>
    match truthOf lo c (.binary x op y) with
    | some b => decide (truth b ≠ i)
    | none => false

theorem truth_one (b : Bool) : truth b = 1 ↔ b = true := by cases b <;> decide

theorem truthOf_ok {lo c n : Int} (hlo : lo ≤ n) (hc : n ≠ c) : ∀ (x : Node) (b : Bool), truthOf lo c x = some b →
    evaluate x n = truth b := by
  intro x
  induction x with
  | value v => intro b h; cases h
  | operand => intro b h; cases h
  | question k t f => intro b h; cases h
  | binary x op y hx hy =>
    intro b h
    unfold truthOf at h
    split at h
    all_goals try cases h
    · rename_i v e
      injection e with e1 e2 e3
      subst e1; subst e2; subst e3
      split at h
      · rename_i hv
        cases h
        simp only [evaluate, hv, hc, decide_false]
      · cases h
    · rename_i v e
      injection e with e1 e2 e3
      subst e1; subst e2; subst e3
      split at h
      · rename_i hv
        cases h
        simp only [evaluate, hv]
        rw [decide_eq_true hc]
      · cases h
    · rename_i v e
      injection e with e1 e2 e3
      subst e1; subst e2; subst e3
      split at h
      · rename_i hv
        cases h
        exact congrArg truth (decide_eq_true (show n > v by omega))
      · cases h
    · rename_i x' y' e
      injection e with e1 e2 e3
      subst e1; subst e2; subst e3
      simp only [evaluate]
      split at h
      · rename_i hv
        cases h
        rcases hv with hv | hv
        · rw [hx _ hv]; rfl
        · rw [hy _ hv]; simp [truth]
      · split at h
        · rename_i hv
          cases h
          rw [hx _ hv.1, hy _ hv.2]; rfl
        · cases h
    · rename_i x' y' e
      injection e with e1 e2 e3
      subst e1; subst e2; subst e3
      simp only [evaluate]
      split at h
      · rename_i hv
        cases h
        rcases hv with hv | hv
        · rw [hx _ hv]; rfl
        · rw [hy _ hv]; simp [truth]
      · split at h
        · rename_i hv
          cases h
          rw [hx _ hv.1, hy _ hv.2]; rfl
        · cases h

theorem avoids {lo c i n : Int} (hlo : lo ≤ n) (hc : n ≠ c) : ∀ {x : Node}, avoidsB lo c i x = true → evaluate x n ≠ i
  | .value v, h => by
    simp only [avoidsB, decide_eq_true_eq] at h
    exact h
  | .operand, h => by cases h
  | .question k t f, h => by
    simp only [avoidsB] at h
    simp only [evaluate]
    split at h
    · rename_i hk
      rw [truthOf_ok hlo hc _ _ hk, if_pos (by decide)]
      exact avoids hlo hc h
    · rename_i hk
      rw [truthOf_ok hlo hc _ _ hk, if_neg (by decide)]
      exact avoids hlo hc h
    · rw [Bool.and_eq_true] at h
      split
      · exact avoids hlo hc h.1
      · exact avoids hlo hc h.2
  | .binary x op y, h => by
    simp only [avoidsB] at h
    split at h
    · rename_i hk
      rw [truthOf_ok hlo hc _ _ hk]
      exact of_decide_eq_true h
    · cases h

/-- The tree whose value the rule of the header is: that of the built-in rule if there is one. -/
def rootOf (text : List Char) : Option Node :=
  match astParse text with
  | .error _ => none
  | .ok f =>
    match getBuiltInForRawRule (compileToString f) with
    | none => some f.root
    | some _ =>
      match astParse (compileToString f) with
      | .ok g => some g.root
      | .error _ => none

theorem rootOf_ok {text : List Char} {r : Rule} (h : parseRule text = .ok r) {x : Node} (hx : rootOf text = some x) (n : Int) :
    r.form n = evaluate x n := by
  unfold rootOf at hx
  unfold parseRule at h
  cases hp : astParse text with
  | error e => rw [hp] at h; cases h
  | ok f =>
    rw [hp] at h hx
    simp only [] at hx
    replace h : (match getBuiltInForRawRule (compileToString f) with
          | some r => Except.ok r
          | none => .ok ⟨f.nPlurals, generateFormFunc f⟩) = Except.ok r := h
    cases hb : getBuiltInForRawRule (compileToString f) with
    | none =>
      rw [hb] at h hx
      cases h
      cases hx
      rfl
    | some r' =>
      rw [hb] at h hx
      cases h
      obtain ⟨g, h1, _, h3⟩ := Verif.Props.PoPlural.C28_table hb
      rw [h1] at hx
      cases hx
      exact h3 n

/-- The texts for the numbers from `lo` on: none is translated and the source shows the number or has another text for 1, or each
form shows the number or is the text of one number only. -/
def messageB (verb : UInt8) (root : Node) (k : Nat) (singular plural : Bytes) (forms : List Bytes) : Bool :=
  showsB verb plural &&
  ((forms.all (· == []) && (showsB verb singular || singular != plural)) ||
   (List.range k).all fun i =>
      let t := forms.getD i []
      showsB verb t || (t == [] && showsB verb singular) ||
      ((t != [] && (List.range k).all (fun j => j == i || forms.getD j [] != t) &&
        ((t != singular && t != plural) || (List.range k).all (fun j => forms.getD j [] != []))) &&
        [1, 2].any fun c => avoidsB (least singular) c i root))

theorem template_empty {r : Rule} {forms : List Bytes} (h : forms.all (· == []) = true) (s p : Bytes) (n : Int) :
    template r forms s p n = if n = 1 then s else p := by
  unfold template
  split
  · rename_i hm
    have := List.all_eq_true.mp h _ (List.mem_of_getElem? hm)
    simp at this
  · rfl

theorem template_form {r : Rule} {forms : List Bytes} {s p : Bytes} {n : Int} (h : forms.getD (r.form n).toNat [] ≠ []) :
    template r forms s p n = forms.getD (r.form n).toNat [] := by
  unfold template
  rw [List.getD_eq_getElem?_getD] at *
  split
  · rename_i hm
    rw [hm]; rfl
  · rename_i hm
    cases hq : forms[(r.form n).toNat]? with
    | none => rw [hq] at h; exact absurd rfl h
    | some t =>
      rw [hq] at h
      cases t with
      | nil => exact absurd rfl h
      | cons b t => exact absurd hq (hm b t)

theorem template_none {r : Rule} {forms : List Bytes} {s p : Bytes} {n : Int} (h : forms.getD (r.form n).toNat [] = []) :
    template r forms s p n = if n = 1 then s else p := by
  unfold template
  rw [List.getD_eq_getElem?_getD] at h
  split
  · rename_i hm
    rw [hm] at h; cases h
  · rfl

theorem message (w : Writer) {verb : UInt8} {root : Node} {k : Nat} {s p : Bytes} {forms : List Bytes} {r : Rule}
    (hroot : ∀ n, r.form n = evaluate root n) (hk : ∀ n, 0 ≤ r.form n ∧ r.form n < k)
    (h : messageB verb root k s p forms = true) (n : Int) (hn : least s ≤ n) :
    Shows w verb (template r forms s p n) ∨
      ∀ m, least s ≤ m → template r forms s p m = template r forms s p n → m = n := by
  unfold messageB at h
  rw [Bool.and_eq_true, Bool.or_eq_true, Bool.and_eq_true] at h
  obtain ⟨hp, h | h⟩ := h
  · obtain ⟨he, h⟩ := h
    rw [Bool.or_eq_true] at h
    rw [template_empty he]
    by_cases h1 : n = 1
    · rw [if_pos h1]
      rcases h with h | h
      · exact .inl (shows w h)
      · right
        intro m _ hm
        rw [template_empty he] at hm
        by_cases h2 : m = 1
        · rw [h1, h2]
        · rw [if_neg h2] at hm
          rw [hm] at h
          simp at h
    · rw [if_neg h1]
      exact .inl (shows w hp)
  · have hmem : ∀ m, (r.form m).toNat ∈ List.range k := fun m => by
      obtain ⟨a, b⟩ := hk m
      rw [List.mem_range]; omega
    have hi := List.all_eq_true.mp h _ (hmem n)
    simp only [Bool.or_eq_true, Bool.and_eq_true] at hi
    by_cases ht : forms.getD (r.form n).toNat [] = []
    · rw [template_none ht]
      rcases hi with (hi | hi) | hi
      · rw [ht] at hi; cases hi
      · split
        · exact .inl (shows w hi.2)
        · exact .inl (shows w hp)
      · rw [ht] at hi
        exact absurd hi.1.1.1 (by simp)
    · rw [template_form ht]
      rcases hi with (hi | hi) | hi
      · exact .inl (shows w hi)
      · exact absurd (by simpa using hi.1) ht
      · right
        obtain ⟨⟨⟨_, hdiff⟩, hsrc⟩, hav⟩ := hi
        obtain ⟨c, _, hc⟩ := List.any_eq_true.mp hav
        have only : ∀ m, least s ≤ m → r.form m = r.form n → m = c := by
          intro m hm he
          apply Classical.byContradiction
          intro hmc
          have := avoids hm hmc hc
          obtain ⟨a, b⟩ := hk n
          rw [← hroot, he] at this
          omega
        intro m hm hmt
        have htm : forms.getD (r.form m).toNat [] ≠ [] := by
          intro htm
          rw [template_none htm] at hmt
          rcases hsrc with hsrc | hsrc
          · rw [← hmt] at hsrc
            by_cases h1 : m = 1
            · rw [if_pos h1] at hsrc; simp at hsrc
            · rw [if_neg h1] at hsrc; simp at hsrc
          · have := List.all_eq_true.mp hsrc _ (hmem m)
            rw [htm] at this
            simp at this
        rw [template_form htm] at hmt
        have hj := List.all_eq_true.mp hdiff _ (hmem m)
        rw [Bool.or_eq_true] at hj
        have hj : (r.form m).toNat = (r.form n).toNat := by
          rcases hj with hj | hj
          · simpa using hj
          · rw [hmt] at hj; simp at hj
        have he : r.form m = r.form n := by
          obtain ⟨a, b⟩ := hk n
          obtain ⟨a', b'⟩ := hk m
          omega
        rw [only m hm he, only n hn rfl]

/-- The plural messages whose number gets lost, by the directory of the locale. -/
def lost : List (Bytes × Bytes) :=
  [(b!"be", b!"%[1]s billion"), (b!"srLatn", b!"a second ago"), (b!"srLatn", b!"a minute ago"), (b!"srLatn", b!"an hour ago"),
   (b!"srLatn", b!"a second from now"), (b!"srLatn", b!"a minute from now"), (b!"srLatn", b!"an hour from now")]

/-- The check for the plural messages of a locale. -/
def localeB (c : Counts) : Bool :=
  match rootOf c.locale.pluralForms with
  | none => false
  | some root =>
    decide (c.plural.length = pluralMessages.length) &&
    (pluralMessages.zip c.plural).all fun (m, forms) =>
      lost.contains (c.locale.dir, m.2.1) ||
      messageB (verbOf m.2.2) root (declared c.locale.pluralForms).toNat m.2.1 m.2.2 forms

set_option maxRecDepth 100000 in
theorem plural_table : (shippedCounts.all localeB) = true := by decide +kernel

/-- The messages without plural that lose their argument, by the directory of the locale. -/
def lostSingle : List (Bytes × Bytes) :=
  [(b!"mr", b!"ordinal 9"), (b!"sq", b!"ordinal 11, 12, 13"), (b!"sq", b!"ordinal 0"), (b!"sq", b!"ordinal 2"),
   (b!"sq", b!"ordinal 3"), (b!"sq", b!"ordinal 4"), (b!"sq", b!"ordinal 5"), (b!"sq", b!"ordinal 6"), (b!"sq", b!"ordinal 7"),
   (b!"sq", b!"ordinal 8"), (b!"sq", b!"ordinal 9")]

/-- The check for the messages without plural of a locale. -/
def singleB (c : Counts) : Bool :=
  decide (c.singular.length = singularMessages.length) &&
  (singularMessages.zip c.singular).all fun (m, t) =>
    lostSingle.contains (c.locale.dir, m.1) || showsB (verbOf m.2) (single t m.2)

set_option maxRecDepth 100000 in
theorem single_table : (shippedCounts.all singleB) = true := by decide +kernel

theorem locales_eq : shippedCounts.map (·.locale) = shipped := rfl

theorem locale_mem {c : Counts} (h : c ∈ shippedCounts) : c.locale ∈ shipped := by
  rw [← locales_eq]
  exact List.mem_map_of_mem h

/-! ## C98 -/

/-- C98 for the plural messages, in every locale: for every number, the text shows the argument, or it is used for this number
only.  Missing: the messages of `lost` (`C98_serbian_negation`, `C98_belarusian_negation`). -/
theorem C98_plural_partial (w e : Writer) (c : Counts) (hc : c ∈ shippedCounts) (loc : Loc) (ha : Answers w e c loc)
    (i : Nat) (ctx s p : Bytes) (forms : List Bytes) (r : Rule) (hi : pluralMessages[i]? = some (ctx, s, p))
    (hf : c.plural[i]? = some forms) (hr : parseRule c.locale.pluralForms = .ok r) (hl : (c.locale.dir, s) ∉ lost)
    (q : Int → List Arg → Bytes) (hq : q ∈ asks loc ctx s p) (n : Int) (hn : least s ≤ n) (hb : n ≤ 2 ^ 53) :
    (∃ before after : Bytes, ∀ a : Arg, takes a (verbOf p) = true →
      q n [a] = before ++ (hand w e forms[(r.form n).toNat]?).show' (verbOf p) a ++ after) ∨
      ∀ m, least s ≤ m → template r forms s p m = template r forms s p n → m = n := by
  have ht := List.all_eq_true.mp plural_table c hc
  unfold localeB at ht
  cases hroot : rootOf c.locale.pluralForms with
  | none => rw [hroot] at ht; cases ht
  | some root =>
    rw [hroot] at ht
    simp only [Bool.and_eq_true] at ht
    have hz : ((ctx, s, p), forms) ∈ pluralMessages.zip c.plural :=
      List.mem_of_getElem? (i := i) (by rw [List.getElem?_zip_eq_some]; exact ⟨hi, hf⟩)
    have hm := List.all_eq_true.mp ht.2 _ hz
    simp only [Bool.or_eq_true] at hm
    replace hm := hm.resolve_left (fun h => hl (List.contains_iff_mem.mp h))
    obtain ⟨r', h1, h2, h3⟩ := C94_rules c.locale (locale_mem hc)
    rw [hr] at h1
    cases h1
    rcases message (hand w e forms[(r.form n).toNat]?) (rootOf_ok hr hroot) (fun n => by rw [← h2]; have := h3 n; omega) hm n hn with h | h
    · left
      obtain ⟨x, y, hxy⟩ := h
      refine ⟨x, y, fun a hta => ?_⟩
      obtain ⟨h4, h5⟩ := ha.plural i ctx s p forms r n [a] _ hi hf hr (le_trans (by unfold least; split <;> decide) hn) hb (hxy a hta)
      unfold asks at hq
      rcases List.mem_cons.mp hq with rfl | hq
      · exact h4
      · split at hq
        · rename_i hctx
          rw [List.mem_singleton.mp hq]
          exact h5 hctx
        · cases hq
    · exact .inr h

/-- C98 for the messages without plural, in every locale: the text shows the argument.  Missing: the messages of `lostSingle`
(`C98_albanian_negation`, `C98_marathi_negation`). -/
theorem C98_single_partial (w e : Writer) (c : Counts) (hc : c ∈ shippedCounts) (loc : Loc) (ha : Answers w e c loc)
    (i : Nat) (ctx source : Bytes) (t : Option Bytes) (hi : singularMessages[i]? = some (ctx, source))
    (hf : c.singular[i]? = some t) (hl : (c.locale.dir, ctx) ∉ lostSingle)
    (q : List Arg → Bytes) (hq : q ∈ asksSingle loc ctx source) :
    ∃ before after : Bytes, ∀ a : Arg, takes a (verbOf source) = true →
      q [a] = before ++ (hand w e t).show' (verbOf source) a ++ after := by
  have ht := List.all_eq_true.mp single_table c hc
  unfold singleB at ht
  rw [Bool.and_eq_true, decide_eq_true_eq] at ht
  obtain ⟨_, ht⟩ := ht
  have hz : ((ctx, source), t) ∈ singularMessages.zip c.singular :=
    List.mem_of_getElem? (i := i) (by rw [List.getElem?_zip_eq_some]; exact ⟨hi, hf⟩)
  have hs := List.all_eq_true.mp ht _ hz
  simp only [Bool.or_eq_true] at hs
  replace hs := hs.resolve_left (fun h => hl (List.contains_iff_mem.mp h))
  obtain ⟨x, y, hxy⟩ := shows (hand w e t) hs
  refine ⟨x, y, fun a hta => ?_⟩
  obtain ⟨h4, h5⟩ := ha.single i ctx source _ [a] _ hi hf (hxy a hta)
  unfold asksSingle at hq
  rcases List.mem_cons.mp hq with rfl | hq
  · exact h4
  · split at hq
    · rename_i hctx
      rw [List.mem_singleton.mp hq]
      exact h5 hctx
    · cases hq

/-- The localizer of a catalog. -/
def catalogLoc (w e : Writer) (c : Counts) : Loc where
  get m := m
  pGet _ m := m
  getf m args :=
    let t := (c.singular[singularMessages.idxOf ([], m)]?).getD none
    ((hand w e t).print (single t m) args).getD []
  pGetf ctx m args :=
    let t := (c.singular[singularMessages.idxOf (ctx, m)]?).getD none
    ((hand w e t).print (single t m) args).getD []
  nGetf s p n args :=
    match parseRule c.locale.pluralForms with
    | .ok r =>
      let forms := (c.plural[pluralMessages.idxOf ([], s, p)]?).getD []
      ((hand w e forms[(r.form n).toNat]?).print (template r forms s p n) args).getD []
    | .error _ => []
  npGetf ctx s p n args :=
    match parseRule c.locale.pluralForms with
    | .ok r =>
      let forms := (c.plural[pluralMessages.idxOf (ctx, s, p)]?).getD []
      ((hand w e forms[(r.form n).toNat]?).print (template r forms s p n) args).getD []
    | .error _ => []
  print _ _ := []

theorem plural_indices : ∀ j : Fin pluralMessages.length, pluralMessages.idxOf pluralMessages[j] = j := by decide +kernel

theorem single_indices : ∀ j : Fin singularMessages.length, singularMessages.idxOf singularMessages[j] = j := by decide +kernel

theorem plural_index : ∀ (i : Nat) (m : Bytes × Bytes × Bytes), pluralMessages[i]? = some m → pluralMessages.idxOf m = i := by
  intro i m h
  obtain ⟨hlt, rfl⟩ := List.getElem?_eq_some_iff.mp h
  exact plural_indices ⟨i, hlt⟩

theorem single_index : ∀ (i : Nat) (m : Bytes × Bytes), singularMessages[i]? = some m → singularMessages.idxOf m = i := by
  intro i m h
  obtain ⟨hlt, rfl⟩ := List.getElem?_eq_some_iff.mp h
  exact single_indices ⟨i, hlt⟩

theorem catalogLoc_answers (w e : Writer) (c : Counts) : Answers w e c (catalogLoc w e c) where
  plural i ctx s p forms r n args out hi hf hr _ _ ho := by
    have he := plural_index i _ hi
    refine ⟨?_, fun hctx => ?_⟩
    · simp only [catalogLoc, hr, he, hf, Option.getD_some, ho]
    · subst hctx
      simp only [catalogLoc, hr, he, hf, Option.getD_some, ho]
  single i ctx source t args out hi hf ho := by
    have he := single_index i _ hi
    refine ⟨?_, fun hctx => ?_⟩
    · simp only [catalogLoc, he, hf, Option.getD_some, ho]
    · subst hctx
      simp only [catalogLoc, he, hf, Option.getD_some, ho]

/-- A writer for examples: integers in decimal digits, texts as they are. -/
def plainWriter : Writer where
  show' _ a := match a with | .int n => itoa n | .str s => s | _ => b!"?"
  typeName a := match a with | .int _ => b!"int64" | .str _ => b!"string" | _ => b!"?"

/-- The print function on other directives. -/
example : plainWriter.print b!"100%% of %v, %v" [.int 5, .str b!"x"] = some b!"100% of 5, x" ∧
    plainWriter.print b!"%[2]v %[1]v %[3]v" [.int 5, .str b!"x"] = some b!"x 5 %!v(BADINDEX)" ∧
    plainWriter.print b!"%d %d" [.str b!"x"] = some b!"%!d(string=x) %!d(MISSING)" ∧
    plainWriter.print b!"100%" [] = some b!"100%" ∧ plainWriter.print b!"%5d" [.int 5] = none := by decide

/-- Polish: 22 minutes ago has a text with the number, 1 minute ago one that is used for 1 only. -/
example : counts_pl ∈ shippedCounts ∧ Answers plainWriter plainWriter counts_pl (catalogLoc plainWriter plainWriter counts_pl) ∧
    (counts_pl.locale.dir, b!"a minute ago") ∉ lost ∧ pluralMessages[19]? = some ([], b!"a minute ago", b!"%[1]v minutes ago") ∧
    (catalogLoc plainWriter plainWriter counts_pl).nGetf b!"a minute ago" b!"%[1]v minutes ago" 22 [.int 22] = b!"22\u00a0minuty temu" ∧
    (catalogLoc plainWriter plainWriter counts_pl).nGetf b!"a minute ago" b!"%[1]v minutes ago" 1 [.int 1] = b!"minutę\u00a0temu" := by
  refine ⟨?_, catalogLoc_answers _ _ _, by decide, by decide, by decide +kernel, by decide +kernel⟩
  unfold shippedCounts
  simp only [List.mem_cons, true_or, or_true]

/-- The ordinals are among the messages. -/
theorem ordinal_mem (n : Nat) : (Verif.Spec.Humanize.ordinalContext n, b!"%v" ++ Verif.Spec.Humanize.ordinalSuffix n) ∈ singularMessages ∧
    verbOf (b!"%v" ++ Verif.Spec.Humanize.ordinalSuffix n) = 118 := by
  unfold Verif.Spec.Humanize.ordinalContext Verif.Spec.Humanize.ordinalSuffix
  split
  · decide
  · have h : n % 10 = 0 ∨ n % 10 = 1 ∨ n % 10 = 2 ∨ n % 10 = 3 ∨ n % 10 = 4 ∨ n % 10 = 5 ∨ n % 10 = 6 ∨ n % 10 = 7 ∨
      n % 10 = 8 ∨ n % 10 = 9 := by omega
    rcases h with h | h | h | h | h | h | h | h | h | h <;> rw [h] <;> decide

/-- C98 for `Ordinal`: in every locale but Albanian and Marathi, the text shows the number. -/
theorem C98_ordinal_partial (w e : Writer) (c : Counts) (hc : c ∈ shippedCounts) (env : Env) (ha : Answers w e c env.loc)
    (hsq : c.locale.dir ≠ b!"sq") (hmr : c.locale.dir ≠ b!"mr") (n : Nat) (hn : n < 2 ^ 53) :
    ∃ (v : Writer) (before after : Bytes), (v = w ∨ v = e) ∧ ordinal env (.int n) = .ok (before ++ v.show' 118 (.int n) ++ after) := by
  obtain ⟨hm, hv⟩ := ordinal_mem n
  have hl : (c.locale.dir, Verif.Spec.Humanize.ordinalContext n) ∉ lostSingle := by
    intro h
    simp only [lostSingle, List.mem_cons, List.not_mem_nil, or_false, Prod.mk.injEq] at h
    rcases h with h | h | h | h | h | h | h | h | h | h | h
    · exact hmr h.1
    all_goals exact hsq h.1
  obtain ⟨i, hi⟩ := List.getElem?_of_mem hm
  have hlen := List.all_eq_true.mp single_table c hc
  unfold singleB at hlen
  rw [Bool.and_eq_true, decide_eq_true_eq] at hlen
  have hlt : i < c.singular.length := by
    have := (List.getElem?_eq_some_iff.mp hi).1
    omega
  obtain ⟨x, y, hxy⟩ := C98_single_partial w e c hc env.loc ha i _ _ _ hi (List.getElem?_eq_getElem hlt) hl _ (List.mem_cons_self ..)
  refine ⟨hand w e c.singular[i], x, y, ?_, ?_⟩
  · unfold hand; split <;> simp
  rw [Verif.Props.Numbers.C53_integer_partial env n hn, hxy (.int n) (by rw [hv]; rfl), hv]

/-- German ordinals. -/
example : (b!"ordinal 2", b!"%vnd") ∈ singularMessages ∧ (counts_de.locale.dir, b!"ordinal 2") ∉ lostSingle ∧
    (catalogLoc plainWriter plainWriter counts_de).pGetf b!"ordinal 2" b!"%vnd" [.int 2] = b!"2." := by
  refine ⟨by decide, by decide, by decide +kernel⟩

/-! ## Texts that lose what they are given -/

theorem serbian_mem : counts_srLatn ∈ shippedCounts := by
  unfold shippedCounts
  simp only [List.mem_cons, true_or, or_true]

/-- The value of the printed text is the text itself: it has no directive. -/
theorem print_plain (w : Writer) (a : Arg) : w.print b!"pre minut" [a] = some b!"pre minut" := rfl

/-- C98 fails for Serbian in Latin script: the singular without a number is also the text for 21, 31, 41 and so on, so that 21
minutes ago reads like 1 minute ago. -/
theorem C98_serbian_negation (w e : Writer) (env : Env) (ha : Answers w e counts_srLatn env.loc) (castNow clock : Time) :
    counts_srLatn ∈ shippedCounts ∧
    naturalTime env ⟨60, 0, utc⟩ castNow clock (.time ⟨0, 0, utc⟩) = b!"pre minut" ∧
    naturalTime env ⟨1260, 0, utc⟩ castNow clock (.time ⟨0, 0, utc⟩) = b!"pre minut" := by
  have hi : pluralMessages[19]? = some (b!"", b!"a minute ago", b!"%[1]v minutes ago") := by decide
  have hf : counts_srLatn.plural[19]? = some [b!"pre minut", b!"pre %[1]v\u00a0minuta", b!"pre %[1]v\u00a0minuta"] := by decide
  obtain ⟨r, hr, _, _⟩ := C94_rules counts_srLatn.locale (locale_mem serbian_mem)
  have hroot : ∃ x, rootOf counts_srLatn.locale.pluralForms = some x ∧ evaluate x 1 = 0 ∧ evaluate x 21 = 0 := by
    have h : (match rootOf counts_srLatn.locale.pluralForms with
      | some x => decide (evaluate x 1 = 0 ∧ evaluate x 21 = 0)
      | none => false) = true := by decide +kernel
    cases hx : rootOf counts_srLatn.locale.pluralForms with
    | none => rw [hx] at h; cases h
    | some x => rw [hx] at h; exact ⟨x, rfl, of_decide_eq_true h⟩
  obtain ⟨x, hx, h1, h21⟩ := hroot
  have key : ∀ n : Int, evaluate x n = 0 → 0 ≤ n → n ≤ 2 ^ 53 →
      env.loc.nGetf b!"a minute ago" b!"%[1]v minutes ago" n [.int n] = b!"pre minut" := by
    intro n hn h0 hb
    refine (ha.plural 19 _ _ _ _ r n [.int n] _ hi hf hr h0 hb ?_).2 rfl
    have : template r [b!"pre minut", b!"pre %[1]v\u00a0minuta", b!"pre %[1]v\u00a0minuta"] b!"a minute ago" b!"%[1]v minutes ago" n =
        b!"pre minut" := by
      unfold template
      rw [rootOf_ok hr hx, hn]
      rfl
    rw [this]
    exact print_plain w _
  refine ⟨serbian_mem, ?_, ?_⟩
  · rw [Verif.Props.Natural.natural_time, Verif.Proofs.Humanize.past_eq env _ _ _ (by decide) (by decide)]
    exact key 1 h1 (by decide) (by decide)
  · rw [Verif.Props.Natural.natural_time, Verif.Proofs.Humanize.past_eq env _ _ _ (by decide) (by decide)]
    exact key 21 h21 (by decide) (by decide)

example : naturalTime { Verif.Props.Numbers.showEnv with loc := catalogLoc plainWriter plainWriter counts_srLatn } ⟨1260, 0, utc⟩
    zeroTime zeroTime (.time ⟨0, 0, utc⟩) = b!"pre minut" := by decide +kernel

/-- C98 fails for Belarusian: one billion is printed with a verb that does not exist. -/
theorem C98_belarusian_negation (w e : Writer) (loc : Loc) (ha : Answers w e counts_be loc) (x : Bytes) :
    counts_be ∈ shippedCounts ∧
    loc.nGetf b!"%[1]s billion" b!"%[1]s billion" 1 [.str x] =
      b!"%!((" ++ w.typeName (.str x) ++ b!"=" ++ w.show' 118 (.str x) ++ b!")value).s мільярд" := by
  have hmem : counts_be ∈ shippedCounts := by
    unfold shippedCounts
    simp only [List.mem_cons, true_or, or_true]
  refine ⟨hmem, ?_⟩
  have hi : pluralMessages[26]? = some (b!"", b!"%[1]s billion", b!"%[1]s billion") := by decide
  have hf : counts_be.plural[26]? =
      some [b!"%(value).s мільярд", b!"%[1]s мільярды", b!"%[1]s мільярдаў", b!"%[1]s мільярдаў"] := by decide
  obtain ⟨r, hr, _, _⟩ := C94_rules counts_be.locale (locale_mem hmem)
  have h1 : ∃ x, rootOf counts_be.locale.pluralForms = some x ∧ evaluate x 1 = 0 := by
    have h : (match rootOf counts_be.locale.pluralForms with
      | some x => decide (evaluate x 1 = 0)
      | none => false) = true := by decide +kernel
    cases hx : rootOf counts_be.locale.pluralForms with
    | none => rw [hx] at h; cases h
    | some x => rw [hx] at h; exact ⟨x, rfl, of_decide_eq_true h⟩
  obtain ⟨y, hy, h1⟩ := h1
  refine (ha.plural 26 _ _ _ _ r 1 [.str x] _ hi hf hr (by decide) (by decide) ?_).2 rfl
  have : template r [b!"%(value).s мільярд", b!"%[1]s мільярды", b!"%[1]s мільярдаў", b!"%[1]s мільярдаў"]
      b!"%[1]s billion" b!"%[1]s billion" 1 = b!"%(value).s мільярд" := by
    unfold template
    rw [rootOf_ok hr hy, h1]
    rfl
  rw [this, rootOf_ok hr hy, h1]
  show some (b!"%!" ++ [40] ++ b!"(" ++ w.typeName (.str x) ++ b!"=" ++ w.show' 118 (.str x) ++ b!")" ++ b!"value).s мільярд") = _
  simp only [List.append_assoc]
  rfl

/-- C98 fails for Albanian: all ordinals but those that end in 1 are the same text. -/
theorem C98_albanian_negation (w e : Writer) (env : Env) (ha : Answers w e counts_sq env.loc) (n : Nat) (hn : n < 2 ^ 53)
    (h1 : n % 10 ≠ 1 ∨ n % 100 = 11) :
    counts_sq ∈ shippedCounts ∧ ordinal env (.int n) = .ok b!"-të" := by
  have hmem : counts_sq ∈ shippedCounts := by
    unfold shippedCounts
    simp only [List.mem_cons, true_or, or_true]
  refine ⟨hmem, ?_⟩
  rw [Verif.Props.Numbers.C53_integer_partial env n hn]
  have key : ∀ (i : Nat) (ctx source : Bytes), singularMessages[i]? = some (ctx, source) → counts_sq.singular[i]? = some (some b!"-të") →
      env.loc.pGetf ctx source [.int n] = b!"-të" := fun i ctx source hi hf =>
    (ha.single i ctx source _ [.int n] b!"-të" hi hf rfl).1
  congr 1
  unfold Verif.Spec.Humanize.ordinalContext Verif.Spec.Humanize.ordinalSuffix
  split
  · exact key 7 _ _ (by decide) (by decide)
  · rename_i h11
    have h : n % 10 = 0 ∨ n % 10 = 2 ∨ n % 10 = 3 ∨ n % 10 = 4 ∨ n % 10 = 5 ∨ n % 10 = 6 ∨ n % 10 = 7 ∨
      n % 10 = 8 ∨ n % 10 = 9 := by omega
    rcases h with h | h | h | h | h | h | h | h | h <;> rw [h]
    · exact key 8 _ _ (by decide) (by decide)
    · exact key 10 _ _ (by decide) (by decide)
    · exact key 11 _ _ (by decide) (by decide)
    · exact key 12 _ _ (by decide) (by decide)
    · exact key 13 _ _ (by decide) (by decide)
    · exact key 14 _ _ (by decide) (by decide)
    · exact key 15 _ _ (by decide) (by decide)
    · exact key 16 _ _ (by decide) (by decide)
    · exact key 17 _ _ (by decide) (by decide)

/-- C98 fails for Marathi: all ordinals that end in 9 are the same text. -/
theorem C98_marathi_negation (w e : Writer) (env : Env) (ha : Answers w e counts_mr env.loc) (n : Nat) (hn : n < 2 ^ 53)
    (h9 : n % 10 = 9) :
    counts_mr ∈ shippedCounts ∧ ordinal env (.int n) = .ok b!"{वा}" := by
  have hmem : counts_mr ∈ shippedCounts := by
    unfold shippedCounts
    simp only [List.mem_cons, true_or, or_true]
  refine ⟨hmem, ?_⟩
  rw [Verif.Props.Numbers.C53_integer_partial env n hn]
  congr 1
  unfold Verif.Spec.Humanize.ordinalContext Verif.Spec.Humanize.ordinalSuffix
  rw [if_neg (by omega), if_neg (by omega), h9]
  exact (ha.single 17 _ _ (some b!"{वा}") [.int n] b!"{वा}" (by decide) (by decide) rfl).1

example : ordinal { Verif.Props.Numbers.showEnv with loc := catalogLoc plainWriter plainWriter counts_mr } (.int 19) = .ok b!"{वा}" ∧
    ordinal { Verif.Props.Numbers.showEnv with loc := catalogLoc plainWriter plainWriter counts_sq } (.int 12) = .ok b!"-të" ∧
    (catalogLoc plainWriter plainWriter counts_be).nGetf b!"%[1]s billion" b!"%[1]s billion" 1 [.str b!"1.0"] =
      b!"%!((string=1.0)value).s мільярд" := by decide +kernel

end Verif.Props.Counts
