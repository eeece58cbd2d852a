import Verif.Model.Spreak.ErrorText
import Verif.Model.Catalog.Json
import Verif.Proofs.Quote
import Verif.Proofs.Go.Digits
import Verif.Proofs.PoString
/-!
# C102: what the texts of errors tell
-/
namespace Verif.Props.ErrorText
open Verif.Go Verif.Model.Spreak Verif.Proofs.Quote
open Verif.Model.Catalog (GettextCatalog JsonCatalog LookupErr)

/-- `itoa` writes different numbers differently. -/
theorem itoa_inj {a b : Int} (h : itoa a = itoa b) : a = b := by
  have hd : ∀ n, (∀ x ∈ natDigits 0 n, 48 ≤ x.toNat ∧ x.toNat ≤ 57) := fun n => (Proofs.Go.natDigits_spec 0 n).2.1
  have hv : ∀ n, Spec.Decimal.natVal (natDigits 0 n) = n := fun n => (Proofs.Go.natDigits_spec 0 n).2.2
  have hne : ∀ n m, natDigits 0 n ≠ 0x2d :: natDigits 0 m := by
    intro n m e
    have := hd n 0x2d (by rw [e]; exact List.mem_cons_self)
    revert this; decide
  unfold itoa at h
  split at h <;> split at h
  · have := congrArg Spec.Decimal.natVal (List.cons.inj h).2
    rw [hv, hv] at this
    omega
  · exact absurd h.symm (hne _ _)
  · exact absurd h (hne _ _)
  · have := congrArg Spec.Decimal.natVal h
    rw [hv, hv] at this
    omega

theorem optional_inj {print : Char → Bool} {k : UInt8} {key d d' x y : Bytes} (hx : x.head? ≠ some k) (hy : y.head? ≠ some k)
    (h : optionalPart print (k :: key) d ++ x = optionalPart print (k :: key) d' ++ y) : d = d' ∧ x = y := by
  unfold optionalPart at h
  split at h <;> split at h
  · simp only [List.append_assoc, List.cons_append, List.nil_append, List.cons.injEq, true_and, List.append_cancel_left_eq] at h
    obtain ⟨rfl, e⟩ := quote_inj h
    exact ⟨rfl, by simpa using e⟩
  · rw [List.nil_append] at h
    exact absurd (by rw [← h]; rfl) hy
  · rw [List.nil_append] at h
    exact absurd (by rw [h]; rfl) hx
  · rename_i h1 h2
    exact ⟨by rw [Classical.not_not.1 h1, Classical.not_not.1 h2], h⟩

theorem optional_head {print : Char → Bool} {k k' : UInt8} {key d x : Bytes} (hk : k ≠ k') (hx : x.head? ≠ some k') :
    (optionalPart print (k :: key) d ++ x).head? ≠ some k' := by
  unfold optionalPart
  split
  · simpa using hk
  · simpa using hx

/-- Errors with the same text are the same: of the same kind, for the same language, domain, context, id and
form. -/
theorem C102_unambiguous (print : Char → Bool) (r r' : Report) (h : r.text print = r'.text print) : r = r' := by
  cases r <;> cases r' <;> simp only [Report.text, List.append_assoc] at h
  case context.context l d c l' d' c' =>
    obtain ⟨rfl, h1⟩ := quote_inj (List.append_cancel_left h)
    have h2 := List.append_cancel_left h1
    have hc : ∀ c : Bytes, (if c ≠ [] then b!"ctx=" ++ (quote print c ++ b!" ") else b!"ctx='' (empty string)").head? ≠ some 0x64 := by
      intro c; split <;> simp
    obtain ⟨rfl, h3⟩ := optional_inj (hc _) (hc _) h2
    clear h h1 h2
    split at h3 <;> split at h3
    · obtain ⟨rfl, _⟩ := quote_inj (List.append_cancel_left h3)
      rfl
    · simp [quote] at h3
    · simp [quote] at h3
    · rename_i h1 h2
      rw [Classical.not_not.1 h1, Classical.not_not.1 h2]
  case message.message l d c i l' d' c' i' =>
    obtain ⟨rfl, h1⟩ := quote_inj (List.append_cancel_left h)
    have h2 := List.append_cancel_left h1
    obtain ⟨rfl, h3⟩ := optional_inj (k := 0x64) (optional_head (k := 0x63) (by decide) (by simp))
      (optional_head (k := 0x63) (by decide) (by simp)) h2
    obtain ⟨rfl, h4⟩ := optional_inj (k := 0x63) (by simp) (by simp) h3
    have h5 := List.append_cancel_left h4
    obtain ⟨rfl, _⟩ := quote_inj (x := []) (y := []) (by simpa using h5)
    rfl
  case translation.translation l d c i n l' d' c' i' n' =>
    obtain ⟨rfl, h1⟩ := quote_inj (List.append_cancel_left h)
    have h2 := List.append_cancel_left h1
    obtain ⟨rfl, h3⟩ := optional_inj (k := 0x64) (optional_head (k := 0x63) (by decide) (by simp))
      (optional_head (k := 0x63) (by decide) (by simp)) h2
    obtain ⟨rfl, h4⟩ := optional_inj (k := 0x63) (by simp) (by simp) h3
    obtain ⟨rfl, h5⟩ := quote_inj (List.append_cancel_left h4)
    rw [itoa_inj (List.append_cancel_left h5)]
  case domain.domain l d l' d' =>
    obtain ⟨rfl, h1⟩ := quote_inj (List.append_cancel_left h)
    have h2 := List.append_cancel_left h1
    clear h h1
    split at h2 <;> split at h2
    · obtain ⟨rfl, _⟩ := quote_inj (List.append_cancel_left h2)
      rfl
    · simp [quote] at h2
    · simp [quote] at h2
    · clear h2
      rename_i h1 h2
      rw [Classical.not_not.1 h1, Classical.not_not.1 h2]
  case language.language l l' =>
    obtain ⟨rfl, _⟩ := quote_inj (List.append_cancel_left h)
    rfl
  case notFound.notFound l t i l' t' i' =>
    obtain ⟨rfl, h1⟩ := quote_inj (List.append_cancel_left h)
    obtain ⟨rfl, h2⟩ := quote_inj (List.append_cancel_left h1)
    rw [List.append_cancel_right (List.append_cancel_left h2)]
  all_goals (exfalso; revert h; simp)

/-- Ids, contexts and domains with quotes and keywords of the text. -/
example (print : Char → Bool) : (Report.message b!"de" b!"" b!"" b!"a\" ctx=\"b").text print ≠
    (Report.message b!"de" b!"" b!"b" b!"a").text print := by
  intro h
  have := C102_unambiguous print _ _ h
  revert this; decide

/-- The characters of a text that are shown as they are. -/
def Printable (print : Char → Bool) (s : Bytes) : Prop := ∃ cs : List Char, s = utf8 cs ∧ ∀ c ∈ cs, print c = true

/-- `strconv.IsPrint` holds of the visible ASCII characters and of the space. -/
def PrintsAscii (print : Char → Bool) : Prop := ∀ c : Char, 0x20 ≤ c.toNat → c.toNat < 0x7f → print c = true

theorem printable_append {print : Char → Bool} {a b : Bytes} (ha : Printable print a) (hb : Printable print b) :
    Printable print (a ++ b) := by
  obtain ⟨cs, rfl, h1⟩ := ha
  obtain ⟨ds, rfl, h2⟩ := hb
  refine ⟨cs ++ ds, by simp, fun c hc => ?_⟩
  rcases List.mem_append.1 hc with hc | hc
  · exact h1 c hc
  · exact h2 c hc

theorem printable_ascii {print : Char → Bool} (hp : PrintsAscii print) : ∀ {s : Bytes},
    (∀ b ∈ s, 0x20 ≤ b.toNat ∧ b.toNat < 0x7f) → Printable print s := by
  intro s
  induction s with
  | nil => intro _; exact ⟨[], rfl, by simp⟩
  | cons b s ih =>
    intro h
    obtain ⟨cs, h1, h2⟩ := ih fun x hx => h x (List.mem_cons_of_mem _ hx)
    have hb := h b List.mem_cons_self
    have hn := toNat_ofNat_of_valid (n := b.toNat) (by omega)
    refine ⟨Char.ofNat b.toNat :: cs, ?_, ?_⟩
    · rw [utf8_cons, ← h1, encodeRune]
      simp only [hn]
      rw [if_pos (by omega)]
      simp
    · intro c hc
      rcases List.mem_cons.1 hc with rfl | hc
      · exact hp _ (by rw [hn]; omega) (by rw [hn]; omega)
      · exact h2 c hc

theorem printable_itoa {print : Char → Bool} (hp : PrintsAscii print) (n : Int) : Printable print (itoa n) := by
  have hd : ∀ n, (∀ x ∈ natDigits 0 n, 48 ≤ x.toNat ∧ x.toNat ≤ 57) := fun n => (Proofs.Go.natDigits_spec 0 n).2.1
  apply printable_ascii hp
  intro b hb
  unfold itoa at hb
  split at hb
  · rcases List.mem_cons.1 hb with rfl | hb
    · decide
    · have := hd _ b hb; omega
  · have := hd _ b hb; omega

theorem printable_optional {print : Char → Bool} (hp : PrintsAscii print) {key d : Bytes} (hk : Printable print key) :
    Printable print (optionalPart print key d) := by
  unfold optionalPart
  split
  · exact printable_append (printable_append (printable_append hk (printable_ascii hp (by decide))) (quote_printable hp _))
      (printable_ascii hp (by decide))
  · exact ⟨[], rfl, by simp⟩

/-- The text of an error is one line of printable characters, whatever the language, the domain, the context and the
id are; the text of an item that is not found is so if the identifier is. -/
theorem C102_printable_partial (print : Char → Bool) (hp : PrintsAscii print) (r : Report)
    (hi : ∀ l t i, r = .notFound l t i → Printable print i) : Printable print (r.text print) := by
  have A : ∀ {s : Bytes}, (∀ b ∈ s, 0x20 ≤ b.toNat ∧ b.toNat < 0x7f) → Printable print s := printable_ascii hp
  have Q : ∀ s, Printable print (quote print s) := quote_printable hp
  have O : ∀ {key d : Bytes}, (∀ b ∈ key, 0x20 ≤ b.toNat ∧ b.toNat < 0x7f) → Printable print (optionalPart print key d) :=
    fun h => printable_optional hp (A h)
  have J : ∀ {a b : Bytes}, Printable print a → Printable print b → Printable print (a ++ b) := printable_append
  cases r with
  | context l d c =>
    refine J (J (J (J (A (by decide)) (Q _)) (A (by decide))) (O (by decide))) ?_
    split
    · exact J (J (A (by decide)) (Q _)) (A (by decide))
    · exact A (by decide)
  | message l d c i =>
    exact J (J (J (J (J (J (A (by decide)) (Q _)) (A (by decide))) (O (by decide))) (O (by decide))) (A (by decide))) (Q _)
  | translation l d c i n =>
    exact J (J (J (J (J (J (J (J (A (by decide)) (Q _)) (A (by decide))) (O (by decide))) (O (by decide))) (A (by decide))) (Q _))
      (A (by decide))) (printable_itoa hp n)
  | domain l d =>
    refine J (J (J (A (by decide)) (Q _)) (A (by decide))) ?_
    split
    · exact J (J (A (by decide)) (Q _)) (A (by decide))
    · exact A (by decide)
  | language l => exact J (J (A (by decide)) (Q _)) (A (by decide))
  | notFound l t i =>
    exact J (J (J (J (J (J (A (by decide)) (Q _)) (A (by decide))) (Q _)) (A (by decide))) (hi l t i rfl)) (A (by decide))

/-- `IsPrint` of ASCII; an id with a line break. -/
example : ∃ print : Char → Bool, PrintsAscii print ∧ print '\n' = false ∧
    (Report.message b!"de" b!"" b!"" b!"a\nb").text print = b!"spreak: msgID not found: lang=\"de\" msgID=\"a\\nb\"" := by
  refine ⟨fun c => 0x20 ≤ c.toNat && c.toNat < 0x7f, ?_, by decide, by decide⟩
  intro c h1 h2
  simp [h1, h2]

/-- The error of the file loader is one line, too. -/
theorem C102_no_file_printable (print : Char → Bool) (hp : PrintsAscii print) (lang domain : Bytes) :
    Printable print ((Report.noFile print lang domain).text print) := by
  apply C102_printable_partial print hp
  intro l t i e
  unfold Report.noFile at e
  cases e
  exact printable_append (printable_ascii hp (by decide)) (quote_printable hp _)

/-- The identifier of `NewErrNotFound` is printed as it is. -/
theorem C102_printable_negation (print : Char → Bool) (hp : print '\n' = false) :
    ¬ Printable print ((Report.notFound b!"de" b!"file" b!"a\nb").text print) := by
  rintro ⟨cs, h, hc⟩
  have h10 : (0x0a : UInt8) ∈ utf8 cs := by
    rw [← h]; simp [Report.text]
  unfold utf8 at h10
  obtain ⟨c, h1, h2⟩ := List.mem_flatMap.1 h10
  have : c = '\n' := by
    by_cases hlt : c.toNat < 0x80
    · unfold encodeRune at h2
      simp only [hlt, if_true, List.mem_singleton] at h2
      have := congrArg UInt8.toNat h2
      simp at this
      have e : c.toNat = 10 := by omega
      rw [← Char.ofNat_toNat c, e]
    · have := Model.PoString.encodeRune_multi c (by omega) _ h2
      simp at this
  subst this
  rw [hc _ h1] at hp; cases hp

theorem utf8_cancel_left : ∀ {as : List Char} {t : Bytes} {cs : List Char}, utf8 as ++ t = utf8 cs → ∃ ds, t = utf8 ds ∧ cs = as ++ ds := by
  intro as
  induction as with
  | nil => intro t cs h; exact ⟨cs, h, rfl⟩
  | cons a as ih =>
    intro t cs h
    cases cs with
    | nil =>
      rw [utf8_cons, utf8_nil, List.append_assoc] at h
      exact absurd (List.append_eq_nil_iff.1 h).1 (encodeRune_ne_nil a)
    | cons c cs =>
      rw [utf8_cons, utf8_cons, List.append_assoc] at h
      have h1 := decodeRune_encodeRune a (utf8 as ++ t)
      rw [h, decodeRune_encodeRune] at h1
      obtain rfl : c = a := (Prod.mk.inj h1).1
      obtain ⟨ds, h2, h3⟩ := ih (List.append_cancel_left h)
      exact ⟨ds, h2, by rw [h3]; rfl⟩

theorem utf8_cancel_blank {t : Bytes} {cs : List Char} (h : t ++ b!" " = utf8 cs) : ∃ ds, t = utf8 ds ∧ cs = ds ++ [' '] := by
  rcases List.eq_nil_or_concat cs with rfl | ⟨ds, d, rfl⟩
  · have := congrArg List.length h
    simp at this
  · rw [List.concat_eq_append] at *
    rw [utf8_append, utf8_cons, utf8_nil, List.append_nil] at h
    have hl := congrArg List.getLast? h
    rw [List.getLast?_append, List.getLast?_append] at hl
    have hm : (0x20 : UInt8) ∈ encodeRune d := by
      cases he : (encodeRune d).getLast? with
      | none => exact absurd (List.getLast?_eq_none_iff.1 he) (encodeRune_ne_nil d)
      | some x =>
        rw [he] at hl
        simp at hl
        rw [hl]
        exact List.mem_of_getLast? he
    by_cases hlt : d.toNat < 0x80
    · rw [Model.PoString.encodeRune_ascii d hlt] at h hm
      rw [List.mem_singleton] at hm
      obtain ⟨h1, -⟩ := List.append_inj' h rfl
      refine ⟨ds, h1, ?_⟩
      have := congrArg UInt8.toNat hm
      simp at this
      have e : d.toNat = 32 := by omega
      rw [← Char.ofNat_toNat d, e]
    · have := Model.PoString.encodeRune_multi d (by omega) _ hm
      simp at this

/-- The text of an error is one line of printable characters exactly if it is not about an item that is not found, or the identifier
of this item is printable. -/
theorem C102_printable_iff (print : Char → Bool) (hp : PrintsAscii print) (r : Report) :
    Printable print (r.text print) ↔ ∀ l t i, r = .notFound l t i → Printable print i := by
  refine ⟨?_, C102_printable_partial print hp r⟩
  rintro ⟨cs, h, hc⟩ l t i rfl
  obtain ⟨as, ha, -⟩ : Printable print (b!"spreak: item of type " ++ quote print t ++ b!" for lang=" ++ quote print l ++ b!" could not be found: ") :=
    printable_append (printable_append (printable_append (printable_append (printable_ascii hp (by decide)) (quote_printable hp _))
      (printable_ascii hp (by decide))) (quote_printable hp _)) (printable_ascii hp (by decide))
  unfold Report.text at h
  simp only [] at h
  rw [ha, List.append_assoc] at h
  obtain ⟨ds, h1, h2⟩ := utf8_cancel_left h
  obtain ⟨es, h3, h4⟩ := utf8_cancel_blank h1
  exact ⟨es, h3, fun c hm => hc c (by rw [h2, h4]; simp [hm])⟩

/-- There are such functions, and identifiers of both kinds. -/
example : ∃ print, PrintsAscii print ∧ Printable print b!"a" ∧ print '\n' = false :=
  ⟨fun c => decide (0x20 ≤ c.toNat ∧ c.toNat < 0x7f), fun c h1 h2 => by simp [h1, h2], ⟨['a'], by decide, by decide⟩, by decide⟩

/-! ## Which lookup failed -/

/-- Two lookups in a PO or MO catalog that fail with the same text: for the same context, and for the same id if
the catalog has the context.  The form, too, if a translation is missing. -/
theorem C102_gettext (print : Char → Bool) (lang : Bytes) (c : GettextCatalog) (ctx id ctx' id' : Bytes) (e e' : LookupErr)
    (r r' : Report) (h : (c.lookup ctx id).2 = some e) (h' : (c.lookup ctx' id').2 = some e')
    (hr : Report.ofLookup lang e = some r) (hr' : Report.ofLookup lang e' = some r') (ht : r.text print = r'.text print) :
    ctx = ctx' ∧ (c.lookupMap.get? ctx ≠ none → id = id') := by
  have := C102_unambiguous print _ _ ht
  subst this
  have key : ∀ {ctx id : Bytes} {e}, (c.lookup ctx id).2 = some e →
      (c.lookupMap.get? ctx = none ∧ e = .missingContext c.domain ctx) ∨
      (c.lookupMap.get? ctx ≠ none ∧ (e = .missingMessageID c.domain ctx id ∨ e = .missingTranslation c.domain ctx id 0)) := by
    intro ctx id e h
    unfold GettextCatalog.lookup GettextCatalog.getMessage at h
    cases hm : c.lookupMap.get? ctx with
    | none => rw [hm] at h; simp only [Option.some.injEq] at h; exact .inl ⟨rfl, h.symm⟩
    | some inner =>
      rw [hm] at h
      refine .inr ⟨by simp, ?_⟩
      simp only at h
      cases hi : inner.get? id with
      | none => rw [hi] at h; simp only [Option.some.injEq] at h; exact .inl h.symm
      | some msg =>
        rw [hi] at h
        simp only at h
        cases ht : msg.get? 0 with
        | none => rw [ht] at h; simp only [Option.some.injEq] at h; exact .inr h.symm
        | some tr =>
          rw [ht] at h
          by_cases hn : tr = []
          · simp only [hn, if_true, Option.some.injEq] at h; exact .inr h.symm
          · simp only [hn, if_false] at h; cases h
  rcases key h with ⟨h1, rfl⟩ | ⟨h1, rfl | rfl⟩ <;> rcases key h' with ⟨h2, rfl⟩ | ⟨h2, rfl | rfl⟩ <;>
    simp only [Report.ofLookup, Option.some.injEq] at hr hr' <;> rw [← hr] at hr' <;> cases hr'
  · exact ⟨rfl, fun h => absurd h1 h⟩
  · exact ⟨rfl, fun _ => rfl⟩
  · exact ⟨rfl, fun _ => rfl⟩

/-- A catalog with one message: the texts for two ids that it does not have differ. -/
example (print : Char → Bool) (c : GettextCatalog) (hc : c.lookupMap = [([], [(b!"a", [(0, b!"A")])])]) (r r' : Report)
    (hr : Report.ofLookup b!"de" (.missingMessageID c.domain [] b!"b") = some r)
    (hr' : Report.ofLookup b!"de" (.missingMessageID c.domain [] b!"c") = some r') : r.text print ≠ r'.text print := by
  intro h
  have := (C102_gettext print b!"de" c [] b!"b" [] b!"c" _ _ r r'
    (by simp [GettextCatalog.lookup, GettextCatalog.getMessage, hc, GoMap.get?])
    (by simp [GettextCatalog.lookup, GettextCatalog.getMessage, hc, GoMap.get?]) hr hr' h).2 (by simp [hc, GoMap.get?])
  revert this; decide

/-- If the context is missing, the text does not say which message was looked up. -/
theorem C102_context_negation (print : Char → Bool) (lang : Bytes) (c : GettextCatalog) (ctx : Bytes)
    (h : c.lookupMap.get? ctx = none) (id id' : Bytes) :
    ∃ e e' r r', (c.lookup ctx id).2 = some e ∧ (c.lookup ctx id').2 = some e' ∧ Report.ofLookup lang e = some r ∧
      Report.ofLookup lang e' = some r' ∧ r.text print = r'.text print := by
  have key : ∀ id, (c.lookup ctx id).2 = some (.missingContext c.domain ctx) := by
    intro id; unfold GettextCatalog.lookup GettextCatalog.getMessage; rw [h]
  exact ⟨_, _, _, _, key id, key id', rfl, rfl, rfl⟩

/-- The same holds for the lookups in a JSON catalog. -/
theorem C102_json (print : Char → Bool) (lang : Bytes) (c : JsonCatalog) (ctx id ctx' id' : Bytes) (e e' : LookupErr)
    (r r' : Report) (h : (c.lookup ctx id).2 = some e) (h' : (c.lookup ctx' id').2 = some e')
    (hr : Report.ofLookup lang e = some r) (hr' : Report.ofLookup lang e' = some r') (ht : r.text print = r'.text print) :
    ctx = ctx' ∧ (c.lookupMap.get? ctx ≠ none → id = id') := by
  have := C102_unambiguous print _ _ ht
  subst this
  have key : ∀ {ctx id : Bytes} {e}, (c.lookup ctx id).2 = some e →
      ∃ k, k = (if ctx ≠ [] then id ++ b!"_" ++ ctx else id) ∧
      ((c.lookupMap.get? ctx = none ∧ e = .missingContext c.domain ctx) ∨
      (c.lookupMap.get? ctx ≠ none ∧ (e = .missingMessageID c.domain ctx k ∨
        e = .missingTranslation c.domain ctx k Model.Catalog.other))) := by
    intro ctx id e h
    refine ⟨_, rfl, ?_⟩
    unfold JsonCatalog.lookup JsonCatalog.getTranslation at h
    generalize (if ctx ≠ [] then id ++ b!"_" ++ ctx else id) = k at h ⊢
    cases hm : c.lookupMap.get? ctx with
    | none => rw [hm] at h; simp only [Option.some.injEq] at h; exact .inl ⟨rfl, h.symm⟩
    | some inner =>
      rw [hm] at h
      refine .inr ⟨by simp, ?_⟩
      simp only at h
      cases hi : inner.get? k with
      | none => rw [hi] at h; simp only [Option.some.injEq] at h; exact .inl h.symm
      | some msg =>
        rw [hi] at h
        simp only at h
        cases ht : msg.tr.get? Model.Catalog.other with
        | none => rw [ht] at h; simp only [Option.some.injEq] at h; exact .inr h.symm
        | some tr =>
          rw [ht] at h
          by_cases hn : tr = []
          · simp only [hn, if_true, Option.some.injEq] at h; exact .inr h.symm
          · simp only [hn, if_false] at h; cases h
  have kinj : ∀ {ctx id id' : Bytes}, (if ctx ≠ [] then id ++ b!"_" ++ ctx else id) = (if ctx ≠ [] then id' ++ b!"_" ++ ctx else id') →
      id = id' := by
    intro ctx id id' h
    split at h
    · exact List.append_cancel_right (List.append_cancel_right h)
    · exact h
  obtain ⟨k, hk, hk1⟩ := key h
  obtain ⟨k', hk', hk2⟩ := key h'
  rcases hk1 with ⟨h1, rfl⟩ | ⟨h1, rfl | rfl⟩ <;> rcases hk2 with ⟨h2, rfl⟩ | ⟨h2, rfl | rfl⟩ <;>
    simp only [Report.ofLookup, Option.some.injEq] at hr hr' <;> rw [← hr] at hr' <;> cases hr'
  · exact ⟨rfl, fun h => absurd h1 h⟩
  · exact ⟨rfl, fun _ => kinj (hk.symm.trans hk')⟩
  · exact ⟨rfl, fun _ => kinj (hk.symm.trans hk')⟩

/-- The same in a JSON catalog with a context. -/
example (print : Char → Bool) (c : JsonCatalog) (m : Model.Catalog.JsonMessage)
    (hc : c.lookupMap = [(b!"x", [(b!"a_x", m)])]) (r r' : Report)
    (hr : Report.ofLookup b!"de" (.missingMessageID c.domain b!"x" b!"b_x") = some r)
    (hr' : Report.ofLookup b!"de" (.missingMessageID c.domain b!"x" b!"c_x") = some r') : r.text print ≠ r'.text print := by
  intro h
  have := (C102_json print b!"de" c b!"x" b!"b" b!"x" b!"c" _ _ r r'
    (by simp [JsonCatalog.lookup, JsonCatalog.getTranslation, hc, GoMap.get?])
    (by simp [JsonCatalog.lookup, JsonCatalog.getTranslation, hc, GoMap.get?]) hr hr' h).2 (by simp [hc, GoMap.get?])
  revert this; decide

/-- In a JSON catalog the id in the text is not the one that was looked up if there is a context. -/
theorem C102_json_id_negation (c : JsonCatalog) (inner : GoMap Bytes Model.Catalog.JsonMessage) (ctx id : Bytes) (hc : ctx ≠ [])
    (h : c.lookupMap.get? ctx = some inner) (hi : inner.get? (id ++ b!"_" ++ ctx) = none) :
    (c.lookup ctx id).2 = some (.missingMessageID c.domain ctx (id ++ b!"_" ++ ctx)) := by
  unfold JsonCatalog.lookup JsonCatalog.getTranslation
  rw [if_pos hc, h]
  simp only [hi]

/-- The text shows ids that have only printable characters, no quotes and no backslashes, as they are. -/
theorem C102_shown (print : Char → Bool) (lang domain ctx : Bytes) (cs : List Char)
    (h : ∀ c ∈ cs, print c = true ∧ c ≠ '"' ∧ c ≠ '\\') :
    ∃ pre, (Report.message lang domain ctx (utf8 cs)).text print = pre ++ b!"msgID=\"" ++ utf8 cs ++ b!"\"" := by
  refine ⟨b!"spreak: msgID not found: lang=" ++ quote print lang ++ b!" " ++ optionalPart print b!"domain" domain ++
      optionalPart print b!"ctx" ctx, ?_⟩
  simp only [Report.text, quote_plain h, List.append_assoc, List.cons_append, List.nil_append]

end Verif.Props.ErrorText
