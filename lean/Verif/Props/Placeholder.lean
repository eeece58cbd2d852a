import Verif.Model.Po.Placeholder
import Verif.Props.PoEncoder
import Verif.Proofs.Go.Digits
/-!
# C83: the placeholder header survives writing and reading
-/
namespace Verif.Props.Placeholder
open Verif.Go Verif.Model.PoString Verif.Spec.PoString Verif.Spec.PoEntry Verif.Spec.PoFile Verif.Spec.Wrap Verif.Spec.PoSort
open Verif.Model.Po hiding Field
open Verif.Proofs.Po Verif.Proofs.Go
open Verif.Props.PoFile (AsciiOk ascii ascii_ok)
open Verif.Props.PoEncoder

/-- A text for a header field: one line of valid UTF-8 without quotes, backslashes and white space at the ends. -/
def Neat (s : Bytes) : Prop := Plain s ∧ trimSpace s = s

theorem neat_chars {s : Bytes} (h : Neat s) : ∃ cs : List Char, s = utf8 cs ∧ (∀ c ∈ cs, c ≠ '"' ∧ c ≠ '\\' ∧ c ≠ '\n') ∧
    (∀ c ∈ cs.getLast?, isSpace c = false) := by
  obtain ⟨⟨cs, rfl, hp⟩, ht⟩ := h
  refine ⟨cs, rfl, hp, fun c hc => ?_⟩
  obtain ⟨ds, rfl⟩ : ∃ ds, cs = ds ++ [c] := by
    rcases List.eq_nil_or_concat cs with rfl | ⟨ds, d, rfl⟩
    · cases hc
    · rw [List.concat_eq_append] at hc ⊢
      rw [List.getLast?_concat] at hc
      cases hc
      exact ⟨ds, rfl⟩
  by_contra hs
  have hs : isSpace c = true := by simpa using hs
  rw [Verif.Go.utf8_append, trimSpace_spaces_right (spaces_utf8 (by intro x hx; rw [List.mem_singleton.1 hx]; exact hs))] at ht
  obtain ⟨a, b, e, _, _⟩ := trimSpace_split (utf8 ds)
  have h1 := congrArg List.length e
  have h2 := congrArg List.length ht
  have h3 := utf8_length_ge [c]
  simp only [List.length_append, List.length_singleton] at h1 h2 h3
  omega

theorem plain_line {s : Bytes} (h : Plain s) : (0x0a : UInt8) ∉ s := by
  obtain ⟨cs, rfl, hp⟩ := h
  exact newline_utf8 fun hm => (hp _ hm).2.2 rfl

theorem plain_valid {s : Bytes} (h : Plain s) : ValidUtf8 s := ⟨h.choose, h.choose_spec.1⟩

theorem valid_append {a b : Bytes} (ha : ValidUtf8 a) (hb : ValidUtf8 b) : ValidUtf8 (a ++ b) := by
  obtain ⟨cs, rfl⟩ := ha
  obtain ⟨ds, rfl⟩ := hb
  exact ⟨cs ++ ds, (Verif.Go.utf8_append cs ds).symm⟩

theorem valid_text {s : Bytes} (h : s = utf8 (runes s)) : ValidUtf8 s := ⟨_, h⟩

theorem neat_text {s : Bytes} (h : (s = utf8 (runes s) ∧ ∀ c ∈ runes s, c ≠ '"' ∧ c ≠ '\\' ∧ c ≠ '\n') ∧ trimSpace s = s) : Neat s :=
  ⟨plain_of h.1, h.2⟩

/-! ## The date -/

/-- The bytes of a date. -/
def DateByte (b : UInt8) : Prop := (48 ≤ b.toNat ∧ b.toNat ≤ 57) ∨ b = 0x2d ∨ b = 0x2b ∨ b = 0x3a ∨ b = 0x20

theorem appendInt_bytes (w : Nat) (n : Int) : ∀ b ∈ appendInt w n, DateByte b := by
  intro b hb
  unfold appendInt at hb
  split at hb
  · rcases List.mem_cons.1 hb with rfl | hb
    · exact .inr (.inl rfl)
    · exact .inl ((natDigits_spec w _).2.1 b hb)
  · exact .inl ((natDigits_spec w _).2.1 b hb)

theorem appendInt_ne (w : Nat) (n : Int) : appendInt w n ≠ [] := by
  unfold appendInt
  split
  · nofun
  · exact (natDigits_spec w _).1

theorem appendInt_head (w : Nat) (n : Int) (t : Bytes) : ∀ b ∈ (appendInt w n ++ t).head?, (48 ≤ b.toNat ∧ b.toNat ≤ 57) ∨ b = 0x2d := by
  intro b hb
  unfold appendInt at hb
  split at hb
  · cases hb; exact .inr rfl
  · have hd := natDigits_spec w n.natAbs
    generalize natDigits w n.natAbs = l at hb hd
    cases l with
    | nil => exact absurd rfl hd.1
    | cons x l => cases hb; exact .inl (hd.2.1 _ List.mem_cons_self)

theorem appendInt_last (w : Nat) (n : Int) (hn : 0 ≤ n) (t : Bytes) : ∀ b ∈ (t ++ appendInt w n).getLast?, 48 ≤ b.toNat ∧ b.toNat ≤ 57 := by
  intro b hb
  unfold appendInt at hb
  rw [if_neg (by omega)] at hb
  have hd := natDigits_spec w n.natAbs
  generalize natDigits w n.natAbs = l at hb hd
  rw [List.getLast?_append_of_ne_nil _ hd.1] at hb
  exact hd.2.1 b (List.mem_of_getLast? hb)

theorem neat_date {s : Bytes} (h : ∀ b ∈ s, DateByte b) (h1 : ∀ b ∈ s.head?, (48 ≤ b.toNat ∧ b.toNat ≤ 57) ∨ b = 0x2d)
    (h2 : ∀ b ∈ s.getLast?, 48 ≤ b.toNat ∧ b.toNat ≤ 57) : Neat s := by
  have hlt : ∀ b ∈ s, b.toNat < 0x80 := by
    intro b hb
    rcases h b hb with h | rfl | rfl | rfl | rfl
    · omega
    all_goals decide
  have e := ascii_utf8 hlt
  refine ⟨⟨_, e.symm, fun c hc => ?_⟩, ?_⟩
  · obtain ⟨b, hb, rfl⟩ := List.mem_map.1 hc
    rcases h b hb with h | rfl | rfl | rfl | rfl
    · have : (Char.ofNat b.toNat).toNat = b.toNat := toNat_ofNat_of_valid (.inl (by omega))
      refine ⟨?_, ?_, ?_⟩ <;>
      · intro hx
        rw [hx] at this
        have h3 : ∀ k : Nat, k = b.toNat → 48 ≤ k ∧ k ≤ 57 := fun k hk => hk ▸ h
        exact absurd (h3 _ this) (by decide)
    all_goals decide
  · rw [← e]
    apply trimSpace_utf8
    · intro c hc
      rw [List.head?_map] at hc
      obtain ⟨b, hb, rfl⟩ := Option.map_eq_some_iff.1 hc
      rcases h1 b hb with h | rfl
      · exact isSpace_digit h.1 h.2
      · decide
    · intro c hc
      rw [List.getLast?_map] at hc
      obtain ⟨b, hb, rfl⟩ := Option.map_eq_some_iff.1 hc
      exact isSpace_digit (h2 b hb).1 (h2 b hb).2

theorem neat_stamp (t : Time) : Neat (formatStamp t) := by
  apply neat_date
  · intro b hb
    unfold formatStamp Verif.Model.Humanize.formatZone at hb
    simp only [List.mem_append] at hb
    have hz : ∀ z : Int, b ∈ (if z < 0 then b!"-" else b!"+") → DateByte b := by
      intro z hz
      split at hz
      · exact .inr (.inl (List.mem_singleton.1 hz))
      · exact .inr (.inr (.inl (List.mem_singleton.1 hz)))
    have hl : ∀ x : UInt8, b ∈ [x] → DateByte x → DateByte b := fun x hx h => List.mem_singleton.1 hx ▸ h
    rcases hb with ((((((((hb | hb) | hb) | hb) | hb) | hb) | hb) | hb) | hb) | ((hb | hb) | hb)
    · exact appendInt_bytes _ _ b hb
    · exact hl _ hb (.inr (.inl rfl))
    · exact appendInt_bytes _ _ b hb
    · exact hl _ hb (.inr (.inl rfl))
    · exact appendInt_bytes _ _ b hb
    · exact hl _ hb (.inr (.inr (.inr (.inr rfl))))
    · exact appendInt_bytes _ _ b hb
    · exact hl _ hb (.inr (.inr (.inr (.inl rfl))))
    · exact appendInt_bytes _ _ b hb
    · exact hz _ hb
    · exact appendInt_bytes _ _ b hb
    · exact appendInt_bytes _ _ b hb
  · unfold formatStamp
    simp only [List.append_assoc]
    exact appendInt_head _ _ _
  · unfold formatStamp Verif.Model.Humanize.formatZone
    simp only [← List.append_assoc]
    exact appendInt_last _ _ (Int.emod_nonneg _ (by decide)) _

/-! ## The comment -/

theorem comment_lines {package holder : Bytes} (hp : Neat package) (hh : Neat holder) (hne : holder ≠ []) :
    ValidUtf8 (placeholderComment package holder) ∧ TidyTranslator (placeholderComment package holder) := by
  refine ⟨?_, .inr ?_⟩
  · unfold placeholderComment
    exact valid_append (valid_append (valid_append (valid_append (valid_text (by decide +kernel)) (plain_valid hh.1))
      (valid_text (by decide +kernel))) (plain_valid hp.1)) (valid_text (by decide +kernel))
  · have e : placeholderComment package holder = b!"SOME DESCRIPTIVE TITLE." ++ 0x0a :: ((b!"Copyright (C) YEAR " ++ holder) ++ 0x0a ::
        ((b!"This file is distributed under the same license as the " ++ package ++ b!" package.") ++ 0x0a ::
          (b!"FIRST AUTHOR <EMAIL@ADDRESS>, YEAR." ++ 0x0a :: []))) := by
      unfold placeholderComment
      have h1 : b!"SOME DESCRIPTIVE TITLE.\nCopyright (C) YEAR " = b!"SOME DESCRIPTIVE TITLE." ++ 0x0a :: b!"Copyright (C) YEAR " := by decide +kernel
      have h2 : b!"\nThis file is distributed under the same license as the " =
        0x0a :: b!"This file is distributed under the same license as the " := by decide +kernel
      have h3 : b!" package.\nFIRST AUTHOR <EMAIL@ADDRESS>, YEAR.\n" = b!" package." ++ 0x0a :: (b!"FIRST AUTHOR <EMAIL@ADDRESS>, YEAR." ++ 0x0a :: []) := by decide +kernel
      rw [h1, h2, h3]
      simp only [List.append_assoc, List.cons_append]
    have n1 : (0x0a : UInt8) ∉ b!"Copyright (C) YEAR " ++ holder := by
      rw [List.mem_append, not_or]; exact ⟨by decide +kernel, plain_line hh.1⟩
    have n2 : (0x0a : UInt8) ∉ b!"This file is distributed under the same license as the " ++ package ++ b!" package." := by
      rw [List.mem_append, not_or, List.mem_append, not_or]
      exact ⟨⟨by decide +kernel, plain_line hp.1⟩, by decide +kernel⟩
    rw [e, Verif.Go.splitByte_line _ _ _ (by decide +kernel), Verif.Go.splitByte_line _ _ _ n1, Verif.Go.splitByte_line _ _ _ n2,
      Verif.Go.splitByte_line _ _ _ (by decide +kernel)]
    refine ⟨(by rw [List.head?_cons]; decide +kernel), fun l hl => ?_⟩
    simp only [splitByte, List.mem_cons, List.not_mem_nil, or_false] at hl
    rcases hl with rfl | rfl | rfl | rfl | rfl
    · decide +kernel
    · obtain ⟨cs, rfl, _, hlast⟩ := neat_chars hh
      have hc : cs ≠ [] := fun e => hne (by rw [e]; rfl)
      have e : b!"Copyright (C) YEAR " ++ utf8 cs = utf8 (runes b!"Copyright (C) YEAR " ++ cs) := by
        rw [Verif.Go.utf8_append]; congr 1
      rw [e]
      apply trimSpace_utf8
      · rw [List.head?_append_of_ne_nil _ (by decide +kernel)]; decide +kernel
      · rw [List.getLast?_append_of_ne_nil _ hc]; exact hlast
    · obtain ⟨⟨cs, rfl, _⟩, _⟩ := hp
      have e : b!"This file is distributed under the same license as the " ++ utf8 cs ++ b!" package." =
          utf8 (runes b!"This file is distributed under the same license as the " ++ cs ++ runes b!" package.") := by
        rw [Verif.Go.utf8_append, Verif.Go.utf8_append]; congr 1
      rw [e]
      apply trimSpace_utf8
      · rw [List.append_assoc, List.head?_append_of_ne_nil _ (by decide +kernel)]; decide +kernel
      · rw [List.getLast?_append_of_ne_nil _ (by decide +kernel)]; decide +kernel
    · decide +kernel
    · decide +kernel

/-! ## C83 -/

/-- The placeholder header is a header that can be written. -/
theorem header_ok (now : Time) {package holder bugs : Bytes} (hp : Neat package) (hh : Neat holder) (hne : holder ≠ []) (hb : Neat bugs) :
    HeaderOk (placeholderHeader now package holder bugs) ∧
      ∀ f, trimSpace ((placeholderHeader now package holder bugs).getField f) = (placeholderHeader now package holder bugs).getField f := by
  have key : ∀ f, Neat ((placeholderHeader now package holder bugs).getField f) := by
    intro f
    cases f
    · exact hp
    · exact hb
    · exact neat_stamp now
    · exact neat_text (s := b!"YEAR-MO-DA HO:MI+ZONE") (by decide +kernel)
    · exact neat_text (s := b!"FULL NAME <EMAIL@ADDRESS>") (by decide +kernel)
    · exact neat_text (s := b!"LANGUAGE <LL@li.org>") (by decide +kernel)
    · exact neat_text (s := []) (by decide +kernel)
    · exact neat_text (s := b!"1.0") (by decide +kernel)
    · exact neat_text (s := b!"text/plain; charset=UTF-8") (by decide +kernel)
    · exact neat_text (s := b!"8bit") (by decide +kernel)
    · exact neat_text (s := []) (by decide +kernel)
    · exact neat_text (s := []) (by decide +kernel)
  refine ⟨⟨?_, fun f => (key f).1, GoMap.WF.nil, nofun⟩, fun f => (key f).2⟩
  rintro c ⟨rfl⟩
  refine ⟨(comment_lines hp hh hne).1, ⟨[], rfl⟩, nofun, fun f hf => ?_⟩
  cases List.mem_singleton.1 hf
  exact wordOf_of (by decide +kernel)

theorem header_eq {h h' : Header} (hf : ∀ f, h'.getField f = h.getField f) (hc : h'.comment = h.comment)
    (hu : h'.unknownFields = h.unknownFields) : h' = h := by
  obtain ⟨c, f1, f2, f3, f4, f5, f6, f7, f8, f9, f10, f11, f12, x⟩ := h
  obtain ⟨c', g1, g2, g3, g4, g5, g6, g7, g8, g9, g10, g11, g12, x'⟩ := h'
  simp only at hc hu
  subst hc hu
  have e1 := hf .projectIDVersion
  have e2 := hf .reportMsgidBugsTo
  have e3 := hf .potCreationDate
  have e4 := hf .poRevisionDate
  have e5 := hf .lastTranslator
  have e6 := hf .languageTeam
  have e7 := hf .language
  have e8 := hf .mimeVersion
  have e9 := hf .contentType
  have e10 := hf .contentTransferEncoding
  have e11 := hf .pluralForms
  have e12 := hf .xGenerator
  simp only [Header.getField] at e1 e2 e3 e4 e5 e6 e7 e8 e9 e10 e11 e12
  subst e1 e2 e3 e4 e5 e6 e7 e8 e9 e10 e11 e12
  rfl

/-- A file with the placeholder header and any messages that can be written: the header is read exactly as it was, and the
messages as for every other header. -/
theorem C83_placeholder_partial {u : Unicode} (hu : AsciiOk u) (enc : Encoder) (h1 : enc.writeHeader = true) (h4 : enc.wrapWidth ≤ 0)
    (sort : Sorter) (hs : Honest sort) (now : Time) {package holder bugs : Bytes} (hp : Neat package) (hh : Neat holder)
    (hne : holder ≠ []) (hb : Neat bugs) (ms : Messages) (hm : FileOk enc ⟨none, ms⟩) :
    ∃ out, enc.encode sort ⟨some (placeholderHeader now package holder bugs), ms⟩ = .ok out ∧
      (Short (splitByte 0x0a out) → ∃ f', parse u false out = .ok f' ∧
        f'.header = some (placeholderHeader now package holder bugs) ∧
        ∀ c i, Option.Rel (fun m m' => ∃ m1, Reordered m m1 ∧ MessageRead enc.wrapWidth enc.writeReferences m1 m')
          ((⟨none, ms⟩ : File).getMessage c i) (f'.getMessage c i)) := by
  obtain ⟨hok, htrim⟩ := header_ok now hp hh hne hb
  have hval : ¬ NoValues (placeholderHeader now package holder bugs) := fun hx => by
    have := hx.1 .mimeVersion
    cases this
  have hf : FileOk enc ⟨some (placeholderHeader now package holder bugs), ms⟩ :=
    ⟨⟨hm.keyed.contexts, hm.keyed.inner, hm.keyed.keys⟩, hm.messages, (by rintro h ⟨rfl⟩; exact hok),
      (by rintro _ h ⟨rfl⟩ hx; exact absurd hx hval), hm.sorting⟩
  obtain ⟨out, ho, hr⟩ := C07_header_partial hu enc sort hs _ hf _ rfl ⟨h1, fun hx => hval hx.2⟩ nofun
  refine ⟨out, ho, fun hsh => ?_⟩
  obtain ⟨f', hd', hf', hhd', hrd, hm'⟩ := hr hsh
  refine ⟨f', hf', ?_, hm'⟩
  rw [hhd']
  congr 1
  apply header_eq
  · intro f; rw [hrd.fields, htrim]
  · obtain ⟨c', e, hcr⟩ := hrd.comment
    rw [e]
    have t1 := hcr.translator.2 (.inl h4) (comment_lines hp hh hne).2
    have t2 := hcr.extracted.2 (.inl h4) (.inl rfl)
    have t3 := hcr.references
    have t4 := hcr.flags
    have t5 := hcr.prevMsgContext
    have t6 := hcr.prevMsgID
    have t3' : c'.references = [] := by rw [t3]; split <;> rfl
    obtain ⟨a1, a2, a3, a4, a5, a6⟩ := c'
    simp only at t1 t2 t3' t4 t5 t6
    subst t1 t2 t3' t4 t5 t6
    rfl
  · have : ∀ k, hd'.unknownFields.get? k = none := fun k => hrd.unknown k
    cases hx : hd'.unknownFields with
    | nil => rfl
    | cons p l =>
      have := this p.1
      rw [hx] at this
      simp [GoMap.get?] at this

/-- The same for `Marshal` and a file without messages. -/
theorem C83_empty_file_partial {u : Unicode} (hu : AsciiOk u) (sort : Sorter) (hs : Honest sort) (now : Time)
    {package holder bugs : Bytes} (hp : Neat package) (hh : Neat holder) (hne : holder ≠ []) (hb : Neat bugs) :
    ∃ out, marshal sort ⟨some (placeholderHeader now package holder bugs), []⟩ = .ok out ∧
      (Short (splitByte 0x0a out) → ∃ f', parse u false out = .ok f' ∧
        f'.header = some (placeholderHeader now package holder bugs) ∧ ∀ c i, f'.getMessage c i = none) := by
  obtain ⟨out, ho, hr⟩ := C83_placeholder_partial hu Encoder.new rfl (by decide) sort hs now hp hh hne hb []
    ⟨⟨GoMap.WF.nil, nofun, nofun⟩, nofun, nofun, nofun, (by rintro cmp ⟨rfl⟩; exact defaultSort_reorders)⟩
  refine ⟨out, ho, fun hsh => ?_⟩
  obtain ⟨f', h1, h2, h3⟩ := hr hsh
  refine ⟨f', h1, h2, fun c i => ?_⟩
  have := h3 c i
  cases hg : f'.getMessage c i with
  | none => rfl
  | some m => rw [hg] at this; cases this

/-- A time for the examples. -/
def exNow : Time := ⟨1700000000, 0, utc⟩

example : Neat b!"spreak" ∧ Neat b!"J\u00f6rg Example" ∧ b!"J\u00f6rg Example" ≠ [] ∧ Neat b!"bugs@example.org" ∧
    ∃ out, marshal insertionSort ⟨some (placeholderHeader exNow b!"spreak" b!"J\u00f6rg Example" b!"bugs@example.org"), []⟩ = .ok out ∧
      Short (splitByte 0x0a out) :=
  ⟨⟨plain_of (by decide +kernel), by decide +kernel⟩, ⟨plain_of (by decide +kernel), by decide +kernel⟩, by decide,
    ⟨plain_of (by decide +kernel), by decide +kernel⟩, ok_of (P := fun out => Short (splitByte 0x0a out)) (by decide +kernel)⟩

/-- Without a copyright holder the space at the end of the line is lost; a backslash at the end of the address swallows the date; with
a line break in the name of the package the file cannot be read. -/
theorem C83_negation :
    ((readBack ⟨some (placeholderHeader exNow b!"p" [] b!"b"), []⟩).map fun f => f.header.map fun h => h.comment.map (·.translator)) ≠
      some (some (some (placeholderComment b!"p" []))) ∧
    ((readBack ⟨some (placeholderHeader exNow b!"p" b!"h" b!"b\\"), []⟩).map fun f => f.header.map (·.potCreationDate)) = some (some []) ∧
    readBack ⟨some (placeholderHeader exNow b!"a\nb" b!"h" b!"b"), []⟩ = none := by
  decide +kernel

end Verif.Props.Placeholder
