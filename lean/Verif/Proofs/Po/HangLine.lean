import Verif.Proofs.Po.HangText
/-!
# When the PO parser does not return: lines
-/
namespace Verif.Proofs.Po
open Verif.Go Verif.Model.PoString Verif.Spec.PoString Verif.Spec.PoEntry Verif.Spec.PoHang
open Verif.Model.Po hiding Field

theorem field_open {kw x : Bytes} (hx : trimSpace x = x) (hq : (0x22 : UInt8) ∉ kw) (hp : hasPrefix x (kw ++ [0x20]) = true)
    (hm : matchPrefix kw (matchBlanks1 matchQuoted) x = true) (hd : Dangling (x.drop (kw.length + 1))) :
    ∃ gap text body, Gap gap ∧ Open text body ∧ x = (kw ++ [0x20]) ++ gap ++ text := by
  obtain ⟨r, rfl, h1⟩ := matchPrefix_spec hm
  obtain ⟨b, a, r, rfl, hb, ha, h2⟩ := matchBlanks1_spec h1
  have hb : b = 0x20 := by
    obtain ⟨s, hs⟩ := List.isPrefixOf_iff_prefix.1 hp
    rw [List.append_assoc] at hs
    exact (List.cons.inj (List.append_cancel_left hs)).1.symm
  subst hb
  have e : kw ++ 0x20 :: (a ++ r) = ((kw ++ [0x20]) ++ a) ++ r := by simp
  rw [e] at hx hd ⊢
  obtain ⟨body, rfl⟩ := quoted_form hx h2
  have hg : Gap a := gap_blank.2 ha
  rw [open_dangling (by simp [hq, gap_no_quote hg]) rfl (by simp)] at hd
  exact ⟨a, _, body, hg, ⟨rfl, hd⟩, by simp⟩

theorem continuation_step {m : Message} {last : Token} {x : Bytes} (ho : OneLine x)
    (h : messageStep m (continuation last) x = .hang) : Token.inMessage last = true ∧ Dangling x := by
  cases last <;> simp only [continuation, messageStep] at h
  all_goals first | cases h | skip
  case msgStrPlural | msgStrPluralLine =>
    split at h
    · cases h
    · exact ⟨rfl, (decodeStep_hang ho _).1 h⟩
  all_goals exact ⟨rfl, (decodeStep_hang ho _).1 h⟩

theorem step_continuation {m : Message} {last : Token} {x : Bytes} (ho : OneLine x) (hl : Token.inMessage last = true)
    (hs : last = .msgStrPlural ∨ last = .msgStrPluralLine → m.str ≠ []) (hd : Dangling x) :
    messageStep m (continuation last) x = .hang := by
  cases last <;> simp only [continuation, messageStep]
  all_goals first | cases hl | skip
  case msgStrPlural | msgStrPluralLine =>
    rw [if_neg (fun e => hs (by simp) (List.length_eq_zero_iff.1 e))]
    exact (decodeStep_hang ho _).2 hd
  all_goals exact (decodeStep_hang ho _).2 hd

theorem line_open {x : Bytes} (hx : trimSpace x = x) (h1 : hasPrefix x b!"\"" = true) (hm : reMsgLine x = true)
    (hd : Dangling x) : ∃ body, Open x body := by
  obtain ⟨a, r, e, ha, h2⟩ := matchBlanks_spec hm
  have : a = [] := by
    cases a with
    | nil => rfl
    | cons c a =>
      obtain ⟨s, hs⟩ := List.isPrefixOf_iff_prefix.1 h1
      rw [e] at hs
      have := ha c List.mem_cons_self
      rw [← (List.cons.inj hs).1] at this
      cases this
  subst this
  rw [List.nil_append] at e
  subst e
  obtain ⟨body, e⟩ := quoted_form (pre := []) (by simpa using hx) h2
  refine ⟨body, e, ?_⟩
  have := open_dangling (pre := []) (k := 0) (by simp) e (by simp)
  exact this.1 (by simpa using hd)

theorem digits_no {ds : Bytes} (h : ∀ d ∈ ds, isDigit d = true) {c : UInt8} (hc : isDigit c = false) : c ∉ ds := by
  intro hm; rw [h c hm] at hc; cases hc

theorem dropWhile_digits' {ds : Bytes} (h : ∀ d ∈ ds, isDigit d = true) {c : UInt8} (hc : isDigit c = false) (s : Bytes) :
    (ds ++ c :: s).dropWhile isDigit = c :: s := by
  induction ds with
  | nil => rw [List.nil_append, List.dropWhile_cons_of_neg (by simp [hc])]
  | cons d ds ih =>
    rw [List.cons_append, List.dropWhile_cons_of_pos (h d List.mem_cons_self)]
    exact ih fun x hx => h x (List.mem_cons_of_mem _ hx)

theorem indices {gap ds rest : Bytes} (hg : Gap gap) (hds : ∀ d ∈ ds, isDigit d = true) :
    indexByte? 0x5b (b!"msgstr" ++ gap ++ b!"[" ++ ds ++ b!"]" ++ rest) = some (6 + gap.length) ∧
    indexByte? 0x5d (b!"msgstr" ++ gap ++ b!"[" ++ ds ++ b!"]" ++ rest) = some (7 + gap.length + ds.length) ∧
    slice (b!"msgstr" ++ gap ++ b!"[" ++ ds ++ b!"]" ++ rest) (7 + gap.length) (7 + gap.length + ds.length) = ds := by
  have gn : ∀ c, isBlankByte c = false → c ∉ gap := by
    intro c hc hm; rw [gap_blank.1 hg c hm] at hc; cases hc
  refine ⟨?_, ?_, ?_⟩
  · have e : b!"msgstr" ++ gap ++ b!"[" ++ ds ++ b!"]" ++ rest = (b!"msgstr" ++ gap) ++ 0x5b :: (ds ++ b!"]" ++ rest) := by simp
    rw [e, indexByte_first]
    · simp; omega
    · simp only [List.mem_append, not_or]; exact ⟨by decide, gn _ (by decide)⟩
  · have e : b!"msgstr" ++ gap ++ b!"[" ++ ds ++ b!"]" ++ rest = (b!"msgstr" ++ gap ++ b!"[" ++ ds) ++ 0x5d :: rest := by simp
    rw [e, indexByte_first]
    · simp; omega
    · simp only [List.mem_append, not_or]
      exact ⟨⟨⟨by decide, gn _ (by decide)⟩, by decide⟩, digits_no hds (by decide)⟩
  · unfold slice
    have e : b!"msgstr" ++ gap ++ b!"[" ++ ds ++ b!"]" ++ rest = (b!"msgstr" ++ gap ++ b!"[") ++ (ds ++ (b!"]" ++ rest)) := by simp
    have l1 : (b!"msgstr" ++ gap ++ b!"[").length = 7 + gap.length := by simp; omega
    rw [e, List.drop_take, ← l1, List.drop_left]
    have : (b!"msgstr" ++ gap ++ b!"[").length + ds.length - (b!"msgstr" ++ gap ++ b!"[").length = ds.length := by omega
    rw [this, List.take_left]

theorem atoi_digits_ok {ds : Bytes} (hne : ds ≠ []) (hds : ∀ d ∈ ds, isDigit d = true) {i : Int} (h : atoi ds = some i) :
    IndexOk ds := by
  refine ⟨hne, hds, ?_⟩
  have e : atoi ds = atoiDigits false ds := by
    unfold atoi
    split
    · exact absurd (hds _ List.mem_cons_self) (by decide)
    · exact absurd (hds _ List.mem_cons_self) (by decide)
    · rfl
  rw [e] at h
  unfold atoiDigits at h
  rw [if_pos ⟨hne, by simpa using hds⟩] at h
  simp only at h
  split at h
  · rename_i hn; cases hn
  · split at h
    · omega
    · cases h

/-- A line on which the parser does not return within a message. -/
theorem scan_hang {last : Token} {x : Bytes} (hx : trimSpace x = x) (ho : OneLine x) {m : Message}
    (h : messageStep m (scanMessage last x) x = .hang) :
    OpenKeyword x ∨ (∃ body, Open x body) ∧ Token.inMessage last = true := by
  unfold scanMessage at h
  split at h
  · rename_i hp
    left
    obtain ⟨gap, text, body, a, b, c⟩ := field_open hx (kw := b!"msgid") (by decide) hp.1 hp.2 ((fromStep_hang ho _).1 h)
    exact .field b!"msgid " gap text body (by simp) a b c
  · split at h
    · left
      split at h
      · rename_i hp
        rcases hp with rfl | hp
        · simp only [messageStep] at h
          have h := (fromStep_hang ho _).1 h
          have hd : ¬ Dangling ((b!"msgstr " ++ b!"\"\"").drop 7) := by
            rw [open_dangling (text := b!"\"\"") (body := []) (by decide) rfl (by decide)]; decide
          exact absurd h hd
        · have h := (fromStep_hang ho _).1 h
          obtain ⟨r, rfl, h1⟩ := matchPrefix_spec hp
          obtain ⟨a, r, rfl, ha, h2⟩ := matchBlanks_spec h1
          rw [← List.append_assoc] at hx h
          obtain ⟨body, rfl⟩ := quoted_form hx h2
          have hg : Gap a := gap_blank.2 ha
          by_cases hl : a = []
          · subst hl
            rw [open_dangling_lost rfl (by simp)] at h
            exact .str [] _ body hg ⟨rfl, h.2⟩ (fun _ => h.1) (by simp)
          · have : 1 ≤ a.length := List.length_pos_iff.2 hl
            rw [open_dangling (by simp only [List.mem_append, not_or]; exact ⟨by decide, gap_no_quote hg⟩) rfl (by simp; omega)] at h
            exact .str a _ body hg ⟨rfl, h⟩ (fun e => absurd e hl) (by simp)
      · split at h
        · rename_i hp
          obtain ⟨r, rfl, h1⟩ := matchPrefix_spec hp
          obtain ⟨a, r, rfl, ha, h2⟩ := matchBlanks_spec h1
          obtain ⟨d, ds, r, rfl, hd, hds, h3⟩ := matchIndex_spec h2
          obtain ⟨b, r, rfl, hb, h4⟩ := matchBlanks_spec h3
          have e : b!"msgstr" ++ (a ++ 0x5b :: d :: (ds ++ 0x5d :: (b ++ r))) =
            (b!"msgstr" ++ a ++ b!"[" ++ (d :: ds) ++ b!"]" ++ b) ++ r := by simp
          rw [e] at hx h ho ⊢
          obtain ⟨body, rfl⟩ := quoted_form hx h4
          have hg : Gap a := gap_blank.2 ha
          have hgb : Gap b := gap_blank.2 hb
          have hdd : ∀ x ∈ d :: ds, isDigit x = true := by
            intro x hx
            rcases List.mem_cons.1 hx with rfl | hx
            · exact hd
            · exact hds x hx
          simp only [messageStep, pluralStep] at h
          have hi := indices (rest := b ++ (b!"\"" ++ body ++ b!"\"")) hg hdd
          have e2 : (b!"msgstr" ++ a ++ b!"[" ++ (d :: ds) ++ b!"]" ++ b) ++ (b!"\"" ++ body ++ b!"\"") =
            b!"msgstr" ++ a ++ b!"[" ++ (d :: ds) ++ b!"]" ++ (b ++ (b!"\"" ++ body ++ b!"\"")) := by simp
          rw [e2, hi.1, hi.2.1] at h
          simp only at h
          rw [if_pos (by omega), show 6 + a.length + 1 = 7 + a.length by omega, hi.2.2] at h
          cases hat : atoi (d :: ds) with
          | none => rw [hat] at h; cases h
          | some i =>
            rw [hat] at h
            simp only at h
            rw [e2] at ho
            have h := (fromStep_hang ho _).1 h
            rw [← e2] at h
            have hix := atoi_digits_ok (by simp) hdd hat
            by_cases hl : a.length + (d :: ds).length + b.length = 1
            · rw [open_dangling_lost rfl (by simp at hl ⊢; omega)] at h
              exact .plural a (d :: ds) b _ body hg hix hgb ⟨rfl, h.2⟩ (fun _ => h.1) rfl
            · rw [open_dangling ?_ rfl (by simp at hl ⊢; omega)] at h
              · exact .plural a (d :: ds) b _ body hg hix hgb ⟨rfl, h⟩ (fun e => absurd e hl) rfl
              · have := digits_no hdd (c := 0x22) (by decide)
                have ga := gap_no_quote hg
                have gb := gap_no_quote hgb
                simp only [List.mem_append, not_or]
                exact ⟨⟨⟨⟨⟨by decide, ga⟩, by decide⟩, this⟩, by decide⟩, gb⟩
        · cases h
    · split at h
      · rename_i hp
        left
        obtain ⟨gap, text, body, a, b, c⟩ := field_open hx (kw := b!"msgid_plural") (by decide) hp.1 hp.2 ((fromStep_hang ho _).1 h)
        exact .field b!"msgid_plural " gap text body (by simp) a b c
      · split at h
        · rename_i hp
          left
          obtain ⟨gap, text, body, a, b, c⟩ := field_open hx (kw := b!"msgctxt") (by decide) hp.1 hp.2 ((fromStep_hang ho _).1 h)
          exact .field b!"msgctxt " gap text body (by simp) a b c
        · split at h
          · rename_i hp
            obtain ⟨h1, h2⟩ := continuation_step ho h
            exact .inr ⟨line_open hx hp.1 hp.2.2 h2, h1⟩
          · cases h

theorem hasPrefix_append (p s : Bytes) : hasPrefix (p ++ s) p = true := List.isPrefixOf_iff_prefix.2 ⟨s, rfl⟩

/-- The parser does not return on a line with a keyword and a text whose closing quote is escaped. -/
theorem openKeyword_scan {x : Bytes} (ho : OneLine x) (h : OpenKeyword x) : x.head? ≠ some 0x23 ∧
    ∃ t, Token.inMessage t = true ∧ t ≠ .msgStrPluralLine ∧ (∀ last, scanMessage last x = t) ∧
      ∀ m, messageStep m t x = .hang := by
  cases h with
  | field kw gap text body hk hg ht e =>
    simp only [List.mem_cons, List.not_mem_nil, or_false] at hk
    have hd : ∀ {k : Nat}, (0x22 : UInt8) ∉ kw → k ≤ kw.length → Dangling (x.drop k) := by
      intro k hq hk
      rw [e, open_dangling (by simp [hq, gap_no_quote hg]) ht.1 (by simp; omega)]
      exact ht.2
    have key : ∀ kw0, kw = kw0 ++ [0x20] → matchPrefix kw0 (matchBlanks1 matchQuoted) x = true := by
      intro kw0 hk
      have : x = kw0 ++ (0x20 :: (gap ++ text)) := by rw [e, hk]; simp
      rw [this, matchPrefix_append, match_keyword hg ht.1 (by decide)]
    have hp : hasPrefix x kw = true := by rw [e, List.append_assoc]; exact hasPrefix_append _ _
    rcases hk with rfl | rfl | rfl
    · have hx : ∃ y, x = b!"msgctxt " ++ y := ⟨gap ++ text, by rw [e]; simp⟩
      refine ⟨by obtain ⟨y, rfl⟩ := hx; simp, .msgContext, rfl, by simp, fun last => ?_, fun m => ?_⟩
      · unfold scanMessage
        have n1 : hasPrefix x b!"msgid " = false := by obtain ⟨y, rfl⟩ := hx; rfl
        have n2 : hasPrefix x b!"msgstr" = false := by obtain ⟨y, rfl⟩ := hx; rfl
        have n3 : hasPrefix x b!"msgid_plural " = false := by obtain ⟨y, rfl⟩ := hx; rfl
        rw [if_neg (by simp [n1]), if_neg (by simp [n2]), if_neg (by simp [n3]), if_pos ⟨hp, key _ rfl⟩]
      · exact (fromStep_hang ho _).2 (hd (by decide) (by decide))
    · have hx : ∃ y, x = b!"msgid " ++ y := ⟨gap ++ text, by rw [e]; simp⟩
      refine ⟨by obtain ⟨y, rfl⟩ := hx; simp, .msgID, rfl, by simp, fun last => ?_, fun m => ?_⟩
      · unfold scanMessage
        rw [if_pos ⟨hp, key _ rfl⟩]
      · exact (fromStep_hang ho _).2 (hd (by decide) (by decide))
    · have hx : ∃ y, x = b!"msgid_plural " ++ y := ⟨gap ++ text, by rw [e]; simp⟩
      refine ⟨by obtain ⟨y, rfl⟩ := hx; simp, .msgIDPlural, rfl, by simp, fun last => ?_, fun m => ?_⟩
      · unfold scanMessage
        have n1 : hasPrefix x b!"msgid " = false := by obtain ⟨y, rfl⟩ := hx; rfl
        have n2 : hasPrefix x b!"msgstr" = false := by obtain ⟨y, rfl⟩ := hx; rfl
        rw [if_neg (by simp [n1]), if_neg (by simp [n2]), if_pos ⟨hp, key _ rfl⟩]
      · exact (fromStep_hang ho _).2 (hd (by decide) (by decide))
  | str gap text body hg ht hl e =>
    have hx : ∃ y, x = b!"msgstr" ++ y := ⟨gap ++ text, by rw [e]; simp⟩
    have hp : hasPrefix x b!"msgstr" = true := by rw [e, List.append_assoc]; exact hasPrefix_append _ _
    refine ⟨by obtain ⟨y, rfl⟩ := hx; simp, .msgStr, rfl, by simp, fun last => ?_, fun m => ?_⟩
    · unfold scanMessage
      have n1 : hasPrefix x b!"msgid " = false := by obtain ⟨y, rfl⟩ := hx; rfl
      have hm : reMsgStr x = true := by
        unfold reMsgStr
        rw [e, List.append_assoc, matchPrefix_append, match_gap hg ht.1]
      rw [if_neg (by simp [n1]), if_pos hp, if_pos (.inr hm)]
    · refine (fromStep_hang ho _).2 ?_
      by_cases hgl : gap = []
      · subst hgl
        rw [e, open_dangling_lost ht.1 (by simp)]
        exact ⟨hl rfl, ht.2⟩
      · have : 1 ≤ gap.length := List.length_pos_iff.2 hgl
        rw [e, open_dangling (by simp only [List.mem_append, not_or]; exact ⟨by decide, gap_no_quote hg⟩) ht.1 (by simp; omega)]
        exact ht.2
  | plural gap ds gap' text body hg hi hg' ht hl e =>
    have hx : ∃ y, x = b!"msgstr" ++ y := ⟨gap ++ (b!"[" ++ (ds ++ (b!"]" ++ (gap' ++ text)))), by rw [e]; simp⟩
    have hp : hasPrefix x b!"msgstr" = true := by obtain ⟨y, rfl⟩ := hx; exact hasPrefix_append _ _
    have e2 : x = b!"msgstr" ++ gap ++ b!"[" ++ ds ++ b!"]" ++ (gap' ++ text) := by rw [e]; simp
    refine ⟨by obtain ⟨y, rfl⟩ := hx; simp, .msgStrPlural, rfl, by simp, fun last => ?_, fun m => ?_⟩
    · unfold scanMessage
      have n1 : hasPrefix x b!"msgid " = false := by obtain ⟨y, rfl⟩ := hx; rfl
      have e3 : x = b!"msgstr" ++ (gap ++ 0x5b :: (ds ++ 0x5d :: (gap' ++ text))) := by rw [e]; simp
      have n2 : ¬ (x = b!"msgstr \"\"" ∨ reMsgStr x = true) := by
        rintro (h | h)
        · have : (0x5b : UInt8) ∈ x := by rw [e3]; simp
          rw [h] at this
          revert this; decide
        · unfold reMsgStr at h
          rw [e3, matchPrefix_append] at h
          unfold matchBlanks at h
          rw [dropWhile_gap hg (by decide)] at h
          cases h
      have hm : reMsgStrPlural x = true := by
        unfold reMsgStrPlural
        rw [e3, matchPrefix_append]
        unfold matchBlanks
        rw [dropWhile_gap hg (by decide)]
        match ds, hi with
        | d :: ds, hi =>
          rw [List.cons_append]
          simp only [matchIndex]
          have hds : ∀ x ∈ ds, isDigit x = true := fun x hx => hi.2.1 x (List.mem_cons_of_mem _ hx)
          have : (ds ++ 0x5d :: (gap' ++ text)).dropWhile isDigit = 0x5d :: (gap' ++ text) := by
            exact dropWhile_digits' hds (by decide) _
          rw [this, hi.2.1 d List.mem_cons_self]
          exact match_gap hg' ht.1
      rw [if_neg (by simp [n1]), if_pos hp, if_neg n2, if_pos hm]
    · simp only [messageStep, pluralStep]
      have hix := indices (rest := gap' ++ text) hg hi.2.1
      rw [← e2] at hix
      rw [hix.1, hix.2.1]
      simp only
      rw [if_pos (by omega), show 6 + gap.length + 1 = 7 + gap.length by omega, hix.2.2, atoi_index hi]
      simp only
      refine (fromStep_hang ho _).2 ?_
      by_cases hll : gap.length + ds.length + gap'.length = 1
      · rw [e, open_dangling_lost ht.1 (by simp at hll ⊢; omega)]
        exact ⟨hl hll, ht.2⟩
      · have hds : 1 ≤ ds.length := List.length_pos_iff.2 hi.1
        rw [e, open_dangling ?_ ht.1 (by simp at hll ⊢; omega)]
        · exact ht.2
        · simp only [List.mem_append, not_or]
          exact ⟨⟨⟨⟨⟨by decide, gap_no_quote hg⟩, by decide⟩, digits_no hi.2.1 (by decide)⟩, by decide⟩, gap_no_quote hg'⟩

/-- The token of a line with nothing but a quoted text. -/
theorem open_scan {x body : Bytes} (h : x = b!"\"" ++ body ++ b!"\"") (last : Token) :
    x.head? ≠ some 0x23 ∧ scanMessage last x = continuation last := by
  subst h
  have hl : (b!"\"" ++ body ++ b!"\"").getLast? = some 0x22 := List.getLast?_concat
  have hm : reMsgLine (b!"\"" ++ body ++ b!"\"") = true := match_gap (gap := []) (by simp [Gap]) rfl
  refine ⟨by simp, ?_⟩
  unfold scanMessage
  rw [if_neg (by rw [List.append_assoc]; exact fun h => absurd h.1 (by simp [hasPrefix])),
    if_neg (by rw [List.append_assoc]; simp [hasPrefix]),
    if_neg (by rw [List.append_assoc]; exact fun h => absurd h.1 (by simp [hasPrefix])),
    if_neg (by rw [List.append_assoc]; exact fun h => absurd h.1 (by simp [hasPrefix])),
    if_pos ⟨by rw [List.append_assoc]; exact hasPrefix_append _ _, hl, hm⟩]

/-! ## Comments -/

/-- The tokens of lines with a previous text. -/
def Token.isPrev (t : Token) : Bool := prevContinuation t ≠ .commentPrevUnknown

/-- A comment line on which the parser does not return within a comment. -/
theorem scanComment_hang {ignore : Bool} {last t : Token} {x : Bytes} (hx : trimSpace x = x) (ho : OneLine x)
    (h : scanComment ignore last x = some t) (ht : t.isComment = true) {c : Comment} (hs : commentStep c t x = .hang) :
    ignore = false ∧ (OpenPrevious x ∨
      (∃ gap text body, gap ≠ [] ∧ Gap gap ∧ Open text body ∧ x = b!"#|" ++ gap ++ text) ∧ Token.isPrev last = true) := by
  have kwx : ∀ {α} {k : Nat} {g : Bytes → α}, ((from? k x).bind fun l => Res.ok (g l)) ≠ .hang := by
    intro α k g h
    unfold from? at h
    split at h <;> cases h
  match x, h with
  | [], h => cases h; (simp only [commentStep] at hs; exact absurd hs kwx)
  | [_], h =>
    simp only [scanComment] at h
    split at h
    · cases h
    · cases h; (simp only [commentStep] at hs; exact absurd hs kwx)
  | a :: b :: rest, h =>
    simp only [scanComment] at h
    split at h
    · cases h
    · split at h
      · cases h
      · rename_i hi
        cases h
        unfold commentToken at hs ht
        split at hs
        · (simp only [commentStep] at hs; exact absurd hs kwx)
        · rename_i n1
          rw [if_neg n1] at ht
          split at hs
          · (simp only [commentStep] at hs; exact absurd hs kwx)
          · rename_i n2
            rw [if_neg n2] at ht
            split at hs
            · (simp only [commentStep] at hs; exact absurd hs kwx)
            · rename_i n3
              rw [if_neg n3] at ht
              have hig : ignore = false := by
                cases ignore with
                | false => rfl
                | true => exact absurd ⟨rfl, n3⟩ hi
              refine ⟨hig, ?_⟩
              split at hs
              · rename_i n4
                rw [if_pos n4] at ht
                have prev : ∀ {kw : Bytes} {k : Nat}, kw ∈ [b!"msgctxt", b!"msgid"] →
                    matchPrefix b!"#|" (matchBlanks1 (matchPrefix kw fun _ => true)) (a :: b :: rest) = true →
                    k = 3 + kw.length → Dangling ((a :: b :: rest).drop k) → OpenPrevious (a :: b :: rest) := by
                  intro kw k hkw hm hk hd
                  obtain ⟨r, e, h7⟩ := matchPrefix_spec hm
                  obtain ⟨y, g, r, rfl, hy, hg, h8⟩ := matchBlanks1_spec h7
                  obtain ⟨r, rfl, _⟩ := matchPrefix_spec h8
                  have hG : Gap (y :: g) := gap_blank.2 (by
                    intro z hz
                    rcases List.mem_cons.1 hz with rfl | hz
                    · exact hy
                    · exact hg z hz)
                  have e2 : b!"#|" ++ (y :: (g ++ (kw ++ r))) = (b!"#|" ++ (y :: g) ++ kw) ++ r := by simp
                  refine ⟨y :: g, kw, r, hkw, by simp, hG, ?_, by rw [e, e2]⟩
                  rw [e, e2, List.drop_append_of_le_length (by simp; omega)] at hd
                  have hq : (0x22 : UInt8) ∉ b!"#|" ++ (y :: g) ++ kw := by
                    have : (0x22 : UInt8) ∉ kw := by
                      simp only [List.mem_cons, List.not_mem_nil, or_false] at hkw
                      rcases hkw with rfl | rfl <;> decide
                    have hgq := gap_no_quote hG
                    rw [List.mem_append, List.mem_append]
                    rintro ((h | h) | h)
                    · revert h; decide
                    · exact hgq h
                    · exact this h
                  exact dangling_strip (a := (b!"#|" ++ (y :: g) ++ kw).drop k) (b := []) (fun h => hq (List.mem_of_mem_drop h))
                    (by simp) (by rw [List.append_nil]; exact hd)
                split at hs
                · rename_i hp
                  exact .inl (prev (by simp) hp rfl ((prevStep_hang ho _ _).1 hs))
                · split at hs
                  · rename_i hp
                    exact .inl (prev (by simp) hp rfl ((prevStep_hang ho _ _).1 hs))
                  · rename_i m1 m2
                    rw [if_neg m1, if_neg m2] at ht
                    split at hs
                    · rename_i hp
                      rw [if_pos hp] at ht
                      right
                      have hprev : Token.isPrev last = true ∧ Dangling ((a :: b :: rest).drop 2) := by
                        cases last <;> simp only [prevContinuation, commentStep] at hs ht
                        all_goals first | (cases ht; done) | exact ⟨rfl, (trimStep_hang ho _).1 hs⟩
                      obtain ⟨h1, h2⟩ := hprev
                      refine ⟨?_, h1⟩
                      obtain ⟨r, e, h7⟩ := matchPrefix_spec hp
                      obtain ⟨y, g, r, rfl, hy, hg, h8⟩ := matchBlanks1_spec h7
                      have hG : Gap (y :: g) := gap_blank.2 (by
                        intro z hz
                        rcases List.mem_cons.1 hz with rfl | hz
                        · exact hy
                        · exact hg z hz)
                      have e2 : b!"#|" ++ (y :: (g ++ r)) = (b!"#|" ++ (y :: g)) ++ r := by simp
                      rw [e2] at e
                      rw [e] at hx h2
                      obtain ⟨body, rfl⟩ := quoted_form hx h8
                      rw [open_dangling (by rw [List.mem_append, not_or]; exact ⟨by decide, gap_no_quote hG⟩) rfl (by simp)] at h2
                      exact ⟨y :: g, _, body, by simp, hG, ⟨rfl, h2⟩, e⟩
                    · rename_i hp
                      rw [if_neg hp] at ht
                      cases ht
              · (simp only [commentStep] at hs; exact absurd hs kwx)

theorem openPrevious_scan {x : Bytes} (ho : OneLine x) (h : OpenPrevious x) :
    x.head? = some 0x23 ∧ ∃ t : Token, t.isComment = true ∧ (∀ last, scanComment false last x = some t) ∧
      ∀ c, commentStep c t x = .hang := by
  obtain ⟨gap, kw, rest, hkw, hne, hg, hd, e⟩ := h
  match gap, hne with
  | g :: gap, _ =>
    have hg1 : isBlankByte g = true := gap_blank.1 hg g List.mem_cons_self
    have hg2 : Gap gap := fun b hb => hg b (List.mem_cons_of_mem _ hb)
    have ex : x = 0x23 :: 0x7c :: (g :: gap ++ kw ++ rest) := by rw [e]; simp
    have hm : ∀ {c : UInt8} {kw' : Bytes}, kw = c :: kw' → isBlankByte c = false → ∀ p : Bytes,
        matchPrefix b!"#|" (matchBlanks1 (matchPrefix p fun _ => true)) x = p.isPrefixOf (kw ++ rest) := by
      intro c kw' hc hb p
      have : x = b!"#|" ++ (g :: (gap ++ (kw ++ rest))) := by rw [e]; simp
      rw [this, matchPrefix_append]
      simp only [matchBlanks1, hg1, Bool.true_and]
      have : (gap ++ (kw ++ rest)).dropWhile isBlankByte = kw ++ rest := by
        rw [hc, List.cons_append]; exact dropWhile_gap hg2 hb _
      rw [this]
      simp [matchPrefix]
    have hdd : ∀ k, k ≤ 3 + kw.length → (0x22 : UInt8) ∉ kw → Dangling (x.drop k) := by
      intro k hk hq
      have : x = (b!"#|" ++ (g :: gap) ++ kw) ++ rest := by rw [e]
      rw [this, List.drop_append_of_le_length (by simp; omega)]
      have := dangling_infix hd ((b!"#|" ++ (g :: gap) ++ kw).drop k) (b := []) (by simp)
      rwa [List.append_nil] at this
    refine ⟨by rw [ex]; rfl, ?_⟩
    have hscan : ∀ last, scanComment false last x = some (commentToken last 0x7c x) := by
      intro last
      rw [ex]
      simp [scanComment]
    have hct : ∀ last, commentToken last 0x7c x = if rePrevMsgContextComments x then .commentPrevContext
        else if rePrevMsgIDComments x then .commentPrevMsgID
        else if rePrevStringLineComments x then prevContinuation last else .failure := fun last => rfl
    simp only [List.mem_cons, List.not_mem_nil, or_false] at hkw
    rcases hkw with rfl | rfl
    · refine ⟨.commentPrevContext, rfl, fun last => ?_, fun c => (prevStep_hang ho _ _).2 (hdd _ (by decide) (by decide))⟩
      have : rePrevMsgContextComments x = true := by
        unfold rePrevMsgContextComments
        rw [hm rfl (by decide)]; rfl
      rw [hscan, hct, if_pos this]
    · refine ⟨.commentPrevMsgID, rfl, fun last => ?_, fun c => (prevStep_hang ho _ _).2 (hdd _ (by decide) (by decide))⟩
      have h1 : rePrevMsgContextComments x = false := by
        unfold rePrevMsgContextComments
        rw [hm rfl (by decide)]; rfl
      have h2 : rePrevMsgIDComments x = true := by
        unfold rePrevMsgIDComments
        rw [hm rfl (by decide)]; rfl
      rw [hscan, hct, if_neg (by simp [h1]), if_pos h2]

theorem prevLine_scan {x gap text body : Bytes} (ho : OneLine x) (hne : gap ≠ []) (hg : Gap gap) (ht : Open text body)
    (e : x = b!"#|" ++ gap ++ text) {last : Token} (hl : Token.isPrev last = true) :
    x.head? = some 0x23 ∧ ∃ t : Token, t.isComment = true ∧ scanComment false last x = some t ∧
      ∀ c, commentStep c t x = .hang := by
  match gap, hne with
  | g :: gap, _ =>
    have hg1 : isBlankByte g = true := gap_blank.1 hg g List.mem_cons_self
    have hg2 : Gap gap := fun b hb => hg b (List.mem_cons_of_mem _ hb)
    have ex : x = 0x23 :: 0x7c :: (g :: gap ++ text) := by rw [e]; simp
    have e3 : x = b!"#|" ++ (g :: (gap ++ text)) := by rw [e]; simp
    have hdw : (gap ++ text).dropWhile isBlankByte = text := by rw [ht.1]; exact dropWhile_gap hg2 (by decide) _
    have hm : ∀ {c : UInt8} {kw' : Bytes}, c ≠ 0x22 →
        matchPrefix b!"#|" (matchBlanks1 (matchPrefix (c :: kw') fun _ => true)) x = false := by
      intro c kw' hc
      rw [e3, matchPrefix_append]
      simp only [matchBlanks1]
      rw [hdw, ht.1]
      simp [matchPrefix, List.isPrefixOf, hc]
    have hm2 : rePrevStringLineComments x = true := by
      unfold rePrevStringLineComments
      rw [e3, matchPrefix_append, match_keyword hg2 ht.1 hg1]
    have hd : Dangling (x.drop 2) := by
      rw [e, open_dangling (by rw [List.mem_append, not_or]; exact ⟨by decide, gap_no_quote hg⟩) ht.1 (by simp)]
      exact ht.2
    have hscan : scanComment false last x = some (commentToken last 0x7c x) := by
      rw [ex]
      simp [scanComment]
    have hct : commentToken last 0x7c x = if rePrevMsgContextComments x then .commentPrevContext
        else if rePrevMsgIDComments x then .commentPrevMsgID
        else if rePrevStringLineComments x then prevContinuation last else .failure := rfl
    have h1 : rePrevMsgContextComments x = false := hm (by decide)
    have h2 : rePrevMsgIDComments x = false := hm (by decide)
    rw [if_neg (by simp [h1]), if_neg (by simp [h2]), if_pos hm2] at hct
    refine ⟨by rw [ex]; rfl, prevContinuation last, ?_, by rw [hscan, hct], fun c => ?_⟩
    · cases last <;> first | rfl | cases hl
    · cases last <;> simp only [prevContinuation, commentStep] <;> first | exact (trimStep_hang ho _).2 hd | cases hl

end Verif.Proofs.Po
