import Verif.Proofs.Po.Hang
/-!
# When the PO parser does not return: texts
-/
namespace Verif.Proofs.Po
open Verif.Go Verif.Model.PoString Verif.Spec.PoString Verif.Spec.PoEntry Verif.Spec.PoHang
open Verif.Model.Po hiding Field

theorem split_first {q : UInt8} {a b a' b' : Bytes} (h : a ++ q :: b = a' ++ q :: b') (ha : q ∉ a) (ha' : q ∉ a') :
    a = a' ∧ b = b' := by
  induction a generalizing a' with
  | nil =>
    cases a' with
    | nil => exact ⟨rfl, (List.cons.inj h).2⟩
    | cons x a' => rw [List.nil_append, List.cons_append] at h; exact absurd (by rw [(List.cons.inj h).1]; simp) ha'
  | cons y a ih =>
    cases a' with
    | nil => rw [List.nil_append, List.cons_append] at h; exact absurd (by rw [(List.cons.inj h).1]; simp) ha
    | cons x a' =>
      rw [List.cons_append, List.cons_append] at h
      obtain ⟨e0, h1⟩ := List.cons.inj h
      subst e0
      obtain ⟨rfl, e⟩ := ih h1 (fun m => ha (List.mem_cons_of_mem _ m)) (fun m => ha' (List.mem_cons_of_mem _ m))
      exact ⟨rfl, e⟩

theorem split_last {q : UInt8} {a b a' b' : Bytes} (h : a ++ q :: b = a' ++ q :: b') (hb : q ∉ b) (hb' : q ∉ b') :
    a = a' ∧ b = b' := by
  have h := congrArg List.reverse h
  simp only [List.reverse_append, List.reverse_cons, List.append_assoc, List.singleton_append] at h
  obtain ⟨h1, h2⟩ := split_first h (by simpa using hb) (by simpa using hb')
  exact ⟨by simpa using congrArg List.reverse h2, by simpa using congrArg List.reverse h1⟩

theorem first_of_mem {q : UInt8} {s : Bytes} (h : q ∈ s) : ∃ a b, s = a ++ q :: b ∧ q ∉ a := by
  induction s with
  | nil => cases h
  | cons x s ih =>
    by_cases e : q = x
    · exact ⟨[], s, by rw [e]; rfl, by simp⟩
    · obtain ⟨a, b, rfl, ha⟩ := ih ((List.mem_cons.1 h).resolve_left e)
      exact ⟨x :: a, b, rfl, by simp [e, ha]⟩

theorem last_of_mem {q : UInt8} {s : Bytes} (h : q ∈ s) : ∃ a b, s = a ++ q :: b ∧ q ∉ b := by
  obtain ⟨a, b, e, ha⟩ := first_of_mem (s := s.reverse) (by simpa using h)
  refine ⟨b.reverse, a.reverse, ?_, by simpa using ha⟩
  have := congrArg List.reverse e
  simpa using this

/-- The first and the last quote of a text are unique. -/
theorem dangling_canon {pre body post : Bytes} (h1 : (0x22 : UInt8) ∉ pre) (h2 : (0x22 : UInt8) ∉ post) :
    Dangling (pre ++ [0x22] ++ body ++ [0x22] ++ post) ↔ trailingBackslashes body % 2 = 1 := by
  constructor
  · rintro ⟨p, b, r, e, a1, a2, a3⟩
    simp only [List.append_assoc, List.singleton_append] at e
    obtain ⟨_, e⟩ := split_first e h1 a1
    obtain ⟨rfl, _⟩ := split_last e h2 a2
    exact a3
  · intro h; exact ⟨pre, body, post, rfl, h1, h2, h⟩

theorem dangling_strip {a b s : Bytes} (ha : (0x22 : UInt8) ∉ a) (hb : (0x22 : UInt8) ∉ b) (h : Dangling (a ++ s ++ b)) :
    Dangling s := by
  have hs : ∃ p q r, s = p ++ [0x22] ++ q ++ [0x22] ++ r ∧ (0x22 : UInt8) ∉ p ∧ (0x22 : UInt8) ∉ r := by
    obtain ⟨pre, body, post, e, h1, h2, _⟩ := h
    have hm : (0x22 : UInt8) ∈ s := by
      have : (0x22 : UInt8) ∈ a ++ s ++ b := by rw [e]; simp
      simp only [List.mem_append] at this
      exact (this.resolve_right hb).resolve_left ha
    obtain ⟨p, t, rfl, hp⟩ := first_of_mem hm
    have e' : (a ++ p) ++ 0x22 :: (t ++ b) = pre ++ 0x22 :: (body ++ [0x22] ++ post) := by
      simpa [List.append_assoc] using e
    obtain ⟨_, e2⟩ := split_first e' (by simp [ha, hp]) h1
    have hm2 : (0x22 : UInt8) ∈ t := by
      have : (0x22 : UInt8) ∈ t ++ b := by rw [e2]; simp
      exact (List.mem_append.1 this).resolve_right hb
    obtain ⟨q, r, rfl, hr⟩ := last_of_mem hm2
    exact ⟨p, q, r, by simp, hp, hr⟩
  obtain ⟨p, q, r, rfl, hp, hr⟩ := hs
  have e : a ++ (p ++ [0x22] ++ q ++ [0x22] ++ r) ++ b = (a ++ p) ++ [0x22] ++ q ++ [0x22] ++ (r ++ b) := by simp
  rw [e, dangling_canon (by simp [ha, hp]) (by simp [hr, hb])] at h
  exact (dangling_canon hp hr).2 h

theorem dangling_trim_iff {l : Bytes} : Dangling (trimSpace l) ↔ Dangling l := by
  refine ⟨dangling_trim, fun h => ?_⟩
  obtain ⟨a, b, e, ha, hb⟩ := trimSpace_split l
  rw [e] at h
  exact dangling_strip (spaces_no_quote ha) (spaces_no_quote hb) h

theorem dangling_tail {body : Bytes} : Dangling (body ++ [0x22]) ↔ 0x22 ∈ body ∧ trailingBackslashes body % 2 = 1 := by
  by_cases hm : (0x22 : UInt8) ∈ body
  · obtain ⟨a, b, rfl, ha⟩ := first_of_mem hm
    have e : a ++ 0x22 :: b ++ [0x22] = a ++ [0x22] ++ b ++ [0x22] ++ [] := by simp
    have e2 : a ++ 0x22 :: b = a ++ [0x22] ++ b := by simp
    rw [e, dangling_canon ha (by simp), e2, trailing_append]
    simp
  · constructor
    · rintro ⟨pre, b, post, e, h1, h2, _⟩
      exfalso
      have e' : body ++ 0x22 :: [] = (pre ++ [0x22] ++ b) ++ 0x22 :: post := by simpa using e
      obtain ⟨rfl, _⟩ := split_last e' (by simp) h2
      exact hm (by simp)
    · rintro ⟨h, _⟩; exact absurd h hm

theorem not_dangling_nil : ¬ Dangling [] := by
  rintro ⟨_, _, _, e, _⟩
  simp at e

theorem decode_hang_iff {l : Bytes} (ho : OneLine l) : decode l = .hang ↔ Dangling l := by
  refine ⟨decode_hang_dangling ho, fun h => ?_⟩
  rw [decode_hang]
  exact (Verif.Props.PoString.C03_hangs_iff l).2 ⟨l, ⟨ho, [], [], by simp, .inl rfl, .inl rfl⟩, h⟩

theorem decodeStep_hang {α : Type} {l : Bytes} (ho : OneLine l) (g : Bytes → α) :
    ((decode l).bind fun r => Res.ok (g r)) = .hang ↔ Dangling l := by
  rw [← decode_hang_iff ho, bind_eq_hang]
  constructor
  · rintro (h | ⟨_, _, h⟩)
    · exact h
    · cases h
  · exact .inl

theorem fromStep_hang {α : Type} {k : Nat} {l : Bytes} (ho : OneLine l) (g : Bytes → α) :
    ((from? k l).bind fun l => (decode l).bind fun r => Res.ok (g r)) = .hang ↔ Dangling (l.drop k) := by
  unfold from?
  split
  · exact decodeStep_hang (oneLine_drop ho k) g
  · rename_i h
    rw [List.drop_eq_nil_of_le (by omega)]
    exact ⟨nofun, fun h => absurd h not_dangling_nil⟩

theorem trimStep_hang {α : Type} {k : Nat} {l : Bytes} (ho : OneLine l) (g : Bytes → α) :
    ((from? k l).bind fun l => (decode (trimSpace l)).bind fun r => Res.ok (g r)) = .hang ↔ Dangling (l.drop k) := by
  unfold from?
  split
  · exact (decodeStep_hang (oneLine_trim (oneLine_drop ho k)) g).trans dangling_trim_iff
  · rename_i h
    rw [List.drop_eq_nil_of_le (by omega)]
    exact ⟨nofun, fun h => absurd h not_dangling_nil⟩

theorem prevStep_hang {α : Type} {k : Nat} {l : Bytes} (ho : OneLine l) (old : Bytes) (g : Bytes → α) :
    ((from? k l).bind fun l => (decodePrev old l).bind fun r => Res.ok (g r)) = .hang ↔ Dangling (l.drop k) := by
  unfold from?
  split
  · change ((decodePrev old (l.drop k)).bind fun r => Res.ok (g r)) = .hang ↔ _
    unfold decodePrev
    split
    · rename_i h
      rw [← dangling_trim_iff, h]
      exact ⟨nofun, fun h => absurd h not_dangling_nil⟩
    · rw [bind_eq_hang, decodeStep_hang (oneLine_trim (oneLine_drop ho k)), dangling_trim_iff]
      exact ⟨fun h => h.resolve_right (by rintro ⟨_, _, h⟩; cases h), .inl⟩
  · rename_i h
    rw [List.drop_eq_nil_of_le (by omega)]
    exact ⟨nofun, fun h => absurd h not_dangling_nil⟩

/-! ## Quoted texts behind a keyword -/

theorem open_dangling {pre text body : Bytes} (hp : (0x22 : UInt8) ∉ pre) (ht : text = b!"\"" ++ body ++ b!"\"") {k : Nat}
    (hk : k ≤ pre.length) : Dangling ((pre ++ text).drop k) ↔ trailingBackslashes body % 2 = 1 := by
  rw [List.drop_append_of_le_length hk, ht]
  have := dangling_canon (pre := pre.drop k) (body := body) (post := []) (fun h => hp (List.mem_of_mem_drop h)) (by simp)
  simpa using this

theorem open_dangling_lost {pre text body : Bytes} (ht : text = b!"\"" ++ body ++ b!"\"") {k : Nat}
    (hk : k = pre.length + 1) : Dangling ((pre ++ text).drop k) ↔ 0x22 ∈ body ∧ trailingBackslashes body % 2 = 1 := by
  have : (pre ++ text).drop k = body ++ [0x22] := by
    rw [ht, hk, ← List.drop_drop, List.drop_left]; rfl
  rw [this, dangling_tail]

theorem quoted_form {pre r : Bytes} (hx : trimSpace (pre ++ r) = pre ++ r) (h : matchQuoted r = true) :
    ∃ body, r = b!"\"" ++ body ++ b!"\"" := by
  have hl := endsQuote_of_match hx h
  obtain ⟨h2, _⟩ := matchQuoted_len h
  match r, h, hl, h2 with
  | c :: t, h, hl, h2 =>
    have hc : c = 0x22 := by
      by_cases e : c = 0x22
      · exact e
      · exfalso
        simp only [matchQuoted] at h
        split at h
        · rename_i e'; exact e (List.cons.inj e').1
        · cases h
    subst hc
    have ht : t ≠ [] := by rintro rfl; simp at h2
    have : (0x22 :: t).getLast? = some 0x22 := by
      rw [List.getLast?_append] at hl
      rw [List.getLast?_cons] at hl ⊢
      exact hl
    rw [List.getLast?_cons] at this
    cases hg : t.getLast? with
    | none => exact absurd (List.getLast?_eq_none_iff.1 hg) ht
    | some b =>
      rw [hg] at this
      obtain ⟨ys, rfl⟩ := List.getLast?_eq_some_iff.1 hg
      cases this
      exact ⟨ys, by simp⟩

theorem matchQuoted_form {body : Bytes} : matchQuoted (b!"\"" ++ body ++ b!"\"") = true := by
  simp only [List.cons_append, List.nil_append, matchQuoted]
  rw [List.reverse_append]
  rfl

theorem gap_blank {s : Bytes} : Gap s ↔ ∀ b ∈ s, isBlankByte b = true := by
  unfold Gap
  refine forall_congr' fun b => imp_congr_right fun _ => ?_
  simp only [List.mem_cons, List.not_mem_nil, or_false, isBlankByte, Bool.or_eq_true, decide_eq_true_eq]
  constructor
  · rintro (h | h | h | h | h) <;> simp [h]
  · rintro ((((h | h) | h) | h) | h) <;> simp [h]

theorem gap_no_quote {s : Bytes} (h : Gap s) : (0x22 : UInt8) ∉ s := fun hm => by
  have := h _ hm; revert this; decide

theorem gap_no_bracket {s : Bytes} (h : Gap s) : (0x5b : UInt8) ∉ s := fun hm => by
  have := h _ hm; revert this; decide

theorem dropWhile_gap {gap : Bytes} (h : Gap gap) {x : UInt8} (hx : isBlankByte x = false) (s : Bytes) :
    (gap ++ x :: s).dropWhile isBlankByte = x :: s := by
  have h := gap_blank.1 h
  induction gap with
  | nil => rw [List.nil_append, List.dropWhile_cons_of_neg (by simp [hx])]
  | cons b gap ih =>
    rw [List.cons_append, List.dropWhile_cons_of_pos (h b List.mem_cons_self)]
    exact ih (fun y hy => by have := gap_blank.2 h; exact this y (List.mem_cons_of_mem _ hy)) fun y hy => h y (List.mem_cons_of_mem _ hy)

theorem matchPrefix_append (p : Bytes) (k : Bytes → Bool) (s : Bytes) : matchPrefix p k (p ++ s) = k s := by
  unfold matchPrefix
  rw [List.drop_left, List.isPrefixOf_iff_prefix.2 ⟨s, rfl⟩]
  rfl

theorem match_keyword {gap text body : Bytes} (hg : Gap gap) (ht : text = b!"\"" ++ body ++ b!"\"") {b : UInt8}
    (hb : isBlankByte b = true) : matchBlanks1 matchQuoted (b :: (gap ++ text)) = true := by
  have : (gap ++ text).dropWhile isBlankByte = text := by rw [ht]; exact dropWhile_gap hg (by decide) _
  simp only [matchBlanks1]
  rw [this, ht, matchQuoted_form, hb]; rfl

theorem match_gap {gap text body : Bytes} (hg : Gap gap) (ht : text = b!"\"" ++ body ++ b!"\"") :
    matchBlanks matchQuoted (gap ++ text) = true := by
  have : (gap ++ text).dropWhile isBlankByte = text := by rw [ht]; exact dropWhile_gap hg (by decide) _
  unfold matchBlanks
  rw [this, ht, matchQuoted_form]

end Verif.Proofs.Po
