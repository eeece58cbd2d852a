import Verif.Model.Catalog.JsonText
import Verif.Spec.JsonText
import Verif.Proofs.Utf8
/-! `readJson` reads every text of the grammar. -/
namespace Verif.Proofs.JsonText
open Verif.Go Verif.Model.Catalog Verif.Spec.JsonText

theorem hexValue_hex {c : UInt8} {v : Nat} (h : Hex c v) : hexValue c = some v ∧ v < 16 := by
  have hv : v < 16 := by
    rcases h with h | h <;> exact (List.getElem?_eq_some_iff.1 h).1
  refine ⟨?_, hv⟩
  have key : ∀ v < 16, ∀ c, (lowerDigits[v]? = some c ∨ upperDigits[v]? = some c) → hexValue c = some v := by
    intro v hv
    have hl : lowerDigits[v]? = some (lowerDigits[v]'hv) := List.getElem?_eq_getElem _
    have hu : upperDigits[v]? = some (upperDigits[v]'hv) := List.getElem?_eq_getElem _
    intro c h
    have : c = lowerDigits[v]'hv ∨ c = upperDigits[v]'hv := by
      rw [hl, hu] at h; simpa [eq_comm] using h
    have all : ∀ i : Fin 16, hexValue (lowerDigits[i.1]'i.2) = some i.1 ∧ hexValue (upperDigits[i.1]'i.2) = some i.1 := by decide
    rcases this with rfl | rfl
    · exact (all ⟨v, hv⟩).1
    · exact (all ⟨v, hv⟩).2
  exact key v hv c h

theorem getu4_hex4 {ds : Bytes} {n : Nat} (h : Hex4 ds n) (rest : Bytes) :
    getu4 (0x5C :: 0x75 :: (ds ++ rest)) = some (n, rest) := by
  obtain ⟨a, b, c, d, va, vb, vc, vd, rfl, ha, hb, hc, hd, rfl⟩ := h
  show getu4 (0x5C :: 0x75 :: a :: b :: c :: d :: rest) = _
  simp only [getu4, (hexValue_hex ha).1, (hexValue_hex hb).1, (hexValue_hex hc).1, (hexValue_hex hd).1]
  rw [show va * 4096 + vb * 256 + vc * 16 + vd = ((va * 16 + vb) * 16 + vc) * 16 + vd by omega]

theorem encodeRune_cons (c : Char) : ∃ b bs, encodeRune c = b :: bs ∧ (c.toNat < 0x80 → b.toNat = c.toNat) ∧
    (0x80 ≤ c.toNat → 0x80 ≤ b.toNat) := by
  have hv := char_valid c
  unfold encodeRune
  dsimp only
  split
  · exact ⟨_, _, rfl, fun _ => by simp; omega, fun h => by omega⟩
  split
  · exact ⟨_, _, rfl, fun _ => by omega, fun _ => by simp; omega⟩
  split
  · exact ⟨_, _, rfl, fun _ => by omega, fun _ => by simp; omega⟩
  · exact ⟨_, _, rfl, fun _ => by omega, fun _ => by simp; omega⟩

theorem readChars_cons (f : Nat) (b : UInt8) (bs : Bytes) : readChars (f + 1) (b :: bs) =
    if b = 0x22 then some ([], bs)
    else if b = 0x5C then
      match bs with
      | [] => none
      | e :: bs' =>
        if e = 0x75 then
          match readCode (b :: bs) with
          | none => none
          | some (c, rest) => (readChars f rest).map fun r => (encodeRune c ++ r.1, r.2)
        else
          match readEscape e with
          | none => none
          | some x => (readChars f bs').map fun r => (x :: r.1, r.2)
    else if b.toNat < 0x20 then none
    else (readChars f ((b :: bs).drop (decodeRune (b :: bs)).2)).map fun r =>
      (encodeRune (decodeRune (b :: bs)).1 ++ r.1, r.2) := by
  cases bs <;> rfl

theorem readChars_piece {a m : Bytes} (h : Piece a m) (f : Nat) (rest : Bytes) :
    readChars (f + 1) (a ++ rest) = (readChars f rest).map fun r => (m ++ r.1, r.2) := by
  cases h with
  | plain c h1 h2 h3 =>
    obtain ⟨b, bs, e, e1, e2⟩ := encodeRune_cons c
    have hd := decodeRune_encodeRune c rest
    have n1 : b ≠ 0x22 := by
      rintro rfl
      by_cases hc : c.toNat < 0x80
      · exact h2 (char_ext (by rw [← e1 hc]; rfl))
      · exact absurd (e2 (by omega)) (by decide)
    have n2 : b ≠ 0x5C := by
      rintro rfl
      by_cases hc : c.toNat < 0x80
      · exact h3 (char_ext (by rw [← e1 hc]; rfl))
      · exact absurd (e2 (by omega)) (by decide)
    have n3 : ¬ b.toNat < 0x20 := by
      by_cases hc : c.toNat < 0x80
      · rw [e1 hc]; omega
      · have := e2 (by omega); omega
    rw [e] at hd ⊢
    rw [List.cons_append] at hd ⊢
    rw [readChars_cons, if_neg n1, if_neg n2, if_neg n3]
    simp only [hd, e]
    rw [← List.cons_append, drop_append_length]
  | short e x he =>
    rw [List.cons_append, List.cons_append, List.nil_append, readChars_cons, if_neg (by decide), if_pos rfl]
    have : e ≠ 0x75 ∧ readEscape e = some x := by
      revert he
      simp only [shortEscapes, List.mem_cons, Prod.mk.injEq, List.not_mem_nil, or_false]
      rintro (⟨rfl, rfl⟩ | ⟨rfl, rfl⟩ | ⟨rfl, rfl⟩ | ⟨rfl, rfl⟩ | ⟨rfl, rfl⟩ | ⟨rfl, rfl⟩ | ⟨rfl, rfl⟩ | ⟨rfl, rfl⟩) <;> decide
    simp only [if_neg this.1, this.2]
    rfl
  | code ds c hh =>
    have hv := char_valid c
    show readChars (f + 1) (0x5C :: 0x75 :: (ds ++ rest)) = _
    rw [readChars_cons, if_neg (by decide), if_pos rfl]
    simp only [if_true, readCode, getu4_hex4 hh]
    rw [if_neg (by omega), ofNat_toNat]
  | pair hs ls hi lo c h1 h2 h3 h4 h5 h6 h7 =>
    have e : b!"\\u" ++ hs ++ b!"\\u" ++ ls ++ rest = 0x5C :: 0x75 :: (hs ++ 0x5C :: 0x75 :: (ls ++ rest)) := by simp
    rw [e, readChars_cons, if_neg (by decide), if_pos rfl]
    simp only [if_true, readCode, getu4_hex4 h1, getu4_hex4 h2]
    rw [if_pos ⟨h3, by omega⟩, surrogatePair, if_pos ⟨h3, h4, h5, h6⟩]
    simp only []
    rw [show (hi - 0xD800) * 1024 + (lo - 0xDC00) + 0x10000 = c.toNat by omega, ofNat_toNat]

theorem piece_length {a m : Bytes} (h : Piece a m) : 0 < a.length := by
  cases h with
  | plain c => exact encodeRune_length_pos c
  | short e x => simp
  | code ds c => simp
  | pair hs ls => simp

theorem readChars_body {b s : Bytes} (h : Body b s) : ∀ (f : Nat) (rest : Bytes), b.length < f →
    readChars f (b ++ 0x22 :: rest) = some (s, rest) := by
  induction h with
  | nil =>
    intro f rest hf
    cases f with
    | zero => simp at hf
    | succ f => rw [List.nil_append, readChars_cons, if_pos rfl]
  | cons hp _ ih =>
    intro f rest hf
    have := piece_length hp
    cases f with
    | zero => simp at hf
    | succ f =>
      rw [List.length_append] at hf
      rw [List.append_assoc, readChars_piece hp, ih f rest (by omega)]
      rfl

theorem skipWs_append {w : Bytes} (h : Ws w) (s : Bytes) : skipWs (w ++ s) = skipWs s := by
  induction w with
  | nil => rfl
  | cons c w ih =>
    have hc := h c List.mem_cons_self
    have : isWs c = true := by
      revert hc
      simp only [List.mem_cons, List.not_mem_nil, or_false]
      rintro (rfl | rfl | rfl | rfl) <;> decide
    rw [List.cons_append, skipWs, if_pos this, ih fun d hd => h d (List.mem_cons_of_mem _ hd)]

theorem skipWs_cons {c : UInt8} (h : isWs c = false) (s : Bytes) : skipWs (c :: s) = c :: s := by
  rw [skipWs, if_neg (by rw [h]; decide)]

theorem skipWs_idem : ∀ s, skipWs (skipWs s) = skipWs s
  | [] => rfl
  | c :: cs => by
    by_cases h : isWs c = true
    · rw [skipWs, if_pos h, skipWs_idem cs]
    · have h : isWs c = false := by simpa using h
      rw [skipWs_cons h, skipWs_cons h]

theorem readValue_congr {s s' : Bytes} (h : skipWs s = skipWs s') (f : Nat) : readValue f s = readValue f s' := by
  cases f with
  | zero => rfl
  | succ f => rw [readValue, readValue, h]

theorem readMembers_congr {s s' : Bytes} (h : skipWs s = skipWs s') (f : Nat) : readMembers f s = readMembers f s' := by
  cases f with
  | zero => rfl
  | succ f => rw [readMembers, readMembers, h]

theorem readChars_str {t s : Bytes} (h : Str t s) (rest : Bytes) : ∃ r, t ++ rest = 0x22 :: r ∧
    readChars (r.length + 1) r = some (s, rest) ∧ t.length + rest.length = r.length + 1 := by
  obtain ⟨b, rfl, hb⟩ := h
  refine ⟨b ++ 0x22 :: rest, by simp, readChars_body hb _ _ (by simp; omega), by simp; omega⟩

theorem str_length {t s : Bytes} (h : Str t s) : 2 ≤ t.length := by
  obtain ⟨b, rfl, _⟩ := h
  simp

/-- One member: the key, the colon and the value are read. -/
theorem readMembers_member {w₁ w₂ w₃ w₄ kt vt k : Bytes} {v : Json} (h1 : Ws w₁) (h2 : Ws w₂) (h3 : Ws w₃)
    (h4 : Ws w₄) (hk : Str kt k) (f : Nat) (rest : Bytes) (hv : readValue f (vt ++ (w₄ ++ rest)) = some (v, w₄ ++ rest)) :
    readMembers (f + 1) (w₁ ++ kt ++ w₂ ++ b!":" ++ w₃ ++ vt ++ w₄ ++ rest) =
      match skipWs rest with
      | [] => none
      | c :: r =>
        if c = 0x2C then (readMembers f r).map fun x => ((k, v) :: x.1, x.2)
        else if c = 0x7D then some ([(k, v)], r)
        else none := by
  obtain ⟨r, e, hr, _⟩ := readChars_str hk (w₂ ++ 0x3A :: (w₃ ++ (vt ++ (w₄ ++ rest))))
  have e0 : w₁ ++ kt ++ w₂ ++ b!":" ++ w₃ ++ vt ++ w₄ ++ rest = w₁ ++ (kt ++ (w₂ ++ 0x3A :: (w₃ ++ (vt ++ (w₄ ++ rest))))) := by
    simp
  rw [e0, readMembers, skipWs_append h1, e, skipWs_cons (by decide)]
  simp only [if_true, hr]
  rw [skipWs_append h2, skipWs_cons (by decide)]
  simp only [if_true]
  rw [readValue_congr (skipWs_append h3 _), hv]
  simp only []
  rw [skipWs_append h4]
  rfl

theorem members_start {t : Bytes} {fs : List (Bytes × Json)} (h : Members t fs) (rest : Bytes) :
    ∃ r, skipWs (t ++ rest) = 0x22 :: r := by
  cases h with
  | @one w₁ w₂ w₃ w₄ kt vt k v h1 _ _ _ hk _ =>
    obtain ⟨r, e, _⟩ := readChars_str hk (w₂ ++ (b!":" ++ (w₃ ++ (vt ++ (w₄ ++ rest)))))
    refine ⟨r, ?_⟩
    simp only [List.append_assoc] at e ⊢
    rw [skipWs_append h1, e, skipWs_cons (by decide)]
  | @cons w₁ w₂ w₃ w₄ kt vt k v t fs h1 _ _ _ hk _ _ =>
    obtain ⟨r, e, _⟩ := readChars_str hk (w₂ ++ (b!":" ++ (w₃ ++ (vt ++ (w₄ ++ (b!"," ++ (t ++ rest)))))))
    refine ⟨r, ?_⟩
    simp only [List.append_assoc] at e ⊢
    rw [skipWs_append h1, e, skipWs_cons (by decide)]

mutual

theorem readValue_denotes {t : Bytes} {j : Json} : Denotes t j → ∀ (f : Nat) (rest : Bytes), t.length < f →
    readValue f (t ++ rest) = some (j, rest)
  | .null, f, rest, hf => by
    obtain ⟨f, rfl⟩ : ∃ g, f = g + 1 := ⟨f - 1, by omega⟩
    show readValue (f + 1) (0x6E :: 0x75 :: 0x6C :: 0x6C :: rest) = _
    rw [readValue, skipWs_cons (by decide)]
    simp [hasPrefix]
  | .str hs, f, rest, hf => by
    obtain ⟨f, rfl⟩ : ∃ g, f = g + 1 := ⟨f - 1, by omega⟩
    obtain ⟨r, e, hr, _⟩ := readChars_str hs rest
    rw [e, readValue, skipWs_cons (by decide)]
    simp only []
    rw [if_neg (by decide), if_neg (by decide), if_pos trivial, hr]
    rfl
  | .empty (w := w) hw, f, rest, hf => by
    obtain ⟨f, rfl⟩ : ∃ g, f = g + 1 := ⟨f - 1, by omega⟩
    have e : 0x7B :: w ++ [0x7D] ++ rest = 0x7B :: (w ++ 0x7D :: rest) := by simp
    rw [e, readValue, skipWs_cons (by decide)]
    simp only [if_true]
    rw [skipWs_append hw, skipWs_cons (by decide)]
    simp
  | .obj (t := t) (fs := fs) hm, f, rest, hf => by
    obtain ⟨f, rfl⟩ : ∃ g, f = g + 1 := ⟨f - 1, by omega⟩
    have e : 0x7B :: t ++ [0x7D] ++ rest = 0x7B :: (t ++ 0x7D :: rest) := by simp
    have hr := readMembers_members hm f rest (by simp at hf; omega)
    obtain ⟨r, hs⟩ := members_start hm (0x7D :: rest)
    rw [e, readValue, skipWs_cons (by decide)]
    simp only [if_true]
    rw [hs]
    simp only []
    rw [if_neg (by decide), ← hs, readMembers_congr (skipWs_idem _), hr]
    rfl

theorem readMembers_members {t : Bytes} {fs : List (Bytes × Json)} : Members t fs → ∀ (f : Nat) (rest : Bytes),
    t.length < f → readMembers f (t ++ 0x7D :: rest) = some (fs, rest)
  | .one h1 h2 h3 h4 hk hv, f, rest, hf => by
    obtain ⟨f, rfl⟩ : ∃ g, f = g + 1 := ⟨f - 1, by omega⟩
    have := str_length hk
    rw [readMembers_member h1 h2 h3 h4 hk f _ (readValue_denotes hv f _ (by simp at hf; omega)), skipWs_cons (by decide)]
    simp
  | .cons (t := t) h1 h2 h3 h4 hk hv hm, f, rest, hf => by
    obtain ⟨f, rfl⟩ : ∃ g, f = g + 1 := ⟨f - 1, by omega⟩
    have := str_length hk
    simp only [List.length_append] at hf
    rw [List.append_assoc _ t, List.append_assoc _ b!",",
      readMembers_member h1 h2 h3 h4 hk f _ (readValue_denotes hv f _ (by omega)), List.singleton_append,
      skipWs_cons (by decide)]
    simp only [if_true]
    rw [readMembers_members hm f rest (by omega)]
    rfl

end

/-- The reader reads every text of the grammar. -/
theorem readJson_document {t : Bytes} {j : Json} (h : Document t j) : readJson t = some j := by
  obtain ⟨w₁, t, w₂, rfl, h1, h2, hd⟩ := h
  unfold readJson
  rw [List.append_assoc, readValue_congr (skipWs_append h1 _), readValue_denotes hd _ _ (by simp; omega)]
  simp only []
  have : skipWs w₂ = [] := by
    have := skipWs_append h2 []
    rwa [List.append_nil] at this
  rw [this, if_pos rfl]

theorem readJson_denotes {t : Bytes} {j : Json} (h : Denotes t j) : readJson t = some j :=
  readJson_document ⟨[], t, [], (by simp), (fun _ hc => nomatch hc), (fun _ hc => nomatch hc), h⟩

end Verif.Proofs.JsonText
