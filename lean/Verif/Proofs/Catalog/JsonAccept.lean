import Verif.Proofs.Catalog.JsonRead
/-! `readJson` accepts exactly the texts of `Acceptable`. -/
namespace Verif.Proofs.JsonText
open Verif.Go Verif.Model.Catalog Verif.Spec.JsonText

/-! ## What is read is in the grammar -/

theorem hex_hexValue {c : UInt8} {v : Nat} (h : hexValue c = some v) : Hex c v := by
  have key : ∀ c : UInt8, match hexValue c with | none => True | some v => lowerDigits[v]? = some c ∨ upperDigits[v]? = some c := by
    intro c
    have : ∀ i : Fin 256, (match hexValue (UInt8.ofNat i.1) with
        | none => true
        | some v => decide (lowerDigits[v]? = some (UInt8.ofNat i.1) ∨ upperDigits[v]? = some (UInt8.ofNat i.1))) = true := by
      decide +kernel
    have := this ⟨c.toNat, c.toNat_lt⟩
    simp only [UInt8.ofNat_toNat] at this
    split
    · trivial
    · rename_i v hv
      rw [hv] at this
      exact of_decide_eq_true this
  have := key c
  rw [h] at this
  exact this

theorem getu4_some {s : Bytes} {n : Nat} {r : Bytes} (h : getu4 s = some (n, r)) :
    ∃ ds, s = 0x5C :: 0x75 :: (ds ++ r) ∧ Hex4 ds n := by
  unfold getu4 at h
  split at h
  · rename_i a b c d rest
    split at h
    · rename_i va vb vc vd h1 h2 h3 h4
      cases h
      exact ⟨[a, b, c, d], rfl, a, b, c, d, va, vb, vc, vd, rfl, hex_hexValue h1, hex_hexValue h2, hex_hexValue h3,
        hex_hexValue h4, by omega⟩
    · cases h
  · cases h

theorem readEscape_some {e x : UInt8} (h : readEscape e = some x) : (e, x) ∈ shortEscapes := by
  unfold readEscape at h
  by_cases h1 : e = 0x22 ∨ e = 0x5C ∨ e = 0x2F
  · rw [if_pos h1] at h
    cases h
    rcases h1 with rfl | rfl | rfl <;> decide
  · rw [if_neg h1] at h
    (repeat' split at h) <;> first | (cases h; rename_i e1; rw [e1]; decide) | cases h

theorem readChars_sound : ∀ (f : Nat) (s t r : Bytes), readChars f s = some (t, r) →
    ∃ b, s = b ++ 0x22 :: r ∧ LooseBody b t
  | 0, _, _, _, h => by cases h
  | _ + 1, [], _, _, h => by cases h
  | f + 1, x :: bs, t, r, h => by
    rw [readChars_cons] at h
    by_cases h1 : x = 0x22
    · rw [if_pos h1] at h; cases h; exact ⟨[], by rw [h1]; rfl, .nil⟩
    rw [if_neg h1] at h
    by_cases h2 : x = 0x5C
    · rw [if_pos h2] at h
      subst h2
      cases bs with
      | nil => cases h
      | cons e bs =>
        simp only [] at h
        by_cases h3 : e = 0x75
        · subst h3
          rw [if_pos rfl] at h
          cases hc : readCode (0x5C :: 0x75 :: bs) with
          | none => rw [hc] at h; cases h
          | some p =>
            obtain ⟨c, rest⟩ := p
            rw [hc] at h
            simp only [Option.map_eq_some_iff] at h
            obtain ⟨⟨t', r'⟩, hr, e⟩ := h
            cases e
            obtain ⟨b, rfl, hb⟩ := readChars_sound f _ _ _ hr
            unfold readCode at hc
            cases hg : getu4 (0x5C :: 0x75 :: bs) with
            | none => rw [hg] at hc; cases hc
            | some q =>
              obtain ⟨n, rest1⟩ := q
              rw [hg] at hc
              simp only [] at hc
              obtain ⟨ds, e1, hd⟩ := getu4_some hg
              by_cases hs : 0xD800 ≤ n ∧ n < 0xE000
              · rw [if_pos hs] at hc
                cases hg2 : getu4 rest1 with
                | none =>
                  rw [hg2] at hc
                  simp only [Option.some.injEq, Prod.mk.injEq] at hc
                  obtain ⟨rfl, rfl⟩ := hc
                  refine ⟨b!"\\u" ++ ds ++ b, by rw [e1]; simp, .half hd hs.1 hs.2 (fun _ ls lo r0 hl _ _ e => ?_) hb⟩
                  rw [e] at hg2
                  have := getu4_hex4 hl (r0 ++ 0x22 :: r')
                  simp only [List.cons_append, List.nil_append, List.append_assoc] at hg2
                  rw [this] at hg2
                  cases hg2
                | some q =>
                  obtain ⟨m, rest2⟩ := q
                  rw [hg2] at hc
                  simp only [] at hc
                  obtain ⟨ds2, e2, hd2⟩ := getu4_some hg2
                  cases hp : surrogatePair n m with
                  | none =>
                    rw [hp] at hc
                    simp only [Option.some.injEq, Prod.mk.injEq] at hc
                    obtain ⟨rfl, rfl⟩ := hc
                    refine ⟨b!"\\u" ++ ds ++ b, by rw [e1]; simp, .half hd hs.1 hs.2 (fun hlt ls lo r0 hl hl1 hl2 e => ?_) hb⟩
                    rw [e] at hg2
                    have := getu4_hex4 hl (r0 ++ 0x22 :: r')
                    simp only [List.cons_append, List.nil_append, List.append_assoc] at hg2
                    rw [this] at hg2
                    cases hg2
                    rw [surrogatePair, if_pos ⟨hs.1, hlt, hl1, hl2⟩] at hp
                    cases hp
                  | some ch =>
                    rw [hp] at hc
                    simp only [Option.some.injEq, Prod.mk.injEq] at hc
                    obtain ⟨rfl, rfl⟩ := hc
                    unfold surrogatePair at hp
                    split at hp
                    · rename_i hw
                      have hp := Option.some.inj hp
                      have hn : ch.toNat = 0x10000 + (n - 0xD800) * 0x400 + (m - 0xDC00) := by
                        rw [← hp, toNat_ofNat_of_valid (by omega)]; omega
                      exact ⟨b!"\\u" ++ ds ++ b!"\\u" ++ ds2 ++ b, by rw [e1, e2]; simp,
                        .piece (.pair ds ds2 n m _ hd hd2 hw.1 hw.2.1 hw.2.2.1 hw.2.2.2 hn) hb⟩
                    · cases hp
              · rw [if_neg hs] at hc
                simp only [Option.some.injEq, Prod.mk.injEq] at hc
                obtain ⟨rfl, rfl⟩ := hc
                have hlt : n < 0x10000 := by
                  obtain ⟨a, b, c, d, va, vb, vc, vd, rfl, ha, hb, hc, hd, rfl⟩ := hd
                  have := (hexValue_hex ha).2
                  have := (hexValue_hex hb).2
                  have := (hexValue_hex hc).2
                  have := (hexValue_hex hd).2
                  omega
                refine ⟨b!"\\u" ++ ds ++ b, by rw [e1]; simp, .piece (.code ds _ ?_) hb⟩
                rw [toNat_ofNat_of_valid (by omega)]
                exact hd
        · rw [if_neg h3] at h
          cases hc : readEscape e with
          | none => rw [hc] at h; cases h
          | some y =>
            rw [hc] at h
            simp only [Option.map_eq_some_iff] at h
            obtain ⟨⟨t', r'⟩, hr, e'⟩ := h
            cases e'
            obtain ⟨b, rfl, hb⟩ := readChars_sound f _ _ _ hr
            exact ⟨[0x5C, e] ++ b, rfl, .piece (.short e y (readEscape_some hc)) hb⟩
    · rw [if_neg h2] at h
      by_cases h3 : x.toNat < 0x20
      · rw [if_pos h3] at h; cases h
      · rw [if_neg h3] at h
        simp only [Option.map_eq_some_iff] at h
        obtain ⟨⟨t', r'⟩, hr, e⟩ := h
        cases e
        obtain ⟨b, hbs, hb⟩ := readChars_sound f _ _ _ hr
        by_cases hd : (decodeRune (x :: bs)).1 = runeError ∧ (decodeRune (x :: bs)).2 = 1
        · rw [hd.2] at hbs
          simp only [List.drop_succ_cons, List.drop_zero] at hbs
          rw [hd.1]
          refine ⟨x :: b, by rw [hbs]; rfl, .byte ?_ (fun c r0 e => ?_) hb⟩
          · rcases Nat.lt_or_ge x.toNat 0x80 with hlt | hge
            · exfalso
              have := hd.1
              rw [decodeRune_ascii x bs hlt] at this
              have := congrArg Char.toNat this
              rw [toNat_ofNat_of_valid (by omega), runeError_toNat] at this
              omega
            · exact hge
          · have e' : x :: bs = encodeRune c ++ (r0 ++ 0x22 :: r') := by
              rw [hbs, ← List.cons_append, e, List.append_assoc]
            rw [e', decodeRune_encodeRune] at hd
            obtain ⟨rfl, hl⟩ := hd
            revert hl; decide
        · have hs := decodeRune_sound x bs hd
          have e : x :: bs = encodeRune (decodeRune (x :: bs)).1 ++ (b ++ 0x22 :: r') := by
            rw [← hs, ← hbs, List.take_append_drop]
          refine ⟨encodeRune (decodeRune (x :: bs)).1 ++ b, by rw [List.append_assoc]; exact e, .piece ?_ hb⟩
          obtain ⟨y, ys, ey, ey1, ey2⟩ := encodeRune_cons (decodeRune (x :: bs)).1
          have hxy : x = y := by
            rw [ey] at e
            simpa using (List.cons.inj e).1
          have hx0 : ∀ d : Char, d.toNat < 0x80 → (decodeRune (x :: bs)).1 = d → x.toNat = d.toNat := by
            intro d hd' ed
            rw [hxy, ← ed]; exact ey1 (by rw [ed]; exact hd')
          refine .plain _ ?_ (fun hq => h1 (byte_ext (hx0 _ (by decide) hq))) (fun hq => h2 (byte_ext (hx0 _ (by decide) hq)))
          rcases Nat.lt_or_ge (decodeRune (x :: bs)).1.toNat 0x80 with hlt | hge
          · have := ey1 hlt
            rw [← hxy] at this
            omega
          · omega

theorem skipWs_split : ∀ (s : Bytes), ∃ w, Ws w ∧ s = w ++ skipWs s
  | [] => ⟨[], (fun _ h => nomatch h), rfl⟩
  | c :: cs => by
    by_cases h : isWs c = true
    · obtain ⟨w, hw, e⟩ := skipWs_split cs
      refine ⟨c :: w, fun d hd => ?_, by rw [skipWs, if_pos h, List.cons_append, ← e]⟩
      rcases List.mem_cons.1 hd with rfl | hd
      · revert h
        simp only [isWs, Bool.or_eq_true, decide_eq_true_eq, List.mem_cons, List.not_mem_nil, or_false]
        rintro (((rfl | rfl) | rfl) | rfl) <;> simp
      · exact hw d hd
    · exact ⟨[], (fun _ h => nomatch h), by rw [skipWs, if_neg h]; rfl⟩

theorem isDigit_iff {c : UInt8} : isDigit c = true ↔ c ∈ b!"0123456789" := by
  have : ∀ i : Fin 256, isDigit (UInt8.ofNat i.1) = true ↔ UInt8.ofNat i.1 ∈ b!"0123456789" := by decide +kernel
  have := this ⟨c.toNat, c.toNat_lt⟩
  simpa using this

theorem readDigits_sound {s r : Bytes} (h : readDigits s = some r) : ∃ ds, s = ds ++ r ∧ Digits ds := by
  unfold readDigits at h
  have hall : ∀ d ∈ s.takeWhile isDigit, d ∈ b!"0123456789" := fun d hd =>
    isDigit_iff.1 (List.all_eq_true.1 (List.all_takeWhile (p := isDigit) (l := s)) d hd)
  split at h
  · cases h
  · rename_i hne
    cases h
    exact ⟨s.takeWhile isDigit, (List.takeWhile_append_dropWhile ..).symm, fun e => hne e, hall⟩

theorem dropMinus_split (s : Bytes) : ∃ sign, s = sign ++ dropMinus s ∧ (sign = [] ∨ sign = b!"-") := by
  unfold dropMinus
  split
  · exact ⟨b!"-", rfl, .inr rfl⟩
  · exact ⟨[], rfl, .inl rfl⟩

theorem dropSign_split (s : Bytes) : ∃ sign, s = sign ++ dropSign s ∧ (sign = [] ∨ sign = b!"+" ∨ sign = b!"-") := by
  unfold dropSign
  split
  · exact ⟨b!"+", rfl, .inr (.inl rfl)⟩
  · exact ⟨b!"-", rfl, .inr (.inr rfl)⟩
  · exact ⟨[], rfl, .inl rfl⟩

theorem readWhole_sound {s r : Bytes} (h : readWhole s = some r) :
    ∃ whole, s = whole ++ r ∧ (whole = b!"0" ∨ Digits whole ∧ whole.head? ≠ some 0x30) := by
  unfold readWhole at h
  split at h
  · cases h; exact ⟨b!"0", rfl, .inl rfl⟩
  · rename_i hne
    obtain ⟨ds, e, hd⟩ := readDigits_sound h
    refine ⟨ds, e, .inr ⟨hd, fun hh => ?_⟩⟩
    cases ds with
    | nil => cases hh
    | cons d ds =>
      rw [List.head?_cons] at hh
      cases hh
      exact hne _ e

theorem readFraction_sound {s r : Bytes} (h : readFraction s = some r) :
    ∃ frac, s = frac ++ r ∧ (frac = [] ∨ ∃ ds, frac = b!"." ++ ds ∧ Digits ds) := by
  unfold readFraction at h
  split at h
  · obtain ⟨ds, e, hd⟩ := readDigits_sound h
    exact ⟨b!"." ++ ds, by rw [e]; rfl, .inr ⟨ds, rfl, hd⟩⟩
  · cases h; exact ⟨[], rfl, .inl rfl⟩

theorem readExponent_sound {s r : Bytes} (h : readExponent s = some r) : ∃ exp, s = exp ++ r ∧ (exp = [] ∨
    ∃ e sg ds, exp = e ++ sg ++ ds ∧ (e = b!"e" ∨ e = b!"E") ∧ (sg = [] ∨ sg = b!"+" ∨ sg = b!"-") ∧ Digits ds) := by
  cases s with
  | nil => cases h; exact ⟨[], rfl, .inl rfl⟩
  | cons e s =>
    rw [readExponent] at h
    split at h
    · rename_i he
      obtain ⟨sg, es, hsg⟩ := dropSign_split s
      obtain ⟨ds, ed, hd⟩ := readDigits_sound h
      refine ⟨[e] ++ sg ++ ds, by rw [es, ed]; simp, .inr ⟨[e], sg, ds, rfl, ?_, hsg, hd⟩⟩
      rcases he with rfl | rfl
      · exact .inl rfl
      · exact .inr rfl
    · cases h; exact ⟨[], rfl, .inl rfl⟩

theorem readNumber_sound {s r : Bytes} (h : readNumber s = some r) : ∃ t, s = t ++ r ∧ Number t := by
  unfold readNumber at h
  simp only [Option.bind_eq_some_iff] at h
  obtain ⟨s1, h1, s2, h2, h3⟩ := h
  obtain ⟨sign, e0, hsg⟩ := dropMinus_split s
  obtain ⟨whole, e1, hw⟩ := readWhole_sound h1
  obtain ⟨frac, e2, hf⟩ := readFraction_sound h2
  obtain ⟨exp, e3, he⟩ := readExponent_sound h3
  exact ⟨_, by rw [e0, e1, e2, e3]; simp, sign, whole, frac, exp, rfl, hsg, hw, hf, he⟩

theorem hasPrefix_split {s p : Bytes} (h : hasPrefix s p = true) : ∃ r, s = p ++ r := by
  unfold hasPrefix at h
  obtain ⟨r, e⟩ := List.isPrefixOf_iff_prefix.1 h
  exact ⟨r, e.symm⟩

theorem _root_.Verif.Spec.JsonText.Ws.join {v w : Bytes} (hv : Ws v) (hw : Ws w) : Ws (v ++ w) := fun c hc =>
  (List.mem_append.1 hc).elim (hv c) (hw c)

theorem acceptedMembers_ws {w : Bytes} (hw : Ws w) {t : Bytes} {fs : List (Bytes × Json)} (h : AcceptedMembers t fs) :
    AcceptedMembers (w ++ t) fs := by
  cases h with
  | one h1 h2 h3 h4 hk hv =>
    have := AcceptedMembers.one (Ws.join hw h1) h2 h3 h4 hk hv
    simpa only [List.append_assoc] using this
  | cons h1 h2 h3 h4 hk hv hm =>
    have := AcceptedMembers.cons (Ws.join hw h1) h2 h3 h4 hk hv hm
    simpa only [List.append_assoc] using this

theorem acceptedItems_ws {w : Bytes} (hw : Ws w) {t : Bytes} (h : AcceptedItems t) : AcceptedItems (w ++ t) := by
  cases h with
  | one h1 h2 hv =>
    have := AcceptedItems.one (Ws.join hw h1) h2 hv
    simpa only [List.append_assoc] using this
  | cons h1 h2 hv hm =>
    have := AcceptedItems.cons (Ws.join hw h1) h2 hv hm
    simpa only [List.append_assoc] using this

theorem read_sound : ∀ (f : Nat),
    (∀ (s : Bytes) (j : Json) (r : Bytes), readValue f s = some (j, r) → ∃ w t, s = w ++ t ++ r ∧ Ws w ∧ Accepted t j) ∧
    (∀ (s : Bytes) (fs : List (Bytes × Json)) (r : Bytes), readMembers f s = some (fs, r) →
      ∃ t, s = t ++ 0x7D :: r ∧ AcceptedMembers t fs) ∧
    (∀ (s r : Bytes), readItems f s = some r → ∃ t, s = t ++ 0x5D :: r ∧ AcceptedItems t)
  | 0 => ⟨(fun _ _ _ h => nomatch h), (fun _ _ _ h => nomatch h), (fun _ _ h => nomatch h)⟩
  | f + 1 => by
    obtain ⟨ih1, ih2, ih3⟩ := read_sound f
    refine ⟨?_, ?_, ?_⟩
    · intro s j rest h
      rw [readValue] at h
      obtain ⟨w, hw, es⟩ := skipWs_split s
      suffices h' : ∃ t, skipWs s = t ++ rest ∧ Accepted t j by
        obtain ⟨t, e, ht⟩ := h'
        exact ⟨w, t, by rw [List.append_assoc, ← e]; exact es, hw, ht⟩
      cases hk : skipWs s with
      | nil => rw [hk] at h; cases h
      | cons c r =>
        rw [hk] at h
        simp only [] at h
        by_cases h1 : c = 0x7B
        · rw [if_pos h1] at h
          obtain ⟨w2, hw2, es2⟩ := skipWs_split r
          cases hk2 : skipWs r with
          | nil => rw [hk2] at h; cases h
          | cons d r' =>
            rw [hk2] at h es2
            simp only [] at h
            by_cases h2 : d = 0x7D
            · rw [if_pos h2] at h
              cases h
              exact ⟨_, by rw [h1, es2, h2]; simp, .empty hw2⟩
            · rw [if_neg h2] at h
              simp only [Option.map_eq_some_iff] at h
              obtain ⟨⟨fs, r''⟩, hr, e⟩ := h
              cases e
              obtain ⟨t, e, ht⟩ := ih2 _ _ _ hr
              refine ⟨0x7B :: (w2 ++ t) ++ [0x7D], by rw [h1, es2, e]; simp, .obj (acceptedMembers_ws hw2 ht)⟩
        rw [if_neg h1] at h
        by_cases h1 : c = 0x5B
        · rw [if_pos h1] at h
          obtain ⟨w2, hw2, es2⟩ := skipWs_split r
          cases hk2 : skipWs r with
          | nil => rw [hk2] at h; cases h
          | cons d r' =>
            rw [hk2] at h es2
            simp only [] at h
            by_cases h2 : d = 0x5D
            · rw [if_pos h2] at h
              cases h
              exact ⟨_, by rw [h1, es2, h2]; simp, .none hw2⟩
            · rw [if_neg h2] at h
              simp only [Option.map_eq_some_iff] at h
              obtain ⟨r'', hr, e⟩ := h
              cases e
              obtain ⟨t, e, ht⟩ := ih3 _ _ hr
              refine ⟨0x5B :: (w2 ++ t) ++ [0x5D], by rw [h1, es2, e]; simp, .array (acceptedItems_ws hw2 ht)⟩
        rw [if_neg h1] at h
        by_cases h1 : c = 0x22
        · rw [if_pos h1] at h
          simp only [Option.map_eq_some_iff] at h
          obtain ⟨⟨t, r'⟩, hr, e⟩ := h
          cases e
          obtain ⟨b, e, hb⟩ := readChars_sound _ _ _ _ hr
          exact ⟨0x22 :: b ++ [0x22], by rw [h1, e]; simp, .str ⟨b, rfl, hb⟩⟩
        rw [if_neg h1] at h
        by_cases h1 : hasPrefix (c :: r) b!"null" = true
        · rw [if_pos h1] at h
          cases h
          obtain ⟨r', e⟩ := hasPrefix_split h1
          refine ⟨b!"null", ?_, .null⟩
          rw [e]
          have := (List.cons.inj e).2
          rw [this]; rfl
        rw [if_neg h1] at h
        by_cases h1 : hasPrefix (c :: r) b!"true" = true
        · rw [if_pos h1] at h
          cases h
          obtain ⟨r', e⟩ := hasPrefix_split h1
          refine ⟨b!"true", ?_, .true⟩
          rw [e]
          have := (List.cons.inj e).2
          rw [this]; rfl
        rw [if_neg h1] at h
        by_cases h1 : hasPrefix (c :: r) b!"false" = true
        · rw [if_pos h1] at h
          cases h
          obtain ⟨r', e⟩ := hasPrefix_split h1
          refine ⟨b!"false", ?_, .false⟩
          rw [e]
          have := (List.cons.inj e).2
          rw [this]; rfl
        rw [if_neg h1] at h
        simp only [Option.map_eq_some_iff] at h
        obtain ⟨r', hr, e⟩ := h
        cases e
        obtain ⟨t, e, ht⟩ := readNumber_sound hr
        exact ⟨t, e, .number ht⟩
    · intro s fs rest h
      rw [readMembers] at h
      obtain ⟨w1, hw1, es1⟩ := skipWs_split s
      cases hk1 : skipWs s with
      | nil => rw [hk1] at h; cases h
      | cons c r =>
        rw [hk1] at h es1
        simp only [] at h
        rcases (Decidable.em (c = 0x22)).symm with h1 | h1
        · rw [if_neg h1] at h; cases h
        rw [if_pos h1] at h
        cases hc : readChars (r.length + 1) r with
        | none => rw [hc] at h; cases h
        | some p =>
          obtain ⟨k, r1⟩ := p
          rw [hc] at h
          simp only [] at h
          obtain ⟨b, eb, hb⟩ := readChars_sound _ _ _ _ hc
          obtain ⟨w2, hw2, es2⟩ := skipWs_split r1
          cases hk2 : skipWs r1 with
          | nil => rw [hk2] at h; cases h
          | cons c2 r2 =>
            rw [hk2] at h es2
            simp only [] at h
            rcases (Decidable.em (c2 = 0x3A)).symm with h2 | h2
            · rw [if_neg h2] at h; cases h
            rw [if_pos h2] at h
            cases hv : readValue f r2 with
            | none => rw [hv] at h; cases h
            | some q =>
              obtain ⟨v, r3⟩ := q
              rw [hv] at h
              simp only [] at h
              obtain ⟨w3, vt, ev, hw3, hvt⟩ := ih1 _ _ _ hv
              obtain ⟨w4, hw4, es4⟩ := skipWs_split r3
              cases hk4 : skipWs r3 with
              | nil => rw [hk4] at h; cases h
              | cons c4 r4 =>
                rw [hk4] at h es4
                simp only [] at h
                have hstr : LooseStr (0x22 :: b ++ [0x22]) k := ⟨b, rfl, hb⟩
                by_cases h4 : c4 = 0x2C
                · rw [if_pos h4] at h
                  simp only [Option.map_eq_some_iff] at h
                  obtain ⟨⟨fs', r5⟩, hr, e⟩ := h
                  cases e
                  obtain ⟨t, et, ht⟩ := ih2 _ _ _ hr
                  exact ⟨_, by rw [es1, h1, eb, es2, h2, ev, es4, h4, et]; simp, .cons hw1 hw2 hw3 hw4 hstr hvt ht⟩
                · rw [if_neg h4] at h
                  by_cases h5 : c4 = 0x7D
                  · rw [if_pos h5] at h
                    cases h
                    exact ⟨_, by rw [es1, h1, eb, es2, h2, ev, es4, h5]; simp, .one hw1 hw2 hw3 hw4 hstr hvt⟩
                  · rw [if_neg h5] at h; cases h
    · intro s rest h
      rw [readItems] at h
      cases hv : readValue f s with
      | none => rw [hv] at h; cases h
      | some q =>
        obtain ⟨v, r3⟩ := q
        rw [hv] at h
        simp only [] at h
        obtain ⟨w3, vt, ev, hw3, hvt⟩ := ih1 _ _ _ hv
        obtain ⟨w4, hw4, es4⟩ := skipWs_split r3
        cases hk4 : skipWs r3 with
        | nil => rw [hk4] at h; cases h
        | cons c4 r4 =>
          rw [hk4] at h es4
          simp only [] at h
          by_cases h4 : c4 = 0x2C
          · rw [if_pos h4] at h
            obtain ⟨t, et, ht⟩ := ih3 _ _ h
            exact ⟨_, by rw [ev, es4, h4, et]; simp, .cons hw3 hw4 hvt ht⟩
          · rw [if_neg h4] at h
            by_cases h5 : c4 = 0x5D
            · rw [if_pos h5] at h
              cases h
              exact ⟨_, by rw [ev, es4, h5]; simp, .one hw3 hw4 hvt⟩
            · rw [if_neg h5] at h; cases h

theorem readJson_sound {t : Bytes} {j : Json} (h : readJson t = some j) : Acceptable t j := by
  unfold readJson at h
  cases hv : readValue (t.length + 1) t with
  | none => rw [hv] at h; cases h
  | some p =>
    obtain ⟨j', r⟩ := p
    rw [hv] at h
    simp only [] at h
    by_cases hr : skipWs r = []
    · rw [if_pos hr] at h
      cases h
      obtain ⟨w, t', e, hw, ht⟩ := (read_sound _).1 _ _ _ hv
      obtain ⟨w2, hw2, es2⟩ := skipWs_split r
      rw [hr, List.append_nil] at es2
      exact ⟨w, t', w2, by rw [← es2]; exact e, hw, hw2, ht⟩
    · rw [if_neg hr] at h; cases h

/-! ## The grammar is read -/

theorem getu4_quote {b rest : Bytes} {m : Nat} {r : Bytes} (h : getu4 (b ++ 0x22 :: rest) = some (m, r)) :
    ∃ ls r0, b = b!"\\u" ++ ls ++ r0 ∧ Hex4 ls m := by
  obtain ⟨ds, e, hd⟩ := getu4_some h
  have hq : ∀ c v, Hex c v → c ≠ 0x22 := by
    rintro c v hc rfl
    have := (hexValue_hex hc).1
    revert this
    rw [show hexValue 0x22 = none by decide]
    exact (fun h => nomatch h)
  obtain ⟨a, b1, c, d, va, vb, vc, vd, rfl, ha, hb, hc, hdd, rfl⟩ := id hd
  simp only [List.cons_append, List.nil_append] at e
  match b, e with
  | [], e => exact absurd (List.cons.inj e).1 (by decide)
  | [_], e => exact absurd (List.cons.inj (List.cons.inj e).2).1 (by decide)
  | [_, _], e => simp only [List.cons_append, List.nil_append, List.cons.injEq] at e; exact absurd e.2.2.1.symm (hq _ _ ha)
  | [_, _, _], e => simp only [List.cons_append, List.nil_append, List.cons.injEq] at e; exact absurd e.2.2.2.1.symm (hq _ _ hb)
  | [_, _, _, _], e =>
    simp only [List.cons_append, List.nil_append, List.cons.injEq] at e; exact absurd e.2.2.2.2.1.symm (hq _ _ hc)
  | [_, _, _, _, _], e =>
    simp only [List.cons_append, List.nil_append, List.cons.injEq] at e; exact absurd e.2.2.2.2.2.1.symm (hq _ _ hdd)
  | b0 :: b1' :: b2 :: b3 :: b4 :: b5 :: b6, e =>
    simp only [List.cons_append, List.cons.injEq] at e
    obtain ⟨rfl, rfl, rfl, rfl, rfl, rfl, _⟩ := e
    exact ⟨_, b6, rfl, hd⟩

theorem readChars_loose {b s : Bytes} (h : LooseBody b s) : ∀ (f : Nat) (rest : Bytes), b.length < f →
    readChars f (b ++ 0x22 :: rest) = some (s, rest) := by
  induction h with
  | nil =>
    intro f rest hf
    cases f with
    | zero => simp at hf
    | succ f => rw [List.nil_append, readChars_cons, if_pos rfl]
  | piece hp _ ih =>
    intro f rest hf
    have := piece_length hp
    cases f with
    | zero => simp at hf
    | succ f =>
      rw [List.length_append] at hf
      rw [List.append_assoc, readChars_piece hp, ih f rest (by omega)]
      rfl
  | @half ds n b s hd h1 h2 h3 _ ih =>
    intro f rest hf
    cases f with
    | zero => simp at hf
    | succ f =>
      have e : b!"\\u" ++ ds ++ b ++ 0x22 :: rest = 0x5C :: 0x75 :: (ds ++ (b ++ 0x22 :: rest)) := by simp
      have hr : readCode (0x5C :: 0x75 :: (ds ++ (b ++ 0x22 :: rest))) = some (runeError, b ++ 0x22 :: rest) := by
        unfold readCode
        rw [getu4_hex4 hd]
        simp only []
        rw [if_pos ⟨h1, h2⟩]
        cases hg : getu4 (b ++ 0x22 :: rest) with
        | none => rfl
        | some p =>
          obtain ⟨m, r⟩ := p
          simp only []
          cases hp : surrogatePair n m with
          | none => rfl
          | some c =>
            exfalso
            unfold surrogatePair at hp
            split at hp
            · rename_i hw
              obtain ⟨ls, r0, eb, hl⟩ := getu4_quote hg
              exact h3 hw.2.1 ls m r0 hl hw.2.2.1 hw.2.2.2 eb
            · cases hp
      rw [e, readChars_cons, if_neg (by decide), if_pos rfl]
      simp only [if_true, hr]
      rw [ih f rest (by simp at hf; omega)]
      rfl
  | @byte x b s hx hc _ ih =>
    intro f rest hf
    cases f with
    | zero => simp at hf
    | succ f =>
      have hd : decodeRune (x :: (b ++ 0x22 :: rest)) = (runeError, 1) := by
        rw [← List.cons_append, decodeRune_append_ascii x b 0x22 rest (by decide)]
        by_cases hd : (decodeRune (x :: b)).1 = runeError ∧ (decodeRune (x :: b)).2 = 1
        · exact Prod.ext hd.1 hd.2
        · exfalso
          have := decodeRune_sound x b hd
          exact hc (decodeRune (x :: b)).1 ((x :: b).drop (decodeRune (x :: b)).2) (by rw [← this, List.take_append_drop])
      have n1 : x ≠ 0x22 := by rintro rfl; exact absurd hx (by decide)
      have n2 : x ≠ 0x5C := by rintro rfl; exact absurd hx (by decide)
      rw [List.cons_append, readChars_cons, if_neg n1, if_neg n2, if_neg (by omega), hd]
      simp only [List.drop_succ_cons, List.drop_zero]
      rw [ih f rest (by simp at hf; omega)]
      rfl

/-- A text after which a number cannot go on. -/
def Ends (s : Bytes) : Prop := ∀ c r, s = c :: r → c ∉ b!"0123456789.eE"

def NoDigit (s : Bytes) : Prop := ∀ c r, s = c :: r → c ∉ b!"0123456789"

theorem Ends.noDigit {s : Bytes} (h : Ends s) : NoDigit s := fun c r e hc => h c r e (List.mem_append_left b!".eE" hc)

theorem readDigits_complete {ds : Bytes} (h : Digits ds) {rest : Bytes} (he : NoDigit rest) : readDigits (ds ++ rest) = some rest := by
  have h1 : ∀ d ∈ ds, isDigit d = true := fun d hd => isDigit_iff.2 (h.2 d hd)
  have h2 : rest.takeWhile isDigit = [] ∧ rest.dropWhile isDigit = rest := by
    cases rest with
    | nil => exact ⟨rfl, rfl⟩
    | cons c r =>
      have hc : ¬ isDigit c = true := fun hh => he c r rfl (isDigit_iff.1 hh)
      exact ⟨List.takeWhile_cons_of_neg hc, List.dropWhile_cons_of_neg hc⟩
  unfold readDigits
  rw [List.takeWhile_append_of_pos h1, List.dropWhile_append_of_pos h1, h2.1, h2.2, List.append_nil]
  cases ds with
  | nil => exact absurd rfl h.1
  | cons d ds => rfl

theorem digits_head {ds : Bytes} (h : Digits ds) : ∃ d r, ds = d :: r ∧ d ∈ b!"0123456789" := by
  cases ds with
  | nil => exact absurd rfl h.1
  | cons d r => exact ⟨d, r, rfl, h.2 d List.mem_cons_self⟩

theorem dropSign_complete {sg ds : Bytes} (hs : sg = [] ∨ sg = b!"+" ∨ sg = b!"-") (h : Digits ds) (rest : Bytes) :
    dropSign (sg ++ (ds ++ rest)) = ds ++ rest := by
  rcases hs with rfl | rfl | rfl
  · obtain ⟨d, r, rfl, hd⟩ := digits_head h
    show dropSign (d :: (r ++ rest)) = d :: (r ++ rest)
    unfold dropSign
    split
    · rename_i e; rw [(List.cons.inj e).1] at hd; exact absurd hd (by decide)
    · rename_i e; rw [(List.cons.inj e).1] at hd; exact absurd hd (by decide)
    · rfl
  · rfl
  · rfl

theorem number_whole {whole : Bytes} (h : whole = b!"0" ∨ Digits whole ∧ whole.head? ≠ some 0x30) :
    Digits whole := by
  rcases h with rfl | h
  · exact ⟨(fun h => nomatch h), by decide⟩
  · exact h.1

theorem readNumber_complete {t : Bytes} (h : Number t) {rest : Bytes} (he : Ends rest) : readNumber (t ++ rest) = some rest := by
  obtain ⟨sign, whole, frac, exp, rfl, hs, hw, hf, hx⟩ := h
  have e3 : readExponent (exp ++ rest) = some rest := by
    rcases hx with rfl | ⟨e, sg, ds, rfl, h1, h2, h3⟩
    · cases rest with
      | nil => rfl
      | cons c r =>
        have : ¬ (c = 0x65 ∨ c = 0x45) := by
          rintro (rfl | rfl) <;> exact he _ _ rfl (by decide)
        rw [List.nil_append, readExponent, if_neg this]
    · have : ∀ c, e = [c] → (c = 0x65 ∨ c = 0x45) → readExponent (e ++ sg ++ ds ++ rest) = some rest := by
        rintro c rfl hc
        simp only [List.append_assoc, List.cons_append, List.nil_append]
        rw [readExponent, if_pos hc, dropSign_complete h2 h3, readDigits_complete h3 he.noDigit]
      rcases h1 with rfl | rfl
      · exact this _ rfl (.inl rfl)
      · exact this _ rfl (.inr rfl)
  have hexp : ∀ c r, exp ++ rest = c :: r → c ∉ b!"0123456789." := by
    rcases hx with rfl | ⟨e, sg, ds, rfl, h1, h2, h3⟩
    · intro c r e hc; exact he c r e (List.mem_append_left b!"eE" hc)
    · rcases h1 with rfl | rfl <;>
      · intro c r e hc
        simp only [List.append_assoc, List.cons_append, List.nil_append, List.cons.injEq] at e
        rw [← e.1] at hc
        exact absurd hc (by decide)
  have e2 : readFraction (frac ++ (exp ++ rest)) = some (exp ++ rest) := by
    rcases hf with rfl | ⟨ds, rfl, hd⟩
    · rw [List.nil_append]
      unfold readFraction
      split
      · rename_i r e; exact absurd (by decide) (hexp _ _ e)
      · rfl
    · exact readDigits_complete hd fun c r e hc => hexp c r e (List.mem_append_left b!"." hc)
  have hfr : NoDigit (frac ++ (exp ++ rest)) := by
    rcases hf with rfl | ⟨ds, rfl, hd⟩
    · exact fun c r e hc => hexp c r e (List.mem_append_left b!"." hc)
    · intro c r e hc
      simp only [List.cons_append, List.nil_append, List.cons.injEq] at e
      rw [← e.1] at hc
      exact absurd hc (by decide)
  have e1 : readWhole (whole ++ (frac ++ (exp ++ rest))) = some (frac ++ (exp ++ rest)) := by
    rcases hw with rfl | ⟨hd, hh⟩
    · rfl
    · obtain ⟨d, r, rfl, hdd⟩ := digits_head hd
      unfold readWhole
      split
      · rename_i e
        rw [List.head?_cons] at hh
        exact absurd (congrArg some (List.cons.inj e).1) hh
      · exact readDigits_complete hd hfr
  have e0 : dropMinus (sign ++ (whole ++ (frac ++ (exp ++ rest)))) = whole ++ (frac ++ (exp ++ rest)) := by
    rcases hs with rfl | rfl
    · obtain ⟨d, r, rfl, hd⟩ := digits_head (number_whole hw)
      show dropMinus (d :: (r ++ _)) = d :: (r ++ _)
      unfold dropMinus
      split
      · rename_i e; rw [(List.cons.inj e).1] at hd; exact absurd hd (by decide)
      · rfl
    · rfl
  unfold readNumber
  simp only [List.append_assoc]
  rw [e0, e1]
  simp only [Option.bind_some, e2, e3]

theorem ends_of {c : UInt8} (h : c ∉ b!"0123456789.eE") (r : Bytes) : Ends (c :: r) := by
  intro d r' e hd
  rw [← (List.cons.inj e).1] at hd
  exact h hd

theorem ends_ws {w : Bytes} (hw : Ws w) {s : Bytes} (h : Ends s) : Ends (w ++ s) := by
  cases w with
  | nil => exact h
  | cons c w =>
    refine ends_of (fun hc => ?_) _
    have := hw c List.mem_cons_self
    revert hc
    simp only [List.mem_cons, List.not_mem_nil, or_false] at this
    rcases this with rfl | rfl | rfl | rfl <;> decide

theorem readChars_looseStr {t s : Bytes} (h : LooseStr t s) (rest : Bytes) : ∃ r, t ++ rest = 0x22 :: r ∧
    readChars (r.length + 1) r = some (s, rest) ∧ t.length + rest.length = r.length + 1 := by
  obtain ⟨b, rfl, hb⟩ := h
  refine ⟨b ++ 0x22 :: rest, by simp, readChars_loose hb _ _ (by simp; omega), by simp; omega⟩

theorem looseStr_length {t s : Bytes} (h : LooseStr t s) : 2 ≤ t.length := by
  obtain ⟨b, rfl, _⟩ := h
  simp

theorem readMembers_loose {w₁ w₂ w₃ w₄ kt vt k : Bytes} {v : Json} (h1 : Ws w₁) (h2 : Ws w₂) (h3 : Ws w₃)
    (h4 : Ws w₄) (hk : LooseStr kt k) (f : Nat) (rest : Bytes) (hv : readValue f (vt ++ (w₄ ++ rest)) = some (v, w₄ ++ rest)) :
    readMembers (f + 1) (w₁ ++ kt ++ w₂ ++ b!":" ++ w₃ ++ vt ++ w₄ ++ rest) =
      match skipWs rest with
      | [] => none
      | c :: r =>
        if c = 0x2C then (readMembers f r).map fun x => ((k, v) :: x.1, x.2)
        else if c = 0x7D then some ([(k, v)], r)
        else none := by
  obtain ⟨r, e, hr, _⟩ := readChars_looseStr hk (w₂ ++ 0x3A :: (w₃ ++ (vt ++ (w₄ ++ rest))))
  have e0 : w₁ ++ kt ++ w₂ ++ b!":" ++ w₃ ++ vt ++ w₄ ++ rest = w₁ ++ (kt ++ (w₂ ++ 0x3A :: (w₃ ++ (vt ++ (w₄ ++ rest))))) := by
    simp
  rw [e0, readMembers, skipWs_append h1, e, skipWs_cons (by decide)]
  simp only [if_true, hr]
  rw [skipWs_append h2, skipWs_cons (by decide)]
  simp only [if_true]
  rw [readValue_congr (skipWs_append h3 _), hv]
  simp only []
  rw [skipWs_append h4]
  rfl

/-- A byte that begins a value. -/
abbrev Opens (c : UInt8) : Prop := isWs c = false ∧ c ≠ 0x5D ∧ c ≠ 0x7D

theorem number_head {t : Bytes} (h : Number t) : ∃ c r, t = c :: r ∧ c ∈ b!"-0123456789" := by
  obtain ⟨sign, whole, frac, exp, rfl, hs, hw, _, _⟩ := h
  rcases hs with rfl | rfl
  · obtain ⟨d, r, rfl, hd⟩ := digits_head (number_whole hw)
    exact ⟨d, _, rfl, List.mem_cons_of_mem _ hd⟩
  · exact ⟨0x2D, _, rfl, by decide⟩

theorem accepted_opens {t : Bytes} {j : Json} (h : Accepted t j) : ∃ c r, t = c :: r ∧ Opens c := by
  cases h with
  | null => exact ⟨_, _, rfl, by decide⟩
  | true => exact ⟨_, _, rfl, by decide⟩
  | false => exact ⟨_, _, rfl, by decide⟩
  | number h =>
    obtain ⟨c, r, rfl, hc⟩ := number_head h
    refine ⟨c, r, rfl, ?_⟩
    simp only [List.mem_cons, List.not_mem_nil, or_false] at hc
    rcases hc with rfl | rfl | rfl | rfl | rfl | rfl | rfl | rfl | rfl | rfl | rfl <;> decide
  | str h => obtain ⟨b, rfl, _⟩ := h; exact ⟨_, _, rfl, by decide⟩
  | empty => exact ⟨_, _, rfl, by decide⟩
  | obj => exact ⟨_, _, rfl, by decide⟩
  | none => exact ⟨_, _, rfl, by decide⟩
  | array => exact ⟨_, _, rfl, by decide⟩

theorem acceptedMembers_start {t : Bytes} {fs : List (Bytes × Json)} (h : AcceptedMembers t fs) (rest : Bytes) :
    ∃ r, skipWs (t ++ rest) = 0x22 :: r := by
  cases h with
  | @one w₁ w₂ w₃ w₄ kt vt k v h1 _ _ _ hk _ =>
    obtain ⟨r, e, _⟩ := readChars_looseStr hk (w₂ ++ (b!":" ++ (w₃ ++ (vt ++ (w₄ ++ rest)))))
    refine ⟨r, ?_⟩
    simp only [List.append_assoc] at e ⊢
    rw [skipWs_append h1, e, skipWs_cons (by decide)]
  | @cons w₁ w₂ w₃ w₄ kt vt k v t fs h1 _ _ _ hk _ _ =>
    obtain ⟨r, e, _⟩ := readChars_looseStr hk (w₂ ++ (b!":" ++ (w₃ ++ (vt ++ (w₄ ++ (b!"," ++ (t ++ rest)))))))
    refine ⟨r, ?_⟩
    simp only [List.append_assoc] at e ⊢
    rw [skipWs_append h1, e, skipWs_cons (by decide)]

theorem acceptedItems_start {t : Bytes} (h : AcceptedItems t) (rest : Bytes) :
    ∃ c r, skipWs (t ++ rest) = c :: r ∧ c ≠ 0x5D := by
  cases h with
  | one h1 _ hv =>
    obtain ⟨c, r, rfl, hc⟩ := accepted_opens hv
    simp only [List.append_assoc]
    rw [skipWs_append h1, List.cons_append, skipWs_cons hc.1]
    exact ⟨c, _, rfl, hc.2.1⟩
  | cons h1 _ hv _ =>
    obtain ⟨c, r, rfl, hc⟩ := accepted_opens hv
    simp only [List.append_assoc]
    rw [skipWs_append h1, List.cons_append, skipWs_cons hc.1]
    exact ⟨c, _, rfl, hc.2.1⟩

theorem readItems_congr {s s' : Bytes} (h : skipWs s = skipWs s') (f : Nat) : readItems f s = readItems f s' := by
  cases f with
  | zero => rfl
  | succ f => rw [readItems, readItems, readValue_congr h]

mutual

theorem readValue_accepted {t : Bytes} {j : Json} : Accepted t j → ∀ (f : Nat) (rest : Bytes), t.length < f → Ends rest →
    readValue f (t ++ rest) = some (j, rest)
  | .null, f, rest, hf, he => by
    obtain ⟨f, rfl⟩ : ∃ g, f = g + 1 := ⟨f - 1, by omega⟩
    show readValue (f + 1) (0x6E :: 0x75 :: 0x6C :: 0x6C :: rest) = _
    rw [readValue, skipWs_cons (by decide)]
    simp [hasPrefix]
  | .true, f, rest, hf, he => by
    obtain ⟨f, rfl⟩ : ∃ g, f = g + 1 := ⟨f - 1, by omega⟩
    show readValue (f + 1) (0x74 :: 0x72 :: 0x75 :: 0x65 :: rest) = _
    rw [readValue, skipWs_cons (by decide)]
    simp [hasPrefix]
  | .false, f, rest, hf, he => by
    obtain ⟨f, rfl⟩ : ∃ g, f = g + 1 := ⟨f - 1, by omega⟩
    show readValue (f + 1) (0x66 :: 0x61 :: 0x6C :: 0x73 :: 0x65 :: rest) = _
    rw [readValue, skipWs_cons (by decide)]
    simp [hasPrefix]
  | .number h, f, rest, hf, he => by
    obtain ⟨f, rfl⟩ : ∃ g, f = g + 1 := ⟨f - 1, by omega⟩
    have hr := readNumber_complete h he
    obtain ⟨c, r, rfl, hc⟩ := number_head h
    have : isWs c = false ∧ c ≠ 0x7B ∧ c ≠ 0x5B ∧ c ≠ 0x22 ∧ c ≠ 0x6E ∧ c ≠ 0x74 ∧ c ≠ 0x66 := by
      simp only [List.mem_cons, List.not_mem_nil, or_false] at hc
      rcases hc with rfl | rfl | rfl | rfl | rfl | rfl | rfl | rfl | rfl | rfl | rfl <;> decide
    obtain ⟨n1, n2, n3, n4, n5, n6, n7⟩ := this
    rw [List.cons_append] at hr ⊢
    rw [readValue, skipWs_cons n1]
    simp only []
    rw [if_neg n2, if_neg n3, if_neg n4, if_neg (by simp [hasPrefix, Ne.symm n5]), if_neg (by simp [hasPrefix, Ne.symm n6]),
      if_neg (by simp [hasPrefix, Ne.symm n7]), hr]
    rfl
  | .str hs, f, rest, hf, he => by
    obtain ⟨f, rfl⟩ : ∃ g, f = g + 1 := ⟨f - 1, by omega⟩
    obtain ⟨r, e, hr, _⟩ := readChars_looseStr hs rest
    rw [e, readValue, skipWs_cons (by decide)]
    simp only []
    rw [if_neg (by decide), if_neg (by decide), if_pos trivial, hr]
    rfl
  | .empty (w := w) hw, f, rest, hf, he => by
    obtain ⟨f, rfl⟩ : ∃ g, f = g + 1 := ⟨f - 1, by omega⟩
    have e : 0x7B :: w ++ [0x7D] ++ rest = 0x7B :: (w ++ 0x7D :: rest) := by simp
    rw [e, readValue, skipWs_cons (by decide)]
    simp only [if_true]
    rw [skipWs_append hw, skipWs_cons (by decide)]
    simp
  | .obj (t := t) (fs := fs) hm, f, rest, hf, he => by
    obtain ⟨f, rfl⟩ : ∃ g, f = g + 1 := ⟨f - 1, by omega⟩
    have e : 0x7B :: t ++ [0x7D] ++ rest = 0x7B :: (t ++ 0x7D :: rest) := by simp
    have hr := readMembers_accepted hm f rest (by simp at hf; omega)
    obtain ⟨r, hs⟩ := acceptedMembers_start hm (0x7D :: rest)
    rw [e, readValue, skipWs_cons (by decide)]
    simp only [if_true]
    rw [hs]
    simp only []
    rw [if_neg (by decide), ← hs, readMembers_congr (skipWs_idem _), hr]
    rfl
  | .none (w := w) hw, f, rest, hf, he => by
    obtain ⟨f, rfl⟩ : ∃ g, f = g + 1 := ⟨f - 1, by omega⟩
    have e : 0x5B :: w ++ [0x5D] ++ rest = 0x5B :: (w ++ 0x5D :: rest) := by simp
    rw [e, readValue, skipWs_cons (by decide)]
    simp only []
    rw [if_neg (by decide), if_pos trivial, skipWs_append hw, skipWs_cons (by decide)]
    simp
  | .array (t := t) hm, f, rest, hf, he => by
    obtain ⟨f, rfl⟩ : ∃ g, f = g + 1 := ⟨f - 1, by omega⟩
    have e : 0x5B :: t ++ [0x5D] ++ rest = 0x5B :: (t ++ 0x5D :: rest) := by simp
    have hr := readItems_accepted hm f rest (by simp at hf; omega)
    obtain ⟨c, r, hs, hc⟩ := acceptedItems_start hm (0x5D :: rest)
    rw [e, readValue, skipWs_cons (by decide)]
    simp only []
    rw [if_neg (by decide), if_pos trivial, hs]
    simp only []
    rw [if_neg hc, ← hs, readItems_congr (skipWs_idem _), hr]
    rfl

theorem readMembers_accepted {t : Bytes} {fs : List (Bytes × Json)} : AcceptedMembers t fs → ∀ (f : Nat) (rest : Bytes),
    t.length < f → readMembers f (t ++ 0x7D :: rest) = some (fs, rest)
  | .one h1 h2 h3 h4 hk hv, f, rest, hf => by
    obtain ⟨f, rfl⟩ : ∃ g, f = g + 1 := ⟨f - 1, by omega⟩
    have := looseStr_length hk
    rw [readMembers_loose h1 h2 h3 h4 hk f _ (readValue_accepted hv f _ (by simp at hf; omega)
      (ends_ws h4 (ends_of (by decide) _))), skipWs_cons (by decide)]
    simp
  | .cons (t := t) h1 h2 h3 h4 hk hv hm, f, rest, hf => by
    obtain ⟨f, rfl⟩ : ∃ g, f = g + 1 := ⟨f - 1, by omega⟩
    have := looseStr_length hk
    simp only [List.length_append] at hf
    rw [List.append_assoc _ t, List.append_assoc _ b!",", List.singleton_append,
      readMembers_loose h1 h2 h3 h4 hk f _ (readValue_accepted hv f _ (by omega) (ends_ws h4 (ends_of (by decide) _))),
      skipWs_cons (by decide)]
    simp only [if_true]
    rw [readMembers_accepted hm f rest (by omega)]
    rfl

theorem readItems_accepted {t : Bytes} : AcceptedItems t → ∀ (f : Nat) (rest : Bytes),
    t.length + 1 < f → readItems f (t ++ 0x5D :: rest) = some rest
  | .one (w₁ := w₁) (w₂ := w₂) (vt := vt) h1 h2 hv, f, rest, hf => by
    obtain ⟨f, rfl⟩ : ∃ g, f = g + 1 := ⟨f - 1, by omega⟩
    simp only [List.length_append] at hf
    rw [List.append_assoc, List.append_assoc, readItems, readValue_congr (skipWs_append h1 _),
      readValue_accepted hv f _ (by omega) (ends_ws h2 (ends_of (by decide) _))]
    simp only []
    rw [skipWs_append h2, skipWs_cons (by decide)]
    rfl
  | .cons (w₁ := w₁) (w₂ := w₂) (vt := vt) (t := t) h1 h2 hv hm, f, rest, hf => by
    obtain ⟨f, rfl⟩ : ∃ g, f = g + 1 := ⟨f - 1, by omega⟩
    simp only [List.length_append, List.length_cons] at hf
    have e : w₁ ++ vt ++ w₂ ++ b!"," ++ t ++ 0x5D :: rest = w₁ ++ (vt ++ (w₂ ++ 0x2C :: (t ++ 0x5D :: rest))) := by simp
    rw [e, readItems, readValue_congr (skipWs_append h1 _),
      readValue_accepted hv f _ (by omega) (ends_ws h2 (ends_of (by decide) _))]
    simp only []
    rw [skipWs_append h2, skipWs_cons (by decide)]
    simp only [if_true]
    exact readItems_accepted hm f rest (by omega)

end

theorem readJson_complete {t : Bytes} {j : Json} (h : Acceptable t j) : readJson t = some j := by
  obtain ⟨w₁, t, w₂, rfl, h1, h2, hd⟩ := h
  have hw : Ends w₂ := by
    have := ends_ws h2 (s := []) (fun _ _ e => nomatch e)
    rwa [List.append_nil] at this
  unfold readJson
  rw [List.append_assoc, readValue_congr (skipWs_append h1 _), readValue_accepted hd _ _ (by simp; omega) hw]
  simp only []
  have : skipWs w₂ = [] := by
    have := skipWs_append h2 []
    rwa [List.append_nil] at this
  rw [this, if_pos rfl]

end Verif.Proofs.JsonText
