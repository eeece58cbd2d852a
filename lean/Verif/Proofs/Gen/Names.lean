import Verif.Proofs.Gen.Groups
import Verif.Spec.GenData
/-!
# The names of the generated functions are distinct
-/
namespace Verif.Proofs.Gen
open Verif.Go Verif.Model.Gen Verif.Spec.GenData

theorem low_nat {c : Char} (h : Low c) : 97 ≤ c.toNat ∧ c.toNat ≤ 122 := by
  unfold Low at h; simp only [Char.le_def, UInt32.le_iff_toNat_le] at h; exact h

theorem upp_nat {c : Char} (h : Upp c) : 65 ≤ c.toNat ∧ c.toNat ≤ 90 := by
  unfold Upp at h; simp only [Char.le_def, UInt32.le_iff_toNat_le] at h; exact h

theorem dig_nat {c : Char} (h : Dig c) : 48 ≤ c.toNat ∧ c.toNat ≤ 57 := by
  unfold Dig at h; simp only [Char.le_def, UInt32.le_iff_toNat_le] at h; exact h

theorem upper_nat {upper : Char → Char} (hu : Upper upper) {c : Char} (h : Low c) : (upper c).toNat = c.toNat - 32 := by
  rw [hu c h]
  have := low_nat h
  exact toNat_ofNat_of_valid (by omega)

/-- Empty, or the beginning of another code. -/
def Next (r : List Char) : Prop := r = [] ∨ ∃ c t, r = c :: t ∧ 65 ≤ c.toNat ∧ c.toNat ≤ 90

theorem span_low : ∀ {a b x y : List Char}, (∀ c ∈ a, Low c) → (∀ c ∈ b, Low c) → (∀ c ∈ x.head?, ¬ Low c) →
    (∀ c ∈ y.head?, ¬ Low c) → a ++ x = b ++ y → a = b ∧ x = y
  | [], [], _, _, _, _, _, _, h => ⟨rfl, h⟩
  | [], d :: b, x, y, _, hb, hx, _, h => by
    rw [List.nil_append] at h
    subst h
    exact absurd (hb d (by simp)) (hx d rfl)
  | c :: a, [], x, y, ha, _, _, hy, h => by
    rw [List.nil_append] at h
    subst h
    exact absurd (ha c (by simp)) (hy c rfl)
  | c :: a, d :: b, x, y, ha, hb, hx, hy, h => by
    rw [List.cons_append, List.cons_append, List.cons.injEq] at h
    obtain ⟨rfl, h⟩ := h
    obtain ⟨rfl, rfl⟩ := span_low (fun c hc => ha c (List.mem_cons_of_mem _ hc)) (fun c hc => hb c (List.mem_cons_of_mem _ hc)) hx hy h
    exact ⟨rfl, rfl⟩

theorem subtag_cancel {s s' y y' : List Char} (hs : Subtag s) (hs' : Subtag s') (h : s ++ y = s' ++ y') : s = s' ∧ y = y' := by
  cases hs with
  | region h1 h2 =>
    cases hs' with
    | region h3 h4 => simp_all
    | area h3 => simp at h; have := upp_nat h1; have := dig_nat h3; rw [← h.1] at this; omega
    | script h3 h4 => simp at h; have := upp_nat h2; have := low_nat h4; rw [← h.2.1] at this; omega
  | area h1 h2 h3 =>
    cases hs' with
    | region h4 => simp at h; have := upp_nat h4; have := dig_nat h1; rw [h.1] at this; omega
    | area => simp_all
    | script h4 => simp at h; have := upp_nat h4; have := dig_nat h1; rw [h.1] at this; omega
  | script h1 h2 =>
    cases hs' with
    | region h3 h4 => simp at h; have := upp_nat h4; have := low_nat h2; rw [h.2.1] at this; omega
    | area h3 => simp at h; have := upp_nat h1; have := dig_nat h3; rw [← h.1] at this; omega
    | script => simp_all

theorem subs_cancel : ∀ {l l' : List (List Char)} {r r' : List Char}, (∀ s ∈ l, Subtag s) → (∀ s ∈ l', Subtag s) → Next r → Next r' →
    l.flatMap ('_' :: ·) ++ r = l'.flatMap ('_' :: ·) ++ r' → l = l' ∧ r = r'
  | [], [], _, _, _, _, _, _, h => ⟨rfl, h⟩
  | [], s :: l', r, r', _, _, hr, _, h => by
    simp only [List.flatMap_nil, List.nil_append, List.flatMap_cons, List.cons_append] at h
    rcases hr with rfl | ⟨c, t, rfl, h1, h2⟩
    · cases h
    · rw [(List.cons.inj h).1] at h2; exact absurd h2 (by decide)
  | s :: l, [], r, r', _, _, _, hr, h => by
    simp only [List.flatMap_nil, List.nil_append, List.flatMap_cons, List.cons_append] at h
    rcases hr with rfl | ⟨c, t, rfl, h1, h2⟩
    · cases h
    · rw [← (List.cons.inj h).1] at h2; exact absurd h2 (by decide)
  | s :: l, s' :: l', r, r', hl, hl', hr, hr', h => by
    simp only [List.flatMap_cons, List.cons_append, List.append_assoc, List.cons.injEq, true_and] at h
    obtain ⟨rfl, h'⟩ := subtag_cancel (hl s (by simp)) (hl' s' (by simp)) h
    obtain ⟨rfl, rfl⟩ := subs_cancel (fun s hs => hl s (List.mem_cons_of_mem _ hs)) (fun s hs => hl' s (List.mem_cons_of_mem _ hs)) hr hr' h'
    exact ⟨rfl, rfl⟩

/-- A code as part of a name. -/
def cap (upper : Char → Char) (w : List Char) (subs : List (List Char)) : List Char :=
  (match w with | [] => [] | c :: cs => upper c :: cs) ++ subs.flatMap ('_' :: ·)

theorem subtag_chars {s : List Char} (h : Subtag s) : ∀ c ∈ s, 48 ≤ c.toNat := by
  cases h with
  | region h1 h2 =>
    have := upp_nat h1; have := upp_nat h2
    intro c hc; simp only [List.mem_cons, List.not_mem_nil, or_false] at hc; rcases hc with rfl | rfl <;> omega
  | area h1 h2 h3 =>
    have := dig_nat h1; have := dig_nat h2; have := dig_nat h3
    intro c hc; simp only [List.mem_cons, List.not_mem_nil, or_false] at hc; rcases hc with rfl | rfl | rfl <;> omega
  | script h1 h2 h3 h4 =>
    have := upp_nat h1; have := low_nat h2; have := low_nat h3; have := low_nat h4
    intro c hc; simp only [List.mem_cons, List.not_mem_nil, or_false] at hc; rcases hc with rfl | rfl | rfl | rfl <;> omega

/-- The replacements in a name. -/
def clean (l : List Char) : List Char := (l.filter (· ≠ ' ')).map fun c => if c = '-' then '_' else c

theorem clean_append (a b : List Char) : clean (a ++ b) = clean a ++ clean b := by simp [clean]

theorem clean_id {l : List Char} (h : ∀ c ∈ l, 48 ≤ c.toNat) : clean l = l := by
  induction l with
  | nil => rfl
  | cons c l ih =>
    have hc := h c (by simp)
    have h1 : c ≠ ' ' := fun e => by subst e; exact absurd hc (by decide)
    have h2 : c ≠ '-' := fun e => by subst e; exact absurd hc (by decide)
    have := ih fun c hc => h c (List.mem_cons_of_mem _ hc)
    unfold clean at this ⊢
    rw [List.filter_cons_of_pos (by simpa using h1), List.map_cons, this, if_neg h2]

theorem clean_subs : ∀ {l : List (List Char)}, (∀ s ∈ l, Subtag s) → clean (l.flatMap ('-' :: ·)) = l.flatMap ('_' :: ·)
  | [], _ => rfl
  | s :: l, h => by
    rw [List.flatMap_cons, List.flatMap_cons, clean_append, clean_subs fun s hs => h s (List.mem_cons_of_mem _ hs)]
    congr 1
    show clean (['-'] ++ s) = _
    rw [clean_append, clean_id (subtag_chars (h s (by simp)))]
    rfl

theorem capital_code {upper : Char → Char} (hu : Upper upper) {w : List Char} {subs : List (List Char)} (hw : w ≠ [])
    (hl : ∀ c ∈ w, Low c) (hs : ∀ s ∈ subs, Subtag s) :
    capital upper (utf8 (w ++ subs.flatMap ('-' :: ·))) = some (utf8 (cap upper w subs)) := by
  cases w with
  | nil => exact absurd rfl hw
  | cons c w =>
    unfold capital
    rw [runes_utf8, List.cons_append]
    simp only []
    congr 2
    show clean ((upper c :: w) ++ _) = _
    rw [clean_append, clean_subs hs, clean_id]
    · rfl
    · intro d hd
      rcases List.mem_cons.mp hd with rfl | hd
      · have := low_nat (hl c (by simp)); rw [upper_nat hu (hl c (by simp))]; omega
      · have := low_nat (hl d (List.mem_cons_of_mem _ hd)); omega

theorem cap_next {upper : Char → Char} (hu : Upper upper) {w : List Char} {subs : List (List Char)} (hw : w ≠ [])
    (hl : ∀ c ∈ w, Low c) (r : List Char) : Next (cap upper w subs ++ r) := by
  cases w with
  | nil => exact absurd rfl hw
  | cons c w =>
    refine .inr ⟨upper c, _, rfl, ?_⟩
    have := low_nat (hl c (by simp)); rw [upper_nat hu (hl c (by simp))]; omega

theorem next_not_low {r : List Char} (h : Next r) : ∀ c ∈ r.head?, ¬ Low c := by
  rcases h with rfl | ⟨c, t, rfl, h1, h2⟩
  · simp
  · intro d hd hl
    simp only [List.head?_cons, Option.mem_some_iff] at hd
    subst hd
    have := low_nat hl
    omega

theorem subs_not_low (subs : List (List Char)) {r : List Char} (h : Next r) :
    ∀ c ∈ (subs.flatMap ('_' :: ·) ++ r).head?, ¬ Low c := by
  cases subs with
  | nil => exact next_not_low h
  | cons s l =>
    intro d hd hl
    simp only [List.flatMap_cons, List.cons_append, List.head?_cons, Option.mem_some_iff] at hd
    subst hd
    exact absurd (low_nat hl) (by decide)

theorem cap_cancel {upper : Char → Char} (hu : Upper upper) {w w' : List Char} {l l' : List (List Char)} {r r' : List Char}
    (hw : w ≠ []) (hw' : w' ≠ []) (hl : ∀ c ∈ w, Low c) (hl' : ∀ c ∈ w', Low c) (hs : ∀ s ∈ l, Subtag s) (hs' : ∀ s ∈ l', Subtag s)
    (hr : Next r) (hr' : Next r') (h : cap upper w l ++ r = cap upper w' l' ++ r') : w = w' ∧ l = l' ∧ r = r' := by
  cases w with
  | nil => exact absurd rfl hw
  | cons c w =>
    cases w' with
    | nil => exact absurd rfl hw'
    | cons c' w' =>
      unfold cap at h
      simp only [List.cons_append, List.cons.injEq, List.append_assoc] at h
      obtain ⟨h1, h2⟩ := h
      have hc : c = c' := by
        have e := congrArg Char.toNat h1
        have a := low_nat (hl c (by simp))
        have b := low_nat (hl' c' (by simp))
        rw [upper_nat hu (hl c (by simp)), upper_nat hu (hl' c' (by simp))] at e
        exact char_ext (by omega)
      obtain ⟨rfl, h3⟩ := span_low (fun c hc => hl c (List.mem_cons_of_mem _ hc)) (fun c hc => hl' c (List.mem_cons_of_mem _ hc))
        (subs_not_low l hr) (subs_not_low l' hr') h2
      obtain ⟨rfl, rfl⟩ := subs_cancel hs hs' hr hr' h3
      exact ⟨by rw [hc], rfl, rfl⟩

theorem name_chars {upper : Char → Char} (hu : Upper upper) : ∀ {langs : List Bytes}, (∀ l ∈ langs, Code l) →
    ∃ cs, nameOf upper langs = some (utf8 cs) ∧ Next cs
  | [], _ => ⟨[], rfl, .inl rfl⟩
  | l :: ls, h => by
    obtain ⟨cs, h1, -⟩ := name_chars hu fun l hl => h l (List.mem_cons_of_mem _ hl)
    obtain ⟨w, subs, hw, hl, hs, rfl⟩ := h l (by simp)
    refine ⟨cap upper w subs ++ cs, ?_, cap_next hu hw hl cs⟩
    simp only [nameOf, capital_code hu hw hl hs, h1]
    rw [← utf8_append]

theorem name_injective {upper : Char → Char} (hu : Upper upper) : ∀ {a b : List Bytes}, (∀ l ∈ a, Code l) → (∀ l ∈ b, Code l) →
    nameOf upper a = nameOf upper b → a = b
  | [], [], _, _, _ => rfl
  | [], l :: ls, _, hb, h => by
    obtain ⟨cs, h1, -⟩ := name_chars hu fun l hl => hb l (List.mem_cons_of_mem _ hl)
    obtain ⟨w, subs, hw, hl, hs, rfl⟩ := hb l (by simp)
    simp only [nameOf, capital_code hu hw hl hs, h1, ← utf8_append, Option.some.injEq] at h
    have := utf8_injective (a := []) h
    cases w with
    | nil => exact absurd rfl hw
    | cons c w => cases this
  | l :: ls, [], ha, _, h => by
    obtain ⟨cs, h1, -⟩ := name_chars hu fun l hl => ha l (List.mem_cons_of_mem _ hl)
    obtain ⟨w, subs, hw, hl, hs, rfl⟩ := ha l (by simp)
    simp only [nameOf, capital_code hu hw hl hs, h1, ← utf8_append, Option.some.injEq] at h
    have := utf8_injective (b := []) h
    cases w with
    | nil => exact absurd rfl hw
    | cons c w => cases this
  | l :: ls, l' :: ls', ha, hb, h => by
    obtain ⟨cs, h1, hn⟩ := name_chars hu fun l hl => ha l (List.mem_cons_of_mem _ hl)
    obtain ⟨cs', h1', hn'⟩ := name_chars hu fun l hl => hb l (List.mem_cons_of_mem _ hl)
    obtain ⟨w, subs, hw, hl, hs, rfl⟩ := ha l (by simp)
    obtain ⟨w', subs', hw', hl', hs', rfl⟩ := hb l' (by simp)
    simp only [nameOf, capital_code hu hw hl hs, capital_code hu hw' hl' hs', h1, h1', ← utf8_append, Option.some.injEq] at h
    obtain ⟨rfl, rfl, rfl⟩ := cap_cancel hu hw hw' hl hl' hs hs' hn hn' (utf8_injective h)
    rw [name_injective hu (fun l hl => ha l (List.mem_cons_of_mem _ hl)) (fun l hl => hb l (List.mem_cons_of_mem _ hl))
      (h1.trans h1'.symm)]

end Verif.Proofs.Gen
