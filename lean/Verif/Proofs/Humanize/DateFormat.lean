import Verif.Model.Humanize.DateFormat
import Verif.Spec.DateFormat
import Verif.Proofs.Utf8
import Verif.Proofs.Go.Civil
/-!
# Proofs about date formats
-/
namespace Verif.Proofs.Humanize
open Verif.Go Verif.Model.Humanize Verif.Spec.DateFormat

theorem letter_some (env : Env) (t : Time) : ∀ c ∈ formatLetters, c ≠ 'M' → ∃ s : Bytes, letter env t c = some (.ok s) := by
  intro c hc hm
  simp only [formatLetters, List.mem_cons, List.not_mem_nil, or_false] at hc
  rcases hc with rfl | rfl | rfl | rfl | rfl | rfl | rfl | rfl | rfl | rfl | rfl | rfl | rfl | rfl | rfl | rfl | rfl | rfl |
    rfl | rfl | rfl | rfl | rfl | rfl | rfl | rfl | rfl | rfl | rfl | rfl | rfl | rfl | rfl | rfl | rfl | rfl | rfl | rfl | rfl
  all_goals first | exact absurd rfl hm | exact ⟨_, rfl⟩

theorem letter_M_eq (env : Env) (t : Time) : letter env t 'M' = some (letter_M env t) := rfl

theorem letter_none (env : Env) (t : Time) (c : Char) (hc : c ∉ formatLetters) : letter env t c = none := by
  simp only [formatLetters, List.mem_cons, List.not_mem_nil, or_false, not_or] at hc
  unfold letter
  split
  all_goals first | rfl | (exfalso; simp_all; done)

/-- The text of a format letter; of no account where there is none. -/
def value (env : Env) (t : Time) (c : Char) : Bytes :=
  match letter env t c with
  | some (.ok s) => s
  | _ => []

theorem exists_reads : ∀ (n : Nat) (cs : List Char), cs.length ≤ n → ∃ (pieces : List Piece) (tail : List Char), Reads cs pieces tail := by
  intro n
  induction n with
  | zero =>
    intro cs h
    have : cs = [] := List.eq_nil_of_length_eq_zero (by omega)
    subst this
    exact ⟨[], [], by simp, by simp, rfl⟩
  | succ n ih =>
    intro cs h
    match cs, h with
    | [], _ => exact ⟨[], [], by simp, by simp, rfl⟩
    | [c], _ =>
      by_cases hc : c = '\\'
      · subst hc; exact ⟨[], ['\\'], by simp, by simp, rfl⟩
      · by_cases hl : c ∈ formatLetters
        · exact ⟨[.letter c], [], by simpa [Piece.Ok] using hl, by simp, rfl⟩
        · exact ⟨[.lit c], [], by simpa [Piece.Ok] using ⟨hl, hc⟩, by simp, rfl⟩
    | c :: d :: rest, h =>
      by_cases hc : c = '\\'
      · obtain ⟨ps, tl, h1, h2, h3⟩ := ih rest (by simp at h; omega)
        subst hc
        exact ⟨.esc d :: ps, tl, by simpa [Piece.Ok] using h1, h2, by simp [Piece.source, h3]⟩
      · obtain ⟨ps, tl, h1, h2, h3⟩ := ih (d :: rest) (by simp at h ⊢; omega)
        by_cases hl : c ∈ formatLetters
        · exact ⟨.letter c :: ps, tl, by simpa [Piece.Ok, hl] using h1, h2, by simp [Piece.source, h3]⟩
        · refine ⟨.lit c :: ps, tl, ?_, h2, by simp [Piece.source, h3]⟩
          intro p hp
          rcases List.mem_cons.mp hp with rfl | hp
          · exact ⟨hl, hc⟩
          · exact h1 p hp

theorem formatRunes_esc (env : Env) (t : Time) (r : Char) (rest : List Char) :
    formatRunes env t ('\\' :: r :: rest) =
      match formatRunes env t rest with
      | .ok s => .ok (encodeRune r ++ s)
      | .error f => .error f := by
  rw [formatRunes.eq_3]; rfl

theorem formatRunes_other (env : Env) (t : Time) (r : Char) (rest : List Char) (h : r ≠ '\\') :
    formatRunes env t (r :: rest) =
    match letter env t r with
    | some (.error f) => .error f
    | some (.ok s') =>
      match formatRunes env t rest with
      | .ok s => .ok (s' ++ s)
      | .error f => .error f
    | none =>
      match formatRunes env t rest with
      | .ok s => .ok (encodeRune r ++ s)
      | .error f => .error f := by
  rw [formatRunes.eq_4 env t r rest (fun h1 _ => h h1) (fun _ _ h1 _ => h h1)]; rfl

theorem backslash_not_letter : '\\' ∉ formatLetters := by decide

/-- The result of a format, from its parts. -/
theorem formatRunes_reads (env : Env) (t : Time) (tail : List Char) (ht : tail = [] ∨ tail = ['\\']) :
    ∀ pieces : List Piece, (∀ p ∈ pieces, p.Ok) →
      (Piece.letter 'M' ∈ pieces ∧ runes (env.loc.get (nameOf months3 t.month)) = [] →
        formatRunes env t (pieces.flatMap Piece.source ++ tail) = .error .indexOutOfRange) ∧
      (¬ (Piece.letter 'M' ∈ pieces ∧ runes (env.loc.get (nameOf months3 t.month)) = []) →
        formatRunes env t (pieces.flatMap Piece.source ++ tail) =
          .ok (pieces.flatMap (Piece.text encodeRune (value env t)) ++ utf8 tail)) := by
  intro pieces
  induction pieces with
  | nil =>
    intro _
    refine ⟨fun h => absurd h.1 (by simp), fun _ => ?_⟩
    rcases ht with rfl | rfl
    · rfl
    · simp [formatRunes]
  | cons p ps ih =>
    intro hok
    obtain ⟨ih1, ih2⟩ := ih fun q hq => hok q (List.mem_cons_of_mem _ hq)
    have hp := hok p List.mem_cons_self
    cases p with
    | lit c =>
      obtain ⟨hl, hc⟩ := hp
      have e : (Piece.lit c :: ps).flatMap Piece.source ++ tail = c :: (ps.flatMap Piece.source ++ tail) := by simp [Piece.source]
      rw [e, formatRunes_other _ _ _ _ hc, letter_none _ _ _ hl]
      constructor
      · intro h
        rw [ih1 ⟨by simpa using h.1, h.2⟩]
      · intro h
        rw [ih2 (fun h' => h ⟨by simpa using h'.1, h'.2⟩)]
        simp [Piece.text]
    | esc c =>
      have e : (Piece.esc c :: ps).flatMap Piece.source ++ tail = '\\' :: c :: (ps.flatMap Piece.source ++ tail) := by simp [Piece.source]
      rw [e, formatRunes_esc]
      constructor
      · intro h
        rw [ih1 ⟨by simpa using h.1, h.2⟩]
      · intro h
        rw [ih2 (fun h' => h ⟨by simpa using h'.1, h'.2⟩)]
        simp [Piece.text]
    | letter c =>
      have hl : c ∈ formatLetters := hp
      have hc : c ≠ '\\' := fun h => backslash_not_letter (h ▸ hl)
      have e : (Piece.letter c :: ps).flatMap Piece.source ++ tail = c :: (ps.flatMap Piece.source ++ tail) := by simp [Piece.source]
      rw [e, formatRunes_other _ _ _ _ hc]
      by_cases hM : c = 'M'
      · subst hM
        rw [letter_M_eq]
        cases hr : runes (env.loc.get (nameOf months3 t.month)) with
        | nil =>
          have : letter_M env t = .error .indexOutOfRange := by unfold letter_M; rw [hr]
          rw [this]
          exact ⟨fun _ => rfl, fun h => absurd ⟨List.mem_cons_self, rfl⟩ h⟩
        | cons r rest =>
          have hv : letter_M env t = .ok (value env t 'M') := by
            unfold value; rw [letter_M_eq]; unfold letter_M; rw [hr]
          rw [hv]
          refine ⟨fun h => absurd h.2 (by simp), fun _ => ?_⟩
          rw [ih2 (fun h' => by rw [hr] at h'; exact absurd h'.2 (by simp))]
          simp [Piece.text]
      · obtain ⟨s, hs⟩ := letter_some env t c hl hM
        have hv : value env t c = s := by unfold value; rw [hs]
        rw [hs]
        have hne : Piece.letter 'M' ≠ Piece.letter c := by intro h; injection h with h; exact hM h.symm
        constructor
        · intro h
          rw [ih1 ⟨(List.mem_cons.mp h.1).resolve_left hne, h.2⟩]
        · intro h
          rw [ih2 (fun h' => h ⟨List.mem_cons_of_mem _ h'.1, h'.2⟩)]
          simp [Piece.text, hv]

theorem runes_eq_nil {s : Bytes} : runes s = [] ↔ s = [] := by
  constructor
  · intro h
    cases s with
    | nil => rfl
    | cons b bs => rw [runes_cons] at h; simp at h
  · rintro rfl; rfl

end Verif.Proofs.Humanize
