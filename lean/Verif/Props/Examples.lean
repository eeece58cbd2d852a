import Verif.Proofs.PoPlural.Examples
/-!
# The examples for the generated tests (C115)
-/
namespace Verif.Props.Examples
open Verif.Go Verif.Model.PoPlural.Examples Verif.Spec.Examples Verif.Proofs.PoPlural.Examples

/-- The examples are found exactly if every text can be read; cases that are not in the list do not matter. -/
theorem C115_ok_iff (cases : List Bytes) (data : GoMap Bytes Bytes) (h : data.WF) :
    (∃ m, extractExamples cases data = .ok m) ↔ ∀ p ∈ data, Readable p.2 :=
  (caseLoop_iff cases data [] h).1

/-- The examples at an index are those of the case with this name, if the name is in the list for the first time. -/
theorem C115_result (cases : List Bytes) (data : GoMap Bytes Bytes) (h : data.WF) (m : GoMap Nat (List Bytes))
    (hm : extractExamples cases data = .ok m) (i : Nat) (l : List Bytes) : m.get? i = some l ↔
    ∃ name text, data.get? name = some text ∧ FirstAt cases name i ∧ ShowsAll (parts text) l := by
  rw [(caseLoop_iff cases data [] h).2 m hm i l]
  simp only [GoMap.get?_nil, reduceCtorEq, and_false, or_false, GoMap.mem_iff h]

/-- The order in which the map is visited does not matter. -/
theorem C115_order (cases : List Bytes) (data data' : GoMap Bytes Bytes) (h : data.WF) (hp : data.Perm data')
    (m : GoMap Nat (List Bytes)) (hm : extractExamples cases data = .ok m) :
    ∃ m', extractExamples cases data' = .ok m' ∧ m.Same m' := by
  have h' := h.perm hp
  obtain ⟨m', hm'⟩ := (C115_ok_iff cases data' h').2 fun p hp' =>
    (C115_ok_iff cases data h).1 ⟨m, hm⟩ p (hp.mem_iff.2 hp')
  refine ⟨m', hm', fun i => ?_⟩
  have hs := GoMap.same_of_perm h hp
  have : ∀ l, m.get? i = some l ↔ m'.get? i = some l := by
    intro l
    rw [C115_result cases data h m hm, C115_result cases data' h' m' hm']
    simp only [hs _]
  cases hg : m.get? i with
  | some l => exact ((this l).1 hg).symm
  | none =>
    cases hg' : m'.get? i with
    | none => rfl
    | some l => rw [(this l).2 hg'] at hg; cases hg

/-- All numbers of a range are examples and no others, as many as there are numbers. -/
theorem C115_range (part : Bytes) (a b : Int) (h : Range part a b) (l : List Bytes) (hl : Shows part l) :
    (∀ t, t ∈ l ↔ ∃ n, a ≤ n ∧ n ≤ b ∧ t = itoa n) ∧ l.length = (b + 1 - a).toNat := by
  cases hl with
  | value hn => exact absurd (range_isRange h) hn
  | @range a' b' h' =>
    obtain ⟨x, y, h1, h2, h3⟩ := range_split h
    obtain ⟨x', y', h1', h2', h3'⟩ := range_split h'
    rw [h1] at h1'; cases h1'
    rw [h2] at h2'; rw [h3] at h3'
    cases h2'; cases h3'
    refine ⟨fun t => ?_, by simp⟩
    rw [List.mem_map]
    constructor
    · rintro ⟨k, hk, rfl⟩
      rw [List.mem_range] at hk
      exact ⟨a + k, by omega, by omega, rfl⟩
    · rintro ⟨n, h1, h2, rfl⟩
      refine ⟨(n - a).toNat, List.mem_range.2 (by omega), ?_⟩
      congr 1
      omega

/-- The full claim, that the text ends at the omission points, is false: without exactly one blank before them
they are an example. -/
theorem C115_negation : extractExamples [b!"one"] [(b!"one", b!"1, 2~3,…")] =
      .ok [(0, [b!"1", b!"2", b!"3", b!"…"])] ∧
    extractExamples [b!"one"] [(b!"one", b!"1, 2~3, …")] = .ok [(0, [b!"1", b!"2", b!"3"])] := by
  constructor <;> rfl

/-- A range up to the greatest `int` never ends. -/
theorem C115_forever_negation : extractExamples [b!"one"] [(b!"one", b!"9223372036854775807~9223372036854775807")] =
    .error .forever := rfl

/-- Two cases, one of them twice in the list, and one that is not in it; ranges, a compact number and the omission
points. -/
example : ∃ cases data m, GoMap.WF data ∧ extractExamples cases data = .ok m ∧ data.length = 3 ∧
    m.get? 0 = some [b!"1"] ∧ m.get? 1 = some [b!"0", b!"2", b!"3", b!"4", b!"1e6"] ∧ m.get? 2 = none :=
  ⟨[b!"one", b!"other", b!"one"], [(b!"other", b!"0, 2~4, 1c6, …, 7"), (b!"many", b!"5"), (b!"one", b!"1")], _, by decide, rfl, rfl,
    rfl, rfl, rfl⟩

example : Range b!" 2~16" 2 16 := ⟨b!"2", b!"16", rfl, by decide, by decide, rfl, rfl⟩

end Verif.Props.Examples
