import Verif.Spec.PluralLines
import Verif.Proofs.Po.Blocks
import Verif.Proofs.PoString
/-!
# Lemmas: the lines of a plural entry
-/
namespace Verif.Proofs.Po
open Verif.Go Verif.Model.Po Verif.Spec.PoEntry Verif.Spec.PluralLines

/-! ## The parser -/

/-- All but the translations is well-formed, and every line of the translations is. -/
theorem run_placed (u : Unicode) (ignore : Bool) (st : PState) {e : Entry} {fs : List (Bytes × Spec.PoEntry.Field)}
    (hw : (∀ c ∈ e.comments, c.WF) ∧ (∀ f ∈ e.context, f.WF) ∧ e.id.WF ∧ (∀ f ∈ e.idPlural, f.WF))
    (he : e.str = .plural fs) (hf : ∀ p ∈ fs, IndexOk p.1 ∧ p.2.WF) :
    run u ignore st e.lines = store u st { e.message ignore with str := placed fs } := by
  obtain ⟨C, M, h⟩ := entry_tokens_loose ignore e ⟨hw.1, hw.2.1, hw.2.2.1, hw.2.2.2, by rw [he]; exact hf⟩
  rw [run_entry_loose u ignore h st, he]
  rfl

/-! ## The rule -/

/-- Bytes in all texts. -/
def total (m : GoMap Int Bytes) : Nat := (m.map fun p => p.2.length).sum

/-- Bytes in a line. -/
def _root_.Verif.Spec.PluralLines.Line.size : Line → Nat
  | .text _ t => t.length
  | .more t => t.length

theorem total_set (m : GoMap Int Bytes) (k : Int) (v : Bytes) :
    total (m.set k v) + ((m.get? k).getD []).length = total m + v.length := by
  induction m with
  | nil => simp [GoMap.set, total, GoMap.get?]
  | cons p m ih =>
    obtain ⟨a, b⟩ := p
    simp only [GoMap.set, GoMap.get?]
    split
    · simp [total]; omega
    · simp only [total, List.map_cons, List.sum_cons] at ih ⊢; omega

theorem total_place (m : GoMap Int Bytes) (l : Line) : total (place m l) ≤ total m + l.size := by
  cases l with
  | text i t => have := total_set m i t; simp only [place, Line.size]; omega
  | more t =>
    have := total_set m (m.length - 1 : Int) ((m.get? (m.length - 1 : Int)).getD [] ++ t)
    simp only [place, Line.size] at this ⊢
    rw [List.length_append] at this
    omega

theorem total_foldl (ls : List Line) : ∀ m, total (ls.foldl place m) ≤ total m + (ls.map Line.size).sum := by
  induction ls with
  | nil => intro m; simp
  | cons l ls ih =>
    intro m
    have h1 := ih (place m l)
    have h2 := total_place m l
    simp only [List.foldl_cons, List.map_cons, List.sum_cons]
    omega

/-- The indices set by lines. -/
def lineIndices : List Line → List Int
  | [] => []
  | .text i _ :: ls => (i : Int) :: lineIndices ls
  | .more _ :: ls => lineIndices ls

theorem lineIndices_append (a b : List Line) : lineIndices (a ++ b) = lineIndices a ++ lineIndices b := by
  induction a with
  | nil => rfl
  | cons l a ih => cases l <;> simp [lineIndices, ih]

/-- A text that is there is only lengthened, unless it is set anew. -/
theorem grows (ls : List Line) {k : Int} : ∀ {m : GoMap Int Bytes} {v : Bytes}, k ∉ lineIndices ls → m.get? k = some v →
    ∃ w, (ls.foldl place m).get? k = some w ∧ v.length ≤ w.length := by
  induction ls with
  | nil => intro m v _ h; exact ⟨v, h, Nat.le_refl _⟩
  | cons l ls ih =>
    intro m v hk h
    cases l with
    | text i t =>
      simp only [lineIndices, List.mem_cons, not_or] at hk
      refine ih hk.2 (v := v) ?_
      rw [place, GoMap.get?_set, if_neg (fun e => hk.1 e.symm), h]
    | more t =>
      have hk : k ∉ lineIndices ls := hk
      by_cases e : (m.length - 1 : Int) = k
      · obtain ⟨w, h1, h2⟩ := ih (m := place m (.more t)) (v := v ++ t) hk (by
          rw [place, GoMap.get?_set, if_pos e, e, h]; rfl)
        exact ⟨w, h1, by rw [List.length_append] at h2; omega⟩
      · exact ih hk (by rw [place, GoMap.get?_set, if_neg e, h])

/-- A text at an index that is set later is lost. -/
theorem lost (ls : List Line) {k : Int} : ∀ {m : GoMap Int Bytes} {v : Bytes}, k ∈ lineIndices ls → m.get? k = some v →
    v ≠ [] → total (ls.foldl place m) < total m + (ls.map Line.size).sum := by
  induction ls with
  | nil => intro m v hk; cases hk
  | cons l ls ih =>
    intro m v hk h hv
    have hvp : 0 < v.length := List.length_pos_iff.2 hv
    simp only [List.foldl_cons, List.map_cons, List.sum_cons]
    cases l with
    | text i t =>
      by_cases e : (i : Int) = k
      · have h1 := total_foldl ls (place m (.text i t))
        have h2 := total_set m i t
        rw [e, h] at h2
        simp only [place, Line.size, Option.getD_some] at h1 h2 ⊢
        rw [e] at h1 ⊢
        omega
      · have hk : k ∈ lineIndices ls := by
          simp only [lineIndices, List.mem_cons] at hk
          exact hk.resolve_left fun h => e h.symm
        have := ih (m := place m (.text i t)) (v := v) hk (by rw [place, GoMap.get?_set, if_neg e, h]) hv
        have := total_place m (.text i t)
        omega
    | more t =>
      have hk : k ∈ lineIndices ls := hk
      have h2 := total_place m (.more t)
      by_cases e : (m.length - 1 : Int) = k
      · have := ih (m := place m (.more t)) (v := v ++ t) hk (by
          rw [place, GoMap.get?_set, if_pos e, e, h]; rfl) (by simp [hv])
        omega
      · have := ih (m := place m (.more t)) (v := v) hk (by rw [place, GoMap.get?_set, if_neg e, h]) hv
        omega

theorem wf_place {m : GoMap Int Bytes} (h : m.WF) (l : Line) : (place m l).WF := by
  cases l <;> exact h.set _ _

theorem wf_foldl (ls : List Line) : ∀ {m : GoMap Int Bytes}, m.WF → (ls.foldl place m).WF := by
  induction ls with
  | nil => intro m h; exact h
  | cons l ls ih => intro m h; exact ih (wf_place h l)

theorem total_same {m n : GoMap Int Bytes} (hm : m.WF) (hn : n.WF) (h : m.Same n) : total m = total n :=
  ((GoMap.perm_of_same hm hn h).map _).sum_nat

/-- The texts the lines are meant to give. -/
def meant (fs : List (Bytes × Spec.PoEntry.Field)) : GoMap Int Bytes := (Str.plural fs).value

theorem size_linesOf (p : Bytes × Spec.PoEntry.Field) : ((linesOf p).map Line.size).sum = p.2.value.length := by
  obtain ⟨ds, f⟩ := p
  unfold linesOf Spec.PoEntry.Field.value
  rw [List.map_cons, List.sum_cons, utf8_append, List.length_append]
  congr 1
  show _ = (utf8 (f.rest.flatMap Quoted.value)).length
  induction f.rest with
  | nil => rfl
  | cons q rest ih =>
    rw [List.map_cons, List.map_cons, List.sum_cons, ih, List.flatMap_cons, utf8_append, List.length_append]
    rfl

theorem size_lines (fs : List (Bytes × Spec.PoEntry.Field)) :
    ((fs.flatMap linesOf).map Line.size).sum = total (meant fs) := by
  induction fs with
  | nil => rfl
  | cons p fs ih =>
    rw [List.flatMap_cons, List.map_append, List.sum_append, size_linesOf, ih]
    simp [meant, Str.value, total]

theorem lineIndices_linesOf (p : Bytes × Spec.PoEntry.Field) : lineIndices (linesOf p) = [(digitsValue p.1 : Int)] := by
  have : ∀ rest : List Quoted, lineIndices (rest.map fun q => Line.more (utf8 q.value)) = [] := by
    intro rest
    induction rest with
    | nil => rfl
    | cons q rest ih => exact ih
  simp [linesOf, lineIndices, this]

theorem lineIndices_lines (fs : List (Bytes × Spec.PoEntry.Field)) : lineIndices (fs.flatMap linesOf) = (meant fs).keys := by
  induction fs with
  | nil => rfl
  | cons p fs ih =>
    rw [List.flatMap_cons, lineIndices_append, lineIndices_linesOf, ih]
    simp [meant, Str.value, GoMap.keys]

theorem get?_append_none {a b : GoMap Int Bytes} {k : Int} (h : b.get? k = none) : GoMap.get? (a ++ b) k = a.get? k := by
  induction a with
  | nil => exact h
  | cons p a ih => obtain ⟨x, y⟩ := p; simp only [List.cons_append, GoMap.get?, ih]

/-- The texts come out as meant exactly if those with continuation lines stand at the place of their index. -/
theorem placed_iff (fs : List (Bytes × Spec.PoEntry.Field)) : ∀ (m : GoMap Int Bytes), m.WF →
    (m ++ meant fs).WF → (∀ p ∈ fs, ∀ q ∈ p.2.rest, q.value ≠ []) →
    (((fs.flatMap linesOf).foldl place m).Same (m ++ meant fs) ↔ InOrder m.length fs) := by
  induction fs with
  | nil =>
    intro m _ _ _
    simp [meant, Str.value, InOrder, GoMap.Same]
  | cons p fs ih =>
    intro m hm hwf hq
    obtain ⟨ds, f⟩ := p
    have hsplit : m ++ meant ((ds, f) :: fs) = (m ++ [((digitsValue ds : Int), f.value)]) ++ meant fs := by
      simp [meant, Str.value]
    have hkeys : (m.keys ++ ((digitsValue ds : Int) :: (meant fs).keys)).Nodup := by
      have := hwf
      unfold GoMap.WF GoMap.keys at this
      simpa [meant, Str.value, GoMap.keys] using this
    have hk : (digitsValue ds : Int) ∉ m.keys := by
      intro h
      exact (List.nodup_append.1 hkeys).2.2 _ h _ List.mem_cons_self rfl
    have hk2 : (digitsValue ds : Int) ∉ (meant fs).keys := (List.nodup_cons.1 (List.nodup_append.1 hkeys).2.1).1
    by_cases hg : f.rest ≠ [] → digitsValue ds = m.length
    · rw [List.flatMap_cons, List.foldl_append, place_field hk hg, hsplit]
      have hm' : GoMap.WF (m ++ [((digitsValue ds : Int), f.value)]) := by
        have := (set_fresh hk f.value) ▸ hm.set (digitsValue ds : Int) f.value
        exact this
      rw [ih _ hm' (hsplit ▸ hwf) fun p hp => hq p (List.mem_cons_of_mem _ hp)]
      rw [List.length_append]
      exact ⟨fun h => ⟨hg, h⟩, fun h => h.2⟩
    · refine iff_of_false ?_ fun h => hg h.1
      intro hsame
      obtain ⟨hr, hn⟩ : f.rest ≠ [] ∧ digitsValue ds ≠ m.length := by
        by_cases h1 : f.rest = []
        · exact absurd (fun h => absurd h1 h) hg
        · exact ⟨h1, fun h => hg fun _ => h⟩
      obtain ⟨q, rest, hrest⟩ := List.exists_cons_of_ne_nil hr
      have hqv : utf8 q.value ≠ [] := by
        have := hq _ List.mem_cons_self q (by rw [hrest]; exact List.mem_cons_self)
        exact fun h => this (Verif.Model.PoString.utf8_eq_nil.1 h)
      have hne : (digitsValue ds : Int) ≠ (m.length : Int) := by omega
      -- the state after the first continuation line
      have hm1 : place m (.text (digitsValue ds) (utf8 f.first.value)) =
          m ++ [((digitsValue ds : Int), utf8 f.first.value)] := set_fresh hk _
      have hget : GoMap.get? (m ++ [((digitsValue ds : Int), utf8 f.first.value)]) (m.length : Int) = m.get? (m.length : Int) := by
        rw [← set_fresh hk, GoMap.get?_set, if_neg hne]
      generalize hm2 : place (m ++ [((digitsValue ds : Int), utf8 f.first.value)]) (.more (utf8 q.value)) = m2
      have hget2 : m2.get? (m.length : Int) = some ((m.get? (m.length : Int)).getD [] ++ utf8 q.value) := by
        have e : ((m ++ [((digitsValue ds : Int), utf8 f.first.value)]).length - 1 : Int) = m.length := by simp
        rw [← hm2, place, e, GoMap.get?_set, if_pos rfl, hget]
      let L := rest.map (fun q => Line.more (utf8 q.value)) ++ fs.flatMap linesOf
      have hfold : (((ds, f) :: fs).flatMap linesOf).foldl place m = L.foldl place m2 := by
        rw [List.flatMap_cons, List.foldl_append]
        simp only [linesOf, hrest, List.map_cons, List.foldl_cons, hm1, hm2]
        rw [← List.foldl_append]
      have hidx : lineIndices L = (meant fs).keys := by
        show lineIndices (_ ++ _) = _
        rw [lineIndices_append, lineIndices_lines]
        have : ∀ rest : List Quoted, lineIndices (rest.map fun q => Line.more (utf8 q.value)) = [] := by
          intro rest
          induction rest with
          | nil => rfl
          | cons q rest ih => exact ih
        rw [this]; rfl
      rw [hfold] at hsame
      by_cases hin : (m.length : Int) ∈ (meant fs).keys
      · have h1 := lost L (hidx ▸ hin) hget2 (by simp [hqv])
        have h2 := total_place (m ++ [((digitsValue ds : Int), utf8 f.first.value)]) (.more (utf8 q.value))
        rw [hm2] at h2
        have hw2 : (m2 : GoMap Int Bytes).WF := by
          rw [← hm2, ← hm1]; exact wf_place (wf_place hm _) _
        have h3 := total_same (wf_foldl L hw2) hwf hsame
        have h4 := size_lines ((ds, f) :: fs)
        rw [List.flatMap_cons, List.map_append, List.sum_append] at h4
        simp only [linesOf, hrest, List.map_cons, List.sum_cons, Line.size] at h4
        have h5 : total (m ++ meant ((ds, f) :: fs)) = total m + total (meant ((ds, f) :: fs)) := by
          simp [total]
        have h6 : total (m ++ [((digitsValue ds : Int), utf8 f.first.value)]) = total m + (utf8 f.first.value).length := by
          simp [total]
        have h7 : (L.map Line.size).sum = ((rest.map fun q => Line.more (utf8 q.value)).map Line.size).sum +
            ((fs.flatMap linesOf).map Line.size).sum := by
          show (List.map Line.size (_ ++ _)).sum = _
          rw [List.map_append, List.sum_append]
        simp only [Line.size] at h2
        omega
      · obtain ⟨w, h1, h2⟩ := grows L (hidx ▸ hin) hget2
        have h3 : GoMap.get? (m ++ meant ((ds, f) :: fs)) (m.length : Int) = m.get? (m.length : Int) := by
          refine get?_append_none ?_
          rw [GoMap.get?_eq_none]
          have : (meant ((ds, f) :: fs)).keys = (digitsValue ds : Int) :: (meant fs).keys := by
            simp [meant, Str.value, GoMap.keys]
          rw [this]
          intro h
          rcases List.mem_cons.1 h with h | h
          · exact hne h.symm
          · exact hin h
        rw [hsame, h3] at h1
        rw [h1, List.length_append] at h2
        have := List.length_pos_iff.2 hqv
        simp only [Option.getD_some] at h2
        omega

end Verif.Proofs.Po
