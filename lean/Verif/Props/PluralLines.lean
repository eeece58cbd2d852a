import Verif.Proofs.Po.PluralLines
import Verif.Props.PoParser
/-!
# Where the lines of a plural entry go (C13)
-/
namespace Verif.Props.PluralLines
open Verif.Go Verif.Model.Po Verif.Spec.PoEntry Verif.Spec.PluralLines Verif.Proofs.Po Verif.Props.PoParser

/-- All of an entry but its translations is well-formed. -/
def HeadWF (e : Entry) : Prop :=
  (∀ c ∈ e.comments, c.WF) ∧ (∀ f ∈ e.context, f.WF) ∧ e.id.WF ∧ (∀ f ∈ e.idPlural, f.WF)

/-- A plural entry between blank lines, in arbitrary surroundings, with any indices in any order: `msgstr[i]`
gives the text of index `i` (the last one if there are several), and every continuation line is added to the
text of the index one less than the number of indices so far. -/
theorem C13_lines (u : Unicode) (ignore : Bool) (A B : List Bytes) (b1 b2 content : Bytes) (e : Entry)
    (fs : List (Bytes × Spec.PoEntry.Field)) (h1 : BlankLine b1) (h2 : BlankLine b2) (he : HeadWF e)
    (hstr : e.str = .plural fs) (hfs : ∀ p ∈ fs, IndexOk p.1 ∧ p.2.WF) (hid : e.id.value ≠ [])
    (h : HasLines content (A ++ b1 :: (e.lines ++ b2 :: B))) (hs : Short (A ++ b1 :: (e.lines ++ b2 :: B)))
    (f : File) (hf : parse u ignore content = .ok f) :
    f.getMessage (Key e).1 (Key e).2 = some { e.message ignore with str := placed fs } := by
  rw [parse_run u ignore h hs, run_blank u ignore _ A _ b1 (isBlankLine_of h1)] at hf
  obtain ⟨st, hr, hf⟩ := bind_eq_ok.1 hf
  obtain ⟨sa, hra, hr⟩ := bind_eq_ok.1 hr
  rw [run_blank u ignore sa e.lines B b2 (isBlankLine_of h2), run_placed u ignore sa he hstr hfs] at hr
  obtain ⟨s1, hr1, hrb⟩ := bind_eq_ok.1 hr
  have hidm : ({ e.message ignore with str := placed fs } : Message).id ≠ [] := hid
  rcases store_message (u := u) (st := sa) hidm with ⟨_, hx⟩ | ⟨_, s2, hx, _, _, k3⟩
  · rw [hx] at hr1; cases hr1
  · rw [hx] at hr1; cases hr1
    obtain ⟨ms, out, hrd⟩ := run_read u ignore B
    rw [hrd] at hrb
    obtain ⟨s', h3, h4⟩ := bind_eq_ok.1 hrb
    obtain ⟨o, _, h5⟩ := bind_eq_ok.1 h4
    cases h5
    obtain ⟨g1, _⟩ := storeAll_ok h3
    rw [getMessage_find (finish_ok hf).1]
    exact (g1 _ _ _).2 (.inl (by rw [k3, if_pos ⟨rfl, rfl⟩]))

/-- With different indices and no empty continuation line, the texts are found at their indices, and nothing
else is there, exactly if every text with continuation lines stands at the position of its index. -/
theorem C13_right_iff (u : Unicode) (ignore : Bool) (A B : List Bytes) (b1 b2 content : Bytes) (e : Entry)
    (fs : List (Bytes × Spec.PoEntry.Field)) (h1 : BlankLine b1) (h2 : BlankLine b2) (he : HeadWF e)
    (hstr : e.str = .plural fs) (hfs : ∀ p ∈ fs, IndexOk p.1 ∧ p.2.WF) (hid : e.id.value ≠ [])
    (hd : (fs.map fun p => digitsValue p.1).Nodup) (hq : ∀ p ∈ fs, ∀ q ∈ p.2.rest, q.value ≠ [])
    (h : HasLines content (A ++ b1 :: (e.lines ++ b2 :: B))) (hs : Short (A ++ b1 :: (e.lines ++ b2 :: B)))
    (f : File) (hf : parse u ignore content = .ok f) :
    ∃ m, f.getMessage (Key e).1 (Key e).2 = some m ∧
      (((∀ p ∈ fs, m.str.get? (digitsValue p.1 : Int) = some p.2.value) ∧
        ∀ i t, m.str.get? i = some t → ∃ p ∈ fs, (digitsValue p.1 : Int) = i ∧ p.2.value = t) ↔
      ∀ n (hn : n < fs.length), fs[n].2.rest ≠ [] → digitsValue fs[n].1 = n) := by
  refine ⟨_, C13_lines u ignore A B b1 b2 content e fs h1 h2 he hstr hfs hid h hs f hf, ?_⟩
  have hwf : (meant fs).WF := by
    unfold GoMap.WF GoMap.keys meant Str.value
    rw [List.map_map]
    have : (fs.map ((fun x : Int × Bytes => x.1) ∘ fun p => ((digitsValue p.1 : Int), p.2.value))) =
        (fs.map fun p => digitsValue p.1).map Int.ofNat := by
      rw [List.map_map]; rfl
    rw [this]
    exact hd.map _ (fun a b h e => h (Int.ofNat.inj e))
  have key := placed_iff fs [] List.nodup_nil hwf hq
  have hord : ∀ (fs : List (Bytes × Spec.PoEntry.Field)) k, InOrder k fs ↔
      ∀ n (hn : n < fs.length), fs[n].2.rest ≠ [] → digitsValue fs[n].1 = k + n := by
    intro fs
    induction fs with
    | nil => intro k; exact ⟨fun _ n hn => absurd hn (Nat.not_lt_zero n), fun _ => trivial⟩
    | cons p fs ih =>
      intro k
      rw [InOrder, ih]
      constructor
      · rintro ⟨g1, g2⟩ n hn
        cases n with
        | zero => exact g1
        | succ n => intro hr; have := g2 n (by simpa using hn) hr; simp only [List.getElem_cons_succ]; omega
      · intro g
        refine ⟨g 0 (by simp), fun n hn hr => ?_⟩
        have := g (n + 1) (by simpa using hn) hr
        simp only [List.getElem_cons_succ] at this
        omega
  rw [hord] at key
  have hsame : ((∀ p ∈ fs, (placed fs).get? (digitsValue p.1 : Int) = some p.2.value) ∧
        ∀ i t, (placed fs).get? i = some t → ∃ p ∈ fs, (digitsValue p.1 : Int) = i ∧ p.2.value = t) ↔
      (placed fs).Same ([] ++ meant fs) := by
    rw [List.nil_append]
    have hmem : ∀ i t, (meant fs).get? i = some t ↔ ∃ p ∈ fs, (digitsValue p.1 : Int) = i ∧ p.2.value = t := by
      intro i t
      rw [← GoMap.mem_iff hwf]
      show (i, t) ∈ fs.map _ ↔ _
      simp [List.mem_map]
    constructor
    · rintro ⟨g1, g2⟩ i
      cases hp : (placed fs).get? i with
      | some t => exact ((hmem i t).2 (g2 i t hp)).symm
      | none =>
        cases hm : (meant fs).get? i with
        | none => rfl
        | some t =>
          obtain ⟨p, hp1, hp2, _⟩ := (hmem i t).1 hm
          rw [← hp2, g1 p hp1] at hp
          cases hp
    · intro g
      refine ⟨fun p hp => ?_, fun i t ht => (hmem i t).1 (by rw [← g i]; exact ht)⟩
      rw [g]
      exact (hmem _ _).2 ⟨p, hp, rfl, rfl⟩
  rw [show ({ e.message ignore with str := placed fs } : Message).str = placed fs from rfl, hsame]
  have h0 : ∀ n, ([] : GoMap Int Bytes).length + n = n := fun n => Nat.zero_add n
  simp only [h0] at key
  exact key

/-- An entry in the middle of a file whose first text stands at the wrong place: index 1 with a continuation
line, then index 0. -/
example (u : Unicode) : ∃ e fs content f, HeadWF e ∧ e.str = .plural fs ∧ (∀ p ∈ fs, IndexOk p.1 ∧ p.2.WF) ∧
    e.id.value ≠ [] ∧ (fs.map fun p => digitsValue p.1).Nodup ∧ (∀ p ∈ fs, ∀ q ∈ p.2.rest, q.value ≠ []) ∧
    BlankLine [] ∧ BlankLine b!" " ∧
    HasLines content ([b!"msgid \"z\"", b!"msgstr \"y\""] ++ [] :: (e.lines ++ b!" " :: [])) ∧
    Short ([b!"msgid \"z\"", b!"msgstr \"y\""] ++ [] :: (e.lines ++ b!" " :: [])) ∧
    parse u false content = .ok f ∧ ¬ ∀ n (hn : n < fs.length), fs[n].2.rest ≠ [] → digitsValue fs[n].1 = n := by
  have hb : Blank [] := fun _ h => by cases h
  refine ⟨⟨[], none, ⟨[], ⟨[], ['a'], [], ['a']⟩, []⟩, none, .plural
    [(b!"1", ⟨[], ⟨[], ['y'], [], ['y']⟩, [⟨b!" ", ['z'], [], ['z']⟩]⟩),
     (b!"0", ⟨[], ⟨[], ['w'], [], ['w']⟩, []⟩)]⟩, _, _, _,
    ⟨nofun, nofun, ⟨hb, ⟨hb, hb, means_plain (by decide)⟩, nofun⟩, nofun⟩, rfl, ?_, by decide, by decide, ?_, by decide, by decide,
    ⟨by decide, .inl rfl⟩, by decide, rfl, fun h => absurd (h 0 (by decide)) (by decide)⟩
  · intro p hp
    rcases hp with _ | ⟨_, _ | ⟨_, hp⟩⟩
    · refine ⟨by decide, hb, ⟨hb, hb, means_plain (by decide)⟩, ?_⟩
      intro q hq
      rcases hq with _ | ⟨_, hq⟩
      · exact ⟨by decide, hb, means_plain (by decide)⟩
      · cases hq
    · exact ⟨by decide, hb, ⟨hb, hb, means_plain (by decide)⟩, nofun⟩
    · cases hp
  · decide

end Verif.Props.PluralLines
