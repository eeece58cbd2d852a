import Verif.Model.MoReading
import Verif.Spec.Reader
import Verif.Proofs.Mo
/-!
# The MO parser on a reader
-/
namespace Verif.Proofs.MoReading
open Verif.Go Verif.Model.Mo Verif.Spec.Reader Verif.Proofs.Mo
open Verif.Model.Po (File Unicode)

/-- No call fails. -/
def Quiet (h : Handle) : Prop := ∀ n, h.fails n = false

theorem read_quiet {h : Handle} (hq : Quiet h) (p c k : Nat) : (h.at p c).read k =
    if h.data.length ≤ p then (if k = 0 ∧ h.idle then some ([], h.at p (c + 1)) else none)
    else some ((h.data.drop p).take (min k (h.most c + 1)), h.at (p + ((h.data.drop p).take (min k (h.most c + 1))).length) (c + 1)) := by
  show (if h.fails c = true then none else _) = _
  rw [hq c]
  rfl

theorem readFull_quiet {h : Handle} (hq : Quiet h) : ∀ (n k p c : Nat), k ≤ n →
    (p + k ≤ h.data.length → ∃ c', (h.at p c).readFull n k = some ((h.data.drop p).take k, h.at (p + k) c')) ∧
    (h.data.length < p + k → 0 < k → (h.at p c).readFull n k = none) := by
  intro n
  induction n with
  | zero =>
    intro k p c hk
    have : k = 0 := by omega
    subst this
    refine ⟨fun _ => ⟨c, ?_⟩, fun _ h => by omega⟩
    rw [Handle.readFull, List.take_zero]
    rfl
  | succ n ih =>
    intro k p c hk
    cases k with
    | zero =>
      refine ⟨fun _ => ⟨c, ?_⟩, fun _ h => by omega⟩
      rw [Handle.readFull, List.take_zero]
      rfl
    | succ k =>
      rw [Handle.readFull, read_quiet hq]
      by_cases hp : h.data.length ≤ p
      · rw [if_pos hp, if_neg (by omega)]
        exact ⟨fun h => by omega, fun _ _ => rfl⟩
      · rw [if_neg hp]
        simp only []
        generalize hm : min (k + 1) (h.most c + 1) = m
        have hm' : 0 < m ∧ m ≤ k + 1 := by omega
        have hl : ((h.data.drop p).take m).length = min m (h.data.length - p) := by rw [List.length_take, List.length_drop]
        generalize hd : (h.data.drop p).take m = d at hl
        have hdl : 0 < d.length ∧ d.length ≤ m := by omega
        obtain ⟨i1, i2⟩ := ih (k + 1 - d.length) (p + d.length) (c + 1) (by omega)
        constructor
        · intro hle
          obtain ⟨c', hc'⟩ := i1 (by omega)
          refine ⟨c', ?_⟩
          rw [hc']
          simp only []
          have e1 : p + d.length + (k + 1 - d.length) = p + (k + 1) := by omega
          rw [e1]
          congr 2
          have hdm : d.length = m := by omega
          rw [← hd, List.length_take, List.length_drop]
          have : min m (h.data.length - p) = m := by omega
          rw [this]
          have : h.data.drop (p + m) = (h.data.drop p).drop m := by rw [List.drop_drop]
          rw [this]
          conv => rhs; rw [← Nat.add_sub_cancel' (show m ≤ k + 1 by omega), List.take_add]
        · intro hlt _
          by_cases hz : k + 1 - d.length = 0
          · omega
          · rw [i2 (by omega) (by omega)]

theorem binaryRead_quiet {h : Handle} (hq : Quiet h) (p c k : Nat) :
    (p + k ≤ h.data.length → ∃ c', (h.at p c).binaryRead k = some ((h.data.drop p).take k, h.at (p + k) c')) ∧
    (h.data.length < p + k → 0 < k → (h.at p c).binaryRead k = none) := readFull_quiet hq k k p c (Nat.le_refl _)

theorem readUint_some {bo : Order} {data : Bytes} {p k : Nat} (h : p + k ≤ data.length) :
    readUint bo data p k = some (bo.value ((data.drop p).take k)) := if_pos h

theorem readUint_long {bo : Order} {data : Bytes} {p k : Nat} (h : data.length < p + k) :
    readUint bo data p k = none := if_neg (by omega)

theorem byteOrder_quiet {h : Handle} (hq : Quiet h) (c : Nat) :
    (parseByteOrder h.data = none → seekByteOrder (h.at 0 c) = none) ∧
    ∀ bo, parseByteOrder h.data = some bo → ∃ c', seekByteOrder (h.at 0 c) = some (bo, h.at 4 c') := by
  obtain ⟨b1, b2⟩ := binaryRead_quiet hq 0 c 4
  unfold parseByteOrder seekByteOrder
  by_cases hl : 0 + 4 ≤ h.data.length
  · obtain ⟨c', hc'⟩ := b1 hl
    rw [hc', readUint_some hl]
    simp only []
    generalize Order.value .little ((h.data.drop 0).take 4) = m
    by_cases h1 : m = 0x950412de
    · rw [if_pos h1, if_pos h1]
      exact ⟨fun h => (by cases h), fun bo h => (by cases h; exact ⟨c', rfl⟩)⟩
    · rw [if_neg h1, if_neg h1]
      by_cases h2 : m = 0xde120495
      · rw [if_pos h2, if_pos h2]
        exact ⟨fun h => (by cases h), fun bo h => (by cases h; exact ⟨c', rfl⟩)⟩
      · rw [if_neg h2, if_neg h2]
        exact ⟨fun _ => rfl, fun bo h => by cases h⟩
  · rw [b2 (by omega) (by omega), readUint_long (by omega)]
    exact ⟨fun _ => rfl, fun bo h => by cases h⟩

theorem header_quiet {h : Handle} (hq : Quiet h) (bo : Order) (c : Nat) :
    (parseHeader bo h.data = none → seekHeader bo (h.at 4 c) = none) ∧
    ∀ r, parseHeader bo h.data = some r → ∃ c', seekHeader bo (h.at 4 c) = some (r, h.at 28 c') := by
  obtain ⟨b1, b2⟩ := binaryRead_quiet hq 4 c 24
  unfold parseHeader seekHeader
  by_cases hl : 4 + 24 ≤ h.data.length
  · obtain ⟨c', hc'⟩ := b1 hl
    have hf : ∀ i k, i + k ≤ 24 → readUint bo h.data (4 + i) k = some (bo.value ((((h.data.drop 4).take 24).drop i).take k)) := by
      intro i k hik
      rw [readUint_some (by omega), List.drop_take, List.drop_drop, List.take_take]
      have : min k (24 - i) = k := by omega
      rw [this]
    have f1 := hf 0 2 (by omega)
    have f2 := hf 2 2 (by omega)
    have f3 := hf 4 4 (by omega)
    have f4 := hf 8 4 (by omega)
    have f5 := hf 12 4 (by omega)
    have f6 := hf 16 4 (by omega)
    have f7 := hf 20 4 (by omega)
    simp only [Nat.reduceAdd] at f1 f2 f3 f4 f5 f6 f7
    rw [hc', f1, f2, f3, f4, f5, f6, f7]
    simp only []
    split
    · exact ⟨fun _ => rfl, fun r h => by cases h⟩
    · split
      · exact ⟨fun _ => rfl, fun r h => by cases h⟩
      · exact ⟨fun h => (by cases h), fun r h => by cases h; exact ⟨c', rfl⟩⟩
  · rw [b2 (by omega) (by omega)]
    refine ⟨fun _ => rfl, fun r h => ?_⟩
    rw [readUint_long (p := 24) (k := 4) (by omega)] at h
    split at h
    · simp_all
    · cases h

theorem table_quiet {h : Handle} (hq : Quiet h) (bo : Order) : ∀ (n p c : Nat),
    (readTable bo h.data p n = none → seekTable bo n (h.at p c) = none) ∧
    ∀ rs, readTable bo h.data p n = some rs → ∃ c', seekTable bo n (h.at p c) = some (rs, h.at (p + 8 * n) c') := by
  intro n
  induction n with
  | zero =>
    intro p c
    rw [readTable, seekTable]
    exact ⟨fun h => (by cases h), fun rs h => by cases h; exact ⟨c, rfl⟩⟩
  | succ n ih =>
    intro p c
    rw [readTable, seekTable]
    obtain ⟨b1, b2⟩ := binaryRead_quiet hq p c 4
    by_cases h1 : p + 4 ≤ h.data.length
    · obtain ⟨c1, hc1⟩ := b1 h1
      rw [hc1, readUint_some h1]
      simp only []
      obtain ⟨d1, d2⟩ := binaryRead_quiet hq (p + 4) c1 4
      by_cases h2 : p + 4 + 4 ≤ h.data.length
      · obtain ⟨c2, hc2⟩ := d1 h2
        rw [hc2, readUint_some h2]
        simp only []
        obtain ⟨i1, i2⟩ := ih (p + 4 + 4) c2
        have e : p + 8 = p + 4 + 4 := rfl
        rw [e]
        cases ht : readTable bo h.data (p + 4 + 4) n with
        | none =>
          rw [i1 ht]
          exact ⟨fun _ => rfl, fun rs h => by cases h⟩
        | some rs =>
          obtain ⟨c3, hc3⟩ := i2 rs ht
          rw [hc3]
          refine ⟨fun h => (by cases h), fun rs' h => ⟨c3, ?_⟩⟩
          cases h
          have : p + 4 + 4 + 8 * n = p + 8 * (n + 1) := by omega
          rw [this]
      · rw [d2 (by omega) (by omega), readUint_long (p := p + 4) (by omega)]
        exact ⟨fun _ => rfl, fun rs h => by cases h⟩
    · rw [b2 (by omega) (by omega), readUint_long (p := p) (by omega)]
      exact ⟨fun _ => rfl, fun rs h => by cases h⟩

theorem rows_quiet {h : Handle} (hq : Quiet h) (bo : Order) (n o p c : Nat) :
    (readTable bo h.data o n = none → seekRows bo n o (h.at p c) = none) ∧
    ∀ rs, readTable bo h.data o n = some rs → ∃ p' c', seekRows bo n o (h.at p c) = some (rs, h.at p' c') := by
  have hs : (h.at p c).seek o = some (h.at o (c + 1)) := by
    show (if h.fails c = true then none else _) = _
    rw [hq c]; rfl
  unfold seekRows
  rw [hs]
  obtain ⟨t1, t2⟩ := table_quiet hq bo n o (c + 1)
  exact ⟨t1, fun rs h => (t2 rs h).imp' (fun c' => (o + 8 * n)) (fun c' h' => ⟨c', h'⟩)⟩

/-- The length of what is read. -/
theorem padded_length {data : Bytes} {len off : Nat} : (padded data (len, off)).length = len := by
  simp [padded]; omega

theorem text_quiet {h : Handle} (hq : Quiet h) (len off p c : Nat) :
    (off < h.data.length → ∃ p' c' x, seekText (h.at p c) len off = some (x, h.at p' c') ∧ Cut (padded h.data (len, off)) x ∧
      (len ≤ h.most (c + 1) + 1 ∨ h.data.length ≤ h.most (c + 1) + 1 → x = padded h.data (len, off))) ∧
    (h.data.length ≤ off → h.idle = false → seekText (h.at p c) len off = none) := by
  have hs : (h.at p c).seek off = some (h.at off (c + 1)) := by
    show (if h.fails c = true then none else _) = _
    rw [hq c]; rfl
  unfold seekText
  rw [hs]
  unfold Handle.fill
  simp only []
  rw [read_quiet hq]
  constructor
  · intro hlt
    rw [if_neg (by omega)]
    simp only []
    generalize hm : min len (h.most (c + 1) + 1) = m
    have hl : ((h.data.drop off).take m).length = min m (h.data.length - off) := by rw [List.length_take, List.length_drop]
    refine ⟨_, _, _, rfl, ⟨min m (h.data.length - off), ?_, ?_⟩, ?_⟩
    · rw [padded_length]; omega
    · rw [padded_length, hl]
      congr 1
      unfold padded
      rw [List.take_append_of_le_length (by rw [List.length_take, List.length_drop]; omega), List.take_take]
      have e : min (min m (h.data.length - off)) len = min m (h.data.length - off) := by omega
      rw [e]
      have e : min m (h.data.length - off) = min m (h.data.drop off).length := by rw [List.length_drop]
      rw [e, ← List.take_eq_take_min]
    · intro hx
      rw [hl]
      unfold padded
      rcases hx with hx | hx
      · have : m = len := by omega
        subst this
        congr 2
        omega
      · by_cases hc : len ≤ m
        · have : m = len := by omega
          subst this
          congr 2
          omega
        · have e1 : (h.data.drop off).take m = h.data.drop off := List.take_of_length_le (by rw [List.length_drop]; omega)
          have e2 : (h.data.drop off).take len = h.data.drop off := List.take_of_length_le (by rw [List.length_drop]; omega)
          simp only []
          rw [e1, e2]
          congr 2
          omega
  · intro hle hi
    rw [if_pos hle, hi]
    simp

theorem messages_quiet {h : Handle} (hq : Quiet h) (u : Unicode) : ∀ (ds : List ((Nat × Nat) × (Nat × Nat))) (f : File) (p c : Nat),
    ((∀ d ∈ ds, d.1.2 < h.data.length ∧ d.2.2 < h.data.length) → ∃ rows,
      seekMessages u f ds (h.at p c) = some (load u f rows) ∧
      CutRows (ds.map fun d => (padded h.data d.1, padded h.data d.2)) rows ∧
      ((∀ n, h.data.length ≤ h.most n + 1) → rows = ds.map fun d => (padded h.data d.1, padded h.data d.2))) ∧
    (h.idle = false → (∃ d ∈ ds, ¬ (d.1.2 < h.data.length ∧ d.2.2 < h.data.length)) → seekMessages u f ds (h.at p c) = none) := by
  intro ds
  induction ds with
  | nil =>
    intro f p c
    refine ⟨fun _ => ⟨[], rfl, .nil, fun _ => rfl⟩, ?_⟩
    rintro _ ⟨d, hd, _⟩
    cases hd
  | cons d ds ih =>
    intro f p c
    obtain ⟨⟨il, io⟩, ⟨sl, so⟩⟩ := d
    rw [seekMessages]
    obtain ⟨a1, a2⟩ := text_quiet hq il io p c
    by_cases hio : io < h.data.length
    · obtain ⟨p1, c1, id, e1, g1, k1⟩ := a1 hio
      rw [e1]
      simp only []
      obtain ⟨b1, b2⟩ := text_quiet hq sl so p1 c1
      by_cases hso : so < h.data.length
      · obtain ⟨p2, c2, text, e2, g2, k2⟩ := b1 hso
        rw [e2]
        simp only []
        have hstep : ∀ f', (if id = [] then seekMessages u { f with header := some (parseMessageHeader u text) } ds (h.at p2 c2)
            else seekMessages u (f.addMessage (buildMessage id text)) ds (h.at p2 c2)) = f' ↔
            seekMessages u (if id = [] then { f with header := some (parseMessageHeader u text) }
              else f.addMessage (buildMessage id text)) ds (h.at p2 c2) = f' := by
          intro f'
          by_cases hid : id = []
          · rw [if_pos hid, if_pos hid]
          · rw [if_neg hid, if_neg hid]
        have hload : ∀ rows, load u f ((id, text) :: rows) = load u (if id = [] then { f with header := some (parseMessageHeader u text) }
              else f.addMessage (buildMessage id text)) rows := by
          intro rows
          rw [load]
          by_cases hid : id = []
          · rw [if_pos hid, if_pos hid]
          · rw [if_neg hid, if_neg hid]
        obtain ⟨i1, i2⟩ := ih (if id = [] then { f with header := some (parseMessageHeader u text) }
              else f.addMessage (buildMessage id text)) p2 c2
        constructor
        · intro hall
          obtain ⟨rows, r1, r2, r3⟩ := i1 fun d hd => hall d (List.mem_cons_of_mem _ hd)
          refine ⟨(id, text) :: rows, ?_, ?_, ?_⟩
          · rw [hstep, r1, hload]
          · rw [List.map_cons]
            exact .cons ⟨g1, g2⟩ r2
          · intro hfull
            rw [List.map_cons, r3 hfull, k1 (.inr (hfull _)), k2 (.inr (hfull _))]
        · rintro hi ⟨d, hd, hn⟩
          rw [hstep]
          rcases List.mem_cons.1 hd with rfl | hd
          · exact absurd ⟨hio, hso⟩ hn
          · exact i2 hi ⟨d, hd, hn⟩
      · refine ⟨fun hall => absurd (hall _ List.mem_cons_self).2 hso, fun hi _ => ?_⟩
        rw [b2 (by omega) hi]
    · refine ⟨fun hall => absurd (hall _ List.mem_cons_self).1 hio, fun hi _ => ?_⟩
      rw [a2 (by omega) hi]

/-- The parser on a quiet handle and in memory. -/
theorem parse_quiet {h : Handle} (hq : Quiet h) (u : Unicode) (c : Nat) :
    (∀ f, parse u h.data = some f → ∃ rows rows', f = load u .new rows ∧ parseSeeker u (h.at 0 c) = some (load u .new rows') ∧
      CutRows rows rows' ∧ ((∀ n, h.data.length ≤ h.most n + 1) → rows' = rows)) ∧
    (h.idle = false → parse u h.data = none → parseSeeker u (h.at 0 c) = none) := by
  unfold parse parseSeeker
  obtain ⟨a1, a2⟩ := byteOrder_quiet hq c
  cases hb : parseByteOrder h.data with
  | none =>
    rw [a1 hb]
    exact ⟨fun f hf => (by cases hf), fun _ _ => rfl⟩
  | some bo =>
    obtain ⟨c1, hc1⟩ := a2 bo hb
    rw [hc1]
    simp only []
    obtain ⟨b1, b2⟩ := header_quiet hq bo c1
    cases hh : parseHeader bo h.data with
    | none =>
      rw [b1 hh]
      exact ⟨fun f hf => (by cases hf), fun _ _ => rfl⟩
    | some r =>
      obtain ⟨n, o, t⟩ := r
      obtain ⟨c2, hc2⟩ := b2 _ hh
      rw [hc2]
      simp only []
      obtain ⟨t1, t2⟩ := rows_quiet hq bo n o 28 c2
      cases hi : readTable bo h.data o n with
      | none =>
        rw [t1 hi]
        refine ⟨fun f hf => ?_, fun _ _ => rfl⟩
        simp at hf
      | some ids =>
        obtain ⟨p3, c3, hc3⟩ := t2 ids hi
        rw [hc3]
        simp only []
        obtain ⟨s1, s2⟩ := rows_quiet hq bo n t p3 c3
        cases hs : readTable bo h.data t n with
        | none =>
          rw [s1 hs]
          refine ⟨fun f hf => ?_, fun _ _ => rfl⟩
          simp at hf
        | some strs =>
          obtain ⟨p4, c4, hc4⟩ := s2 strs hs
          rw [hc4]
          simp only []
          obtain ⟨m1, m2⟩ := messages_quiet hq u (ids.zip strs) .new p4 c4
          constructor
          · intro f hf
            obtain ⟨g1, g2⟩ := (parseMessages_iff (ids.zip strs)).1 hf
            obtain ⟨rows, r1, r2, r3⟩ := m1 g1
            exact ⟨_, rows, g2, r1, r2, r3⟩
          · intro hidle hnone
            refine m2 hidle (Classical.byContradiction fun hx => ?_)
            have hall : ∀ d ∈ ids.zip strs, d.1.2 < h.data.length ∧ d.2.2 < h.data.length := fun d hd =>
              Classical.byContradiction fun hn => hx ⟨d, hd, hn⟩
            have := (parseMessages_iff (u := u) (f := File.new) (ids.zip strs)).2 ⟨hall, rfl⟩
            rw [hnone] at this
            cases this

/-! ## Failing calls -/

/-- The same handle without failures. -/
def still (h : Handle) : Handle := { h with fails := fun _ => false }

theorem read_still {h : Handle} {k : Nat} {d : Bytes} {h' : Handle} (e : h.read k = some (d, h')) :
    (still h).read k = some (d, still h') := by
  unfold Handle.read at e ⊢
  by_cases hf : h.fails h.calls = true
  · rw [if_pos hf] at e; cases e
  · rw [if_neg hf] at e
    rw [if_neg (by simp [still])]
    by_cases h1 : h.data.length ≤ h.pos
    · rw [if_pos h1] at e
      rw [if_pos (show (still h).data.length ≤ (still h).pos from h1)]
      by_cases h2 : k = 0 ∧ h.idle
      · rw [if_pos h2] at e
        rw [if_pos (show k = 0 ∧ (still h).idle from h2)]
        cases e
        rfl
      · rw [if_neg h2] at e; cases e
    · rw [if_neg h1] at e
      rw [if_neg (show ¬ (still h).data.length ≤ (still h).pos from h1)]
      cases e
      rfl

theorem seek_still {h : Handle} {k : Nat} {h' : Handle} (e : h.seek k = some h') : (still h).seek k = some (still h') := by
  unfold Handle.seek at e ⊢
  by_cases hf : h.fails h.calls = true
  · rw [if_pos hf] at e; cases e
  · rw [if_neg hf] at e
    rw [if_neg (by simp [still])]
    cases e
    rfl

theorem readFull_still : ∀ (n : Nat) {h : Handle} {k : Nat} {d : Bytes} {h' : Handle}, h.readFull n k = some (d, h') →
    (still h).readFull n k = some (d, still h') := by
  intro n
  induction n with
  | zero =>
    intro h k d h' e
    cases k with
    | zero => rw [Handle.readFull] at e ⊢; cases e; rfl
    | succ k => rw [Handle.readFull] at e; cases e
  | succ n ih =>
    intro h k d h' e
    cases k with
    | zero => rw [Handle.readFull] at e ⊢; cases e; rfl
    | succ k =>
      rw [Handle.readFull] at e ⊢
      cases hr : h.read (k + 1) with
      | none => rw [hr] at e; cases e
      | some r =>
        obtain ⟨d1, h1⟩ := r
        rw [hr] at e
        rw [read_still hr]
        simp only [] at e ⊢
        cases hr2 : h1.readFull n (k + 1 - d1.length) with
        | none => rw [hr2] at e; cases e
        | some r2 =>
          obtain ⟨d2, h2⟩ := r2
          rw [hr2] at e
          rw [ih hr2]
          cases e
          rfl

theorem byteOrder_still {h h' : Handle} {bo : Order} (e : seekByteOrder h = some (bo, h')) :
    seekByteOrder (still h) = some (bo, still h') := by
  unfold seekByteOrder at e ⊢
  cases hr : h.binaryRead 4 with
  | none => rw [hr] at e; cases e
  | some r =>
    obtain ⟨b, h1⟩ := r
    rw [hr] at e
    rw [show (still h).binaryRead 4 = _ from readFull_still 4 hr]
    simp only [] at e ⊢
    split at e
    · rename_i h1; cases e; rw [if_pos h1]
    · rename_i h1
      rw [if_neg h1]
      split at e
      · rename_i h2; cases e; rw [if_pos h2]
      · cases e

theorem header_still {h h' : Handle} {bo : Order} {x : Nat × Nat × Nat} (e : seekHeader bo h = some (x, h')) :
    seekHeader bo (still h) = some (x, still h') := by
  unfold seekHeader at e ⊢
  cases hr : h.binaryRead 24 with
  | none => rw [hr] at e; cases e
  | some r =>
    obtain ⟨b, h1⟩ := r
    rw [hr] at e
    rw [show (still h).binaryRead 24 = _ from readFull_still 24 hr]
    simp only [] at e ⊢
    split at e
    · cases e
    · rename_i h1
      rw [if_neg h1]
      split at e
      · cases e
      · rename_i h2; cases e; rw [if_neg h2]

theorem table_still {bo : Order} : ∀ (n : Nat) {h h' : Handle} {rs : List (Nat × Nat)}, seekTable bo n h = some (rs, h') →
    seekTable bo n (still h) = some (rs, still h') := by
  intro n
  induction n with
  | zero => intro h h' rs e; rw [seekTable] at e ⊢; cases e; rfl
  | succ n ih =>
    intro h h' rs e
    rw [seekTable] at e ⊢
    cases hr : h.binaryRead 4 with
    | none => rw [hr] at e; cases e
    | some r =>
      obtain ⟨b, h1⟩ := r
      rw [hr] at e
      rw [show (still h).binaryRead 4 = _ from readFull_still 4 hr]
      simp only [] at e ⊢
      cases hr2 : h1.binaryRead 4 with
      | none => rw [hr2] at e; cases e
      | some r2 =>
        obtain ⟨b2, h2⟩ := r2
        rw [hr2] at e
        rw [show (still h1).binaryRead 4 = _ from readFull_still 4 hr2]
        simp only [] at e ⊢
        cases hr3 : seekTable bo n h2 with
        | none => rw [hr3] at e; cases e
        | some r3 =>
          obtain ⟨rs', h3⟩ := r3
          rw [hr3] at e
          rw [ih hr3]
          cases e
          rfl

theorem rows_still {bo : Order} {n o : Nat} {h h' : Handle} {rs : List (Nat × Nat)} (e : seekRows bo n o h = some (rs, h')) :
    seekRows bo n o (still h) = some (rs, still h') := by
  unfold seekRows at e ⊢
  cases hr : h.seek o with
  | none => rw [hr] at e; cases e
  | some h1 =>
    rw [hr] at e
    rw [seek_still hr]
    exact table_still n e

theorem text_still {h h' : Handle} {len off : Nat} {x : Bytes} (e : seekText h len off = some (x, h')) :
    seekText (still h) len off = some (x, still h') := by
  unfold seekText at e ⊢
  cases hr : h.seek off with
  | none => rw [hr] at e; cases e
  | some h1 =>
    rw [hr] at e
    rw [seek_still hr]
    simp only [] at e ⊢
    unfold Handle.fill at e ⊢
    cases hr2 : h1.read len with
    | none => rw [hr2] at e; cases e
    | some r2 =>
      obtain ⟨d, h2⟩ := r2
      rw [hr2] at e
      rw [read_still hr2]
      cases e
      rfl

theorem messages_still {u : Unicode} : ∀ (ds : List ((Nat × Nat) × (Nat × Nat))) {f f' : File} {h : Handle},
    seekMessages u f ds h = some f' → seekMessages u f ds (still h) = some f' := by
  intro ds
  induction ds with
  | nil => intro f f' h e; exact e
  | cons d ds ih =>
    intro f f' h e
    obtain ⟨⟨il, io⟩, ⟨sl, so⟩⟩ := d
    rw [seekMessages] at e ⊢
    cases hr : seekText h il io with
    | none => rw [hr] at e; cases e
    | some r =>
      obtain ⟨id, h1⟩ := r
      rw [hr] at e
      rw [text_still hr]
      simp only [] at e ⊢
      cases hr2 : seekText h1 sl so with
      | none => rw [hr2] at e; cases e
      | some r2 =>
        obtain ⟨text, h2⟩ := r2
        rw [hr2] at e
        rw [text_still hr2]
        simp only [] at e ⊢
        split at e
        · rename_i hid; rw [if_pos hid]; exact ih e
        · rename_i hid; rw [if_neg hid]; exact ih e

theorem parse_still {u : Unicode} {h : Handle} {f : File} (e : parseSeeker u h = some f) : parseSeeker u (still h) = some f := by
  unfold parseSeeker at e ⊢
  cases h1 : seekByteOrder h with
  | none => rw [h1] at e; cases e
  | some r1 =>
    obtain ⟨bo, k1⟩ := r1
    rw [h1] at e
    rw [byteOrder_still h1]
    simp only [] at e ⊢
    cases h2 : seekHeader bo k1 with
    | none => rw [h2] at e; cases e
    | some r2 =>
      obtain ⟨⟨n, o, t⟩, k2⟩ := r2
      rw [h2] at e
      rw [header_still h2]
      simp only [] at e ⊢
      cases h3 : seekRows bo n o k2 with
      | none => rw [h3] at e; cases e
      | some r3 =>
        obtain ⟨ids, k3⟩ := r3
        rw [h3] at e
        rw [rows_still h3]
        simp only [] at e ⊢
        cases h4 : seekRows bo n t k3 with
        | none => rw [h4] at e; cases e
        | some r4 =>
          obtain ⟨strs, k4⟩ := r4
          rw [h4] at e
          rw [rows_still h4]
          exact messages_still _ e

/-! ## `io.ReadAll` -/

theorem readAllLoop_spec (grow : Nat → Nat) : ∀ (n : Nat) (buf : Bytes) (cap : Nat) (r : Reader), buf.length < cap →
    r.chunks.length + r.content.length < n →
    readAllLoop grow n buf cap r = match r.last with | .eof => some (buf ++ r.content) | .failed => none := by
  intro n
  induction n with
  | zero => intro _ _ _ _ h; omega
  | succ n ih =>
    intro buf cap r hcap hn
    obtain ⟨chunks, last, eager⟩ := r
    rw [readAllLoop]
    cases chunks with
    | nil =>
      show (match (([] : Bytes), some last, (⟨[], last, eager⟩ : Reader)) with
        | (_, some .failed, _) => none
        | (d, some .eof, _) => some (buf ++ d)
        | (d, none, r') => readAllLoop grow n (buf ++ d) _ r') = _
      cases last <;> rfl
    | cons c cs =>
      have hread : Reader.read ⟨c :: cs, last, eager⟩ (cap - buf.length) =
          if c.drop (cap - buf.length) = [] then (c, if eager = true ∧ cs = [] then some last else none, ⟨cs, last, eager⟩)
          else (c.take (cap - buf.length), none, ⟨c.drop (cap - buf.length) :: cs, last, eager⟩) := rfl
      have hlen : (⟨c :: cs, last, eager⟩ : Reader).chunks.length + (⟨c :: cs, last, eager⟩ : Reader).content.length =
          cs.length + 1 + (c.length + cs.flatten.length) := by simp [Reader.content]
      rw [hlen] at hn
      rw [hread]
      by_cases hd : c.drop (cap - buf.length) = []
      · rw [if_pos hd]
        have hcl : c.length ≤ cap - buf.length := List.drop_eq_nil_iff.1 hd
        by_cases he : eager = true ∧ cs = []
        · obtain ⟨rfl, rfl⟩ := he
          rw [if_pos ⟨rfl, rfl⟩]
          cases last
          · simp [Reader.content]
          · rfl
        · rw [if_neg he]
          simp only []
          rw [ih]
          · simp [Reader.content]
          · rw [List.length_append]
            split <;> omega
          · show cs.length + cs.flatten.length < n
            omega
      · rw [if_neg hd]
        simp only []
        have hgt : cap - buf.length < c.length := Nat.lt_of_not_le fun h => hd (List.drop_eq_nil_iff.2 h)
        rw [ih]
        · cases last
          · simp only [Reader.content, List.flatten_cons, List.append_assoc]
            rw [← List.append_assoc (c.take _), List.take_append_drop]
          · rfl
        · rw [List.length_append, List.length_take]
          split <;> omega
        · show cs.length + 1 + (c.drop (cap - buf.length) ++ cs.flatten).length < n
          rw [List.length_append, List.length_drop]
          omega

theorem readAll_spec (grow : Nat → Nat) (r : Reader) :
    r.readAll grow = match r.last with | .eof => some r.content | .failed => none := by
  unfold Reader.readAll
  rw [readAllLoop_spec grow _ [] 512 r (by decide) (Nat.lt_succ_self _)]
  rfl

end Verif.Proofs.MoReading
