import Verif.Proofs.Po.Memory
/-!
# Proofs about PO files in memory
-/
namespace Verif.Proofs.Po.Memory
open Verif.Go Verif.Model.Po Verif.Model.Po.Memory Verif.Spec.Memory

/-! ## Maps -/

theorem map_set {κ α β : Type} [DecidableEq κ] (f : α → β) (m : GoMap κ α) (k : κ) (v : α) :
    ((m.set k v).map fun p => (p.1, f p.2)) = GoMap.set (m.map fun p => (p.1, f p.2)) k (f v) := by
  induction m with
  | nil => rfl
  | cons p m ih =>
    obtain ⟨a, b⟩ := p
    simp only [GoMap.set, List.map_cons]
    split
    · rfl
    · rw [List.map_cons, ih]

theorem map_change {κ α β : Type} [DecidableEq κ] (f g : α → β) (m : GoMap κ α) (k : κ) (v : α) (wf : m.WF)
    (hk : m.get? k = some v) (h : ∀ k' v', k' ≠ k → m.get? k' = some v' → g v' = f v') :
    (m.map fun p => (p.1, g p.2)) = GoMap.set (m.map fun p => (p.1, f p.2)) k (g v) := by
  induction m with
  | nil => cases hk
  | cons p m ih =>
    obtain ⟨a, b⟩ := p
    obtain ⟨hn, wf'⟩ := wf.cons_inv
    simp only [GoMap.set, List.map_cons]
    by_cases e : a = k
    · rw [if_pos e]
      simp only [GoMap.get?] at hk
      rw [if_pos e] at hk
      cases hk
      subst e
      congr 1
      apply List.map_congr_left
      intro p hp
      obtain ⟨x, y⟩ := p
      have hxa : x ≠ a := fun e => hn (e ▸ GoMap.mem_keys_of_mem hp)
      have := h x y hxa (by simp only [GoMap.get?]; rw [if_neg (Ne.symm hxa)]; exact GoMap.get?_of_mem wf' hp)
      rw [this]
    · rw [if_neg e]
      simp only [GoMap.get?] at hk
      rw [if_neg e] at hk
      rw [h a b e (by simp [GoMap.get?])]
      congr 1
      refine ih wf' hk fun k' v' hne hg => h k' v' hne ?_
      simp only [GoMap.get?]
      rw [if_neg ?_]
      · exact hg
      · rintro rfl
        exact hn (GoMap.mem_keys_of_mem (GoMap.mem_of_get? hg))

theorem map_same {κ α β : Type} [DecidableEq κ] (f g : α → β) (m : GoMap κ α) (wf : m.WF)
    (h : ∀ k v, m.get? k = some v → g v = f v) : (m.map fun p => (p.1, g p.2)) = m.map fun p => (p.1, f p.2) := by
  apply List.map_congr_left
  intro p hp
  rw [h p.1 p.2 (GoMap.get?_of_mem wf hp)]

theorem outer_set (h : Heap) (o : Nat) (m : GoMap Bytes Nat) (p : Nat) (ho : o < h.outers.length) :
    ((h.outers.set o m)[p]?.getD []) = if o = p then m else h.outer p := by
  unfold Heap.outer
  rw [List.getElem?_set]
  by_cases e : o = p
  · subst e; rw [if_pos rfl, if_pos ho, if_pos rfl]; rfl
  · rw [if_neg e, if_neg e]

theorem inner_set (h : Heap) (i : Nat) (m : GoMap Bytes Nat) (j : Nat) (hi : i < h.inners.length) :
    ((h.inners.set i m)[j]?.getD []) = if i = j then m else h.inner j := by
  unfold Heap.inner
  rw [List.getElem?_set]
  by_cases e : i = j
  · subst e; rw [if_pos rfl, if_pos hi, if_pos rfl]; rfl
  · rw [if_neg e, if_neg e]

theorem inner_push (h : Heap) (m : GoMap Bytes Nat) (j : Nat) :
    ((h.inners ++ [m])[j]?.getD []) = if j = h.inners.length then m else h.inner j := by
  unfold Heap.inner
  by_cases e : j < h.inners.length
  · rw [List.getElem?_append_left e, if_neg (by omega)]
  · by_cases e' : j = h.inners.length
    · subst e'; simp
    · rw [if_neg e', List.getElem?_eq_none (by simp; omega), List.getElem?_eq_none (by omega)]

/-! ## The map of a context -/

/-- What `ensureInner` gives. -/
structure Ensured (h : Heap) (o : Nat) (ctx : Bytes) (h' : Heap) (i : Nat) : Prop where
  refs : h'.refs = h.refs
  flags : h'.flags = h.flags
  cmts : h'.cmts = h.cmts
  msgs : h'.msgs = h.msgs
  files : h'.files = h.files
  maps : MapsOk h' o
  has : (h'.outer o).get? ctx = some i
  find : ∀ c id, Memory.find h' o c id = Memory.find h o c id
  others : ∀ p, p ≠ o → h'.outer p = h.outer p
  count : h'.outers.length = h.outers.length
  grows : h.inners.length ≤ h'.inners.length
  old : ∀ j, j < h.inners.length → h'.inner j = h.inner j
  fresh : ∀ c j, (h'.outer o).get? c = some j → (h.outer o).get? c = some j ∨ h.inners.length ≤ j

theorem ensured {h : Heap} {o : Nat} (mo : MapsOk h o) (ctx : Bytes) :
    Ensured h o ctx (ensureInner h o ctx).1 (ensureInner h o ctx).2 := by
  unfold ensureInner
  cases hg : (h.outer o).get? ctx with
  | some i =>
    exact ⟨rfl, rfl, rfl, rfl, rfl, mo, hg, fun _ _ => rfl, fun _ _ => rfl, rfl, Nat.le_refl _, fun _ _ => rfl,
      fun _ _ x => .inl x⟩
  | none =>
    simp only []
    have ho : ∀ p, (Heap.outer { h with inners := h.inners ++ [[]], outers := h.outers.set o ((h.outer o).set ctx h.inners.length) } p)
        = if o = p then (h.outer o).set ctx h.inners.length else h.outer p := fun p => outer_set h o _ p mo.bound
    have hi : ∀ j, (Heap.inner { h with inners := h.inners ++ [[]], outers := h.outers.set o ((h.outer o).set ctx h.inners.length) } j)
        = if j = h.inners.length then [] else h.inner j := fun j => inner_push h [] j
    have hget : ∀ c j, GoMap.get? (Heap.outer { h with inners := h.inners ++ [[]], outers := h.outers.set o ((h.outer o).set ctx h.inners.length) } o) c = some j →
        (ctx = c ∧ j = h.inners.length) ∨ (ctx ≠ c ∧ (h.outer o).get? c = some j) := by
      intro c j x
      rw [ho, if_pos rfl, GoMap.get?_set] at x
      split at x
      · cases x; left; exact ⟨by assumption, rfl⟩
      · right; exact ⟨by assumption, x⟩
    refine ⟨rfl, rfl, rfl, rfl, rfl, ⟨?_, ?_, ?_, ?_⟩, ?_, ?_, fun p hp => by rw [ho, if_neg (Ne.symm hp)], List.length_set, ?_, ?_, ?_⟩
    · simp only [List.length_set]; exact mo.bound
    · rw [ho, if_pos rfl]; exact mo.wf.set _ _
    · intro c j x
      rcases hget c j x with ⟨_, rfl⟩ | ⟨_, x⟩
      · exact ⟨by simp, by rw [hi, if_pos rfl]; exact GoMap.WF.nil⟩
      · obtain ⟨a1, a2⟩ := mo.inner c j x
        exact ⟨by simp; omega, by rw [hi, if_neg (by omega)]; exact a2⟩
    · intro c c' j x y
      rcases hget c j x with ⟨e, rfl⟩ | ⟨_, x⟩
      · rcases hget c' _ y with ⟨e', _⟩ | ⟨_, y⟩
        · rw [← e, ← e']
        · exact absurd (mo.inner c' _ y).1 (Nat.lt_irrefl _)
      · rcases hget c' j y with ⟨_, rfl⟩ | ⟨_, y⟩
        · exact absurd (mo.inner c _ x).1 (Nat.lt_irrefl _)
        · exact mo.single c c' j x y
    · rw [ho, if_pos rfl, GoMap.get?_set, if_pos rfl]
    · intro c id
      unfold Memory.find
      rw [ho, if_pos rfl, GoMap.get?_set]
      by_cases e : ctx = c
      · subst e
        rw [hg, if_pos rfl]
        simp only []
        rw [hi, if_pos rfl]; rfl
      · rw [if_neg e]
        cases hc : (h.outer o).get? c with
        | none => rfl
        | some j =>
          simp only []
          have := (mo.inner c j hc).1
          rw [hi, if_neg (by omega)]
    · simp
    · intro j hj
      rw [hi, if_neg (by omega)]
    · intro c j x
      rcases hget c j x with ⟨_, rfl⟩ | ⟨_, x⟩
      · exact .inr (Nat.le_refl _)
      · exact .inl x

theorem find_of {h : Heap} {o i : Nat} {c : Bytes} (x : (h.outer o).get? c = some i) (id : Bytes) :
    find h o c id = (h.inner i).get? id := by unfold find; rw [x]

theorem find_eq {h h' : Heap} {o : Nat} (ho : h'.outer o = h.outer o) (hi : h'.inners = h.inners) (c id : Bytes) :
    find h' o c id = find h o c id := by
  unfold find
  rw [ho]
  cases (h.outer o).get? c with
  | none => rfl
  | some i => simp only [Heap.inner, hi]

theorem outer_eq {h h' : Heap} (ho : h'.outers = h.outers) (o : Nat) : h'.outer o = h.outer o := by unfold Heap.outer; rw [ho]
theorem inner_eq {h h' : Heap} (ho : h'.inners = h.inners) (o : Nat) : h'.inner o = h.inner o := by unfold Heap.inner; rw [ho]

theorem message_eq {h h' : Heap} (h1 : h'.refs = h.refs) (h2 : h'.flags = h.flags) (h3 : h'.cmts = h.cmts) (h4 : h'.msgs = h.msgs)
    (a : Nat) : h'.message a = h.message a := by
  unfold Heap.message Heap.comment Heap.msg Heap.cmt
  rw [h1, h2, h3, h4]

theorem msgOk_eq {h h' : Heap} (h1 : h'.refs = h.refs) (h2 : h'.flags = h.flags) (h3 : h'.cmts = h.cmts) (h4 : h'.msgs = h.msgs)
    (a : Nat) : MsgOk h' a ↔ MsgOk h a := by
  unfold MsgOk CmtOk Heap.msg Heap.cmt
  rw [h1, h2, h3, h4]

theorem msgApart_eq {h h' : Heap} (h3 : h'.cmts = h.cmts) (h4 : h'.msgs = h.msgs)
    (a b : Nat) : MsgApart h' a b ↔ MsgApart h a b := by
  unfold MsgApart CmtApart Heap.msg Heap.cmt
  rw [h3, h4]

theorem mergeable_eq {h h' : Heap} (h3 : h'.cmts = h.cmts) (h4 : h'.msgs = h.msgs)
    (a b : Nat) : Mergeable h' a b ↔ Mergeable h a b := by
  unfold Mergeable Heap.msg Heap.cmt
  rw [h3, h4]

theorem mapsOk_eq {h h' : Heap} (h1 : h'.inners = h.inners) (h2 : h'.outers = h.outers) {o : Nat} (m : MapsOk h o) : MapsOk h' o := by
  have a := outer_eq h2
  have b := inner_eq h1
  exact ⟨by rw [h2]; exact m.bound, by rw [a]; exact m.wf, fun c i x => by rw [a] at x; rw [h1, b]; exact m.inner c i x,
    fun c c' i x y => by rw [a] at x y; exact m.single c c' i x y⟩

theorem get_messages (h : Heap) (o : Nat) (c : Bytes) :
    (h.messages o).get? c = ((h.outer o).get? c).map h.innerMessages :=
  GoMap.get?_map h.innerMessages (h.outer o) c

/-- The file stands for the same messages if it has the same pointers and they stand for the same. -/
theorem messages_same {h h' : Heap} {o : Nat} (mo : MapsOk h o) (ho : h'.outer o = h.outer o)
    (hi : ∀ c i, (h.outer o).get? c = some i → h'.inner i = h.inner i)
    (hm : ∀ c id a, find h o c id = some a → h'.message a = h.message a) : h'.messages o = h.messages o := by
  unfold Heap.messages
  rw [ho]
  refine map_same h.innerMessages h'.innerMessages _ mo.wf fun c i x => ?_
  unfold Heap.innerMessages
  rw [hi c i x]
  exact map_same h.message h'.message _ (mo.inner c i x).2 fun id a y => hm c id a ((find_of x id).trans y)

/-! ## Adding a message -/

/-- The parts of `add`. -/
theorem add_cases (room : Room) {h : Heap} {o : Nat} (mo : MapsOk h o) (a : Nat) :
    ∃ h1 i, Ensured h o (h.msg a).context h1 i ∧
      ((∃ old, find h o (h.msg a).context (h.msg a).id = some old ∧ (h1.inner i).get? (h.msg a).id = some old ∧
          add room h o a = mergeMsg room h1 old a) ∨
       (find h o (h.msg a).context (h.msg a).id = none ∧ (h1.inner i).get? (h.msg a).id = none ∧
          add room h o a = h1.setInner i ((h1.inner i).set (h.msg a).id a))) := by
  have e := ensured mo (h.msg a).context
  refine ⟨_, _, e, ?_⟩
  have hf : find h o (h.msg a).context (h.msg a).id =
      ((ensureInner h o (h.msg a).context).1.inner (ensureInner h o (h.msg a).context).2).get? (h.msg a).id := by
    rw [← e.find, find_of e.has]
  cases hg : ((ensureInner h o (h.msg a).context).1.inner (ensureInner h o (h.msg a).context).2).get? (h.msg a).id with
  | some old =>
    refine .inl ⟨old, hf.trans hg, rfl, ?_⟩
    unfold add; simp only []; rw [hg]
  | none =>
    refine .inr ⟨hf.trans hg, rfl, ?_⟩
    unfold add; simp only []; rw [hg]

theorem setInner_inner {h : Heap} {i : Nat} (hi : i < h.inners.length) (m : GoMap Bytes Nat) (j : Nat) :
    (h.setInner i m).inner j = if i = j then m else h.inner j := inner_set h i m j hi

theorem setInner_maps {h : Heap} {o i : Nat} {c : Bytes} (mo : MapsOk h o) (x : (h.outer o).get? c = some i) (id : Bytes) (a : Nat) :
    MapsOk (h.setInner i ((h.inner i).set id a)) o := by
  have hi := (mo.inner c i x).1
  refine ⟨mo.bound, mo.wf, fun c' j y => ⟨?_, ?_⟩, mo.single⟩
  · show j < (h.inners.set i _).length
    rw [List.length_set]; exact (mo.inner c' j y).1
  · rw [setInner_inner hi]; split
    · exact (mo.inner c i x).2.set _ _
    · exact (mo.inner c' j y).2

theorem setInner_find {h : Heap} {o i : Nat} {c : Bytes} (mo : MapsOk h o) (x : (h.outer o).get? c = some i) (id : Bytes) (a : Nat)
    (c' id' : Bytes) : find (h.setInner i ((h.inner i).set id a)) o c' id' =
      if c = c' ∧ id = id' then some a else find h o c' id' := by
  have hi := (mo.inner c i x).1
  have hd : find (h.setInner i ((h.inner i).set id a)) o c' id' =
      match (h.outer o).get? c' with
      | none => none
      | some j => ((h.setInner i ((h.inner i).set id a)).inner j).get? id' := rfl
  rw [hd]
  by_cases e : c = c'
  · subst e
    rw [x]
    simp only []
    rw [setInner_inner hi, if_pos rfl, GoMap.get?_set, find_of x]
    by_cases e : id = id'
    · rw [if_pos e, if_pos (And.intro trivial e)]
    · rw [if_neg e, if_neg (fun z => e z.2)]
  · rw [if_neg (fun z => e z.1)]
    cases y : (h.outer o).get? c' with
    | none => unfold find; rw [y]
    | some j =>
      simp only []
      rw [setInner_inner hi, if_neg ?_, find_of y]
      rintro rfl
      exact e (mo.single c c' _ x y)

/-- The maps stay maps. -/
theorem add_maps (room : Room) {h : Heap} {o : Nat} (mo : MapsOk h o) (a : Nat)
    (ok : ∀ old, find h o (h.msg a).context (h.msg a).id = some old → MsgOk h old) : MapsOk (add room h o a) o := by
  obtain ⟨h1, i, e, ⟨old, h2, h3, h4⟩ | ⟨h2, h3, h4⟩⟩ := add_cases room mo a
  · rw [h4]
    have s := mergeMsg_step room ((msgOk_eq e.refs e.flags e.cmts e.msgs old).mpr (ok old h2)) a
    exact mapsOk_eq s.inners s.outers e.maps
  · rw [h4]
    exact setInner_maps e.maps e.has _ _

/-- The pointer that is found afterwards. -/
theorem add_find (room : Room) {h : Heap} {o : Nat} (mo : MapsOk h o) (a : Nat)
    (ok : ∀ old, find h o (h.msg a).context (h.msg a).id = some old → MsgOk h old) (ctx id : Bytes) :
    find (add room h o a) o ctx id =
      if (h.msg a).context = ctx ∧ (h.msg a).id = id then some ((find h o ctx id).getD a) else find h o ctx id := by
  obtain ⟨h1, i, e, ⟨old, h2, h3, h4⟩ | ⟨h2, h3, h4⟩⟩ := add_cases room mo a
  · have s := mergeMsg_step room ((msgOk_eq e.refs e.flags e.cmts e.msgs old).mpr (ok old h2)) a
    rw [h4, find_eq (outer_eq s.outers o) s.inners, e.find]
    split
    · rename_i c
      rw [← c.1, ← c.2, h2]; rfl
    · rfl
  · rw [h4, setInner_find e.maps e.has]
    split
    · rename_i c
      rw [← c.1, ← c.2, h2]; rfl
    · exact e.find ctx id

/-- Every message but the one merged into keeps its value. -/
theorem add_frame (room : Room) {h : Heap} {o : Nat} (mo : MapsOk h o) (a : Nat)
    (ok : ∀ old, find h o (h.msg a).context (h.msg a).id = some old → MsgOk h old) {b : Nat} (okb : MsgOk h b)
    (ap : ∀ old, find h o (h.msg a).context (h.msg a).id = some old → MsgApart h b old) :
    MsgOk (add room h o a) b ∧ (add room h o a).message b = h.message b ∧ (add room h o a).msg b = h.msg b := by
  obtain ⟨h1, i, e, ⟨old, h2, h3, h4⟩ | ⟨h2, h3, h4⟩⟩ := add_cases room mo a
  · have s := mergeMsg_step room ((msgOk_eq e.refs e.flags e.cmts e.msgs old).mpr (ok old h2)) a
    rw [h4]
    obtain ⟨f1, f2, _⟩ := s.frame b ((msgOk_eq e.refs e.flags e.cmts e.msgs b).mpr okb)
      ((msgApart_eq e.cmts e.msgs b old).mpr (ap old h2))
    refine ⟨f1, f2.trans (message_eq e.refs e.flags e.cmts e.msgs b), ?_⟩
    rw [s.others b (ap old h2).1]
    unfold Heap.msg; rw [e.msgs]
  · rw [h4]
    exact ⟨(msgOk_eq (h := h) e.refs e.flags e.cmts e.msgs b).mpr okb, message_eq (h := h) e.refs e.flags e.cmts e.msgs b,
      by show h1.msg b = _; unfold Heap.msg; rw [e.msgs]⟩

/-- Messages keep their keys. -/
theorem add_key (room : Room) {h : Heap} {o : Nat} (mo : MapsOk h o) (a : Nat)
    (ok : ∀ old, find h o (h.msg a).context (h.msg a).id = some old → MsgOk h old) (b : Nat) :
    ((add room h o a).msg b).context = (h.msg b).context ∧ ((add room h o a).msg b).id = (h.msg b).id := by
  obtain ⟨h1, i, e, ⟨old, h2, h3, h4⟩ | ⟨h2, h3, h4⟩⟩ := add_cases room mo a
  · have s := mergeMsg_step room ((msgOk_eq e.refs e.flags e.cmts e.msgs old).mpr (ok old h2)) a
    rw [h4]
    have := s.key b
    have hm : h1.msg b = h.msg b := by unfold Heap.msg; rw [e.msgs]
    rw [hm] at this
    exact this
  · rw [h4]
    have hm : h1.msg b = h.msg b := by unfold Heap.msg; rw [e.msgs]
    show (h1.msg b).context = _ ∧ (h1.msg b).id = _
    rw [hm]; exact ⟨rfl, rfl⟩

/-- The message that is merged into. -/
theorem add_merged (room : Room) {h : Heap} {o : Nat} (mo : MapsOk h o) {a old : Nat} (oka : MsgOk h a)
    (hf : find h o (h.msg a).context (h.msg a).id = some old) (ok : MsgOk h old) (hm : Mergeable h old a) :
    (add room h o a).message old = (h.message old).merge (h.message a) := by
  obtain ⟨h1, i, e, ⟨old', h2, h3, h4⟩ | ⟨h2, h3, h4⟩⟩ := add_cases room mo a
  · rw [hf] at h2
    cases h2
    rw [h4, mergeMsg_value room ((msgOk_eq e.refs e.flags e.cmts e.msgs old).mpr ok)
      ((msgOk_eq e.refs e.flags e.cmts e.msgs a).mpr oka) ((mergeable_eq e.cmts e.msgs old a).mpr hm),
      message_eq e.refs e.flags e.cmts e.msgs, message_eq e.refs e.flags e.cmts e.msgs]
  · rw [hf] at h2; cases h2

/-- What the file stands for afterwards. -/
theorem add_value (room : Room) {h : Heap} {o a : Nat} (ow : Owned h o) (oka : MsgOk h a)
    (hm : ∀ old, find h o (h.msg a).context (h.msg a).id = some old → Mergeable h old a) :
    (add room h o a).messages o = Messages.add (h.messages o) (h.message a) := by
  have mo := ow.maps
  unfold Messages.add
  simp only []
  rw [show (h.message a).context = (h.msg a).context from rfl, show (h.message a).id = (h.msg a).id from rfl, get_messages]
  cases hg : (h.outer o).get? (h.msg a).context with
  | some i =>
    obtain ⟨hi, wi⟩ := mo.inner _ i hg
    have hfi : ∀ id, find h o (h.msg a).context id = (h.inner i).get? id := find_of hg
    rw [Option.map_some, Option.getD_some,
      show GoMap.get? (h.innerMessages i) (h.msg a).id = ((h.inner i).get? (h.msg a).id).map h.message from
        GoMap.get?_map h.message (h.inner i) (h.msg a).id]
    cases hold : (h.inner i).get? (h.msg a).id with
    | some old =>
      have hf := (hfi (h.msg a).id).trans hold
      have okold := ow.ok _ _ _ hf
      have hadd : add room h o a = mergeMsg room h old a := by
        unfold add ensureInner; rw [hg]; simp only []; rw [hold]
      have s := mergeMsg_step room okold a
      have hframe : ∀ c id b, find h o c id = some b → (c, id) ≠ ((h.msg a).context, (h.msg a).id) →
          (mergeMsg room h old a).message b = h.message b := fun c id b x y =>
        (s.frame b (ow.ok _ _ _ x) (ow.apart _ _ _ _ _ _ x hf y)).2.1
      rw [hadd]
      simp only [Option.map_some]
      unfold Heap.messages
      rw [outer_eq s.outers]
      have hin : (mergeMsg room h old a).innerMessages i =
          GoMap.set (h.innerMessages i) (h.msg a).id ((h.message old).merge (h.message a)) := by
        rw [← mergeMsg_value room okold oka (hm old hf)]
        unfold Heap.innerMessages
        rw [inner_eq s.inners]
        exact map_change h.message (mergeMsg room h old a).message _ _ _ wi hold fun id b hne x =>
          hframe _ id b ((hfi id).trans x) fun e => hne (Prod.mk.inj e).2
      rw [← hin]
      refine map_change h.innerMessages (mergeMsg room h old a).innerMessages _ _ _ mo.wf hg fun c j hne x => ?_
      unfold Heap.innerMessages
      rw [inner_eq s.inners]
      exact map_same h.message (mergeMsg room h old a).message _ (mo.inner c j x).2 fun id b y =>
        hframe c id b ((find_of x id).trans y) fun e => hne (Prod.mk.inj e).1
    | none =>
      have hadd : add room h o a = h.setInner i ((h.inner i).set (h.msg a).id a) := by
        unfold add ensureInner; rw [hg]; simp only []; rw [hold]
      rw [hadd]
      simp only [Option.map_none]
      unfold Heap.messages
      rw [show (h.setInner i ((h.inner i).set (h.msg a).id a)).outer o = h.outer o from rfl]
      have hmsg : (h.setInner i ((h.inner i).set (h.msg a).id a)).message = h.message := rfl
      have hin : (h.setInner i ((h.inner i).set (h.msg a).id a)).innerMessages i =
          GoMap.set (h.innerMessages i) (h.msg a).id (h.message a) := by
        unfold Heap.innerMessages
        rw [setInner_inner hi, if_pos rfl, hmsg]
        exact map_set h.message (h.inner i) (h.msg a).id a
      rw [← hin]
      refine map_change h.innerMessages _ _ _ _ mo.wf hg fun c j hne x => ?_
      unfold Heap.innerMessages
      rw [setInner_inner hi, if_neg ?_, hmsg]
      rintro rfl
      exact hne (mo.single _ _ _ x hg)
  | none =>
    have hadd : add room h o a = Heap.setInner
        { h with inners := h.inners ++ [[]], outers := h.outers.set o ((h.outer o).set (h.msg a).context h.inners.length) }
        h.inners.length [((h.msg a).id, a)] := by
      unfold add ensureInner; rw [hg]; simp only []
      have : Heap.inner { h with inners := h.inners ++ [[]], outers := h.outers.set o ((h.outer o).set (h.msg a).context h.inners.length) }
          h.inners.length = [] := by
        have := inner_push h [] h.inners.length
        rw [if_pos rfl] at this
        exact this
      rw [this]
      rfl
    rw [hadd]
    simp only [Option.map_none, Option.getD_none, GoMap.get?]
    have hb : h.inners.length < (h.inners ++ [([] : GoMap Bytes Nat)]).length := by simp
    have hin : ∀ j, (Heap.setInner
        { h with inners := h.inners ++ [[]], outers := h.outers.set o ((h.outer o).set (h.msg a).context h.inners.length) }
        h.inners.length [((h.msg a).id, a)]).inner j = if h.inners.length = j then [((h.msg a).id, a)] else h.inner j := by
      intro j
      rw [setInner_inner hb]
      split
      · rfl
      · rename_i hne
        have := inner_push h [] j
        rw [if_neg (Ne.symm hne)] at this
        exact this
    have ho : (Heap.setInner
        { h with inners := h.inners ++ [[]], outers := h.outers.set o ((h.outer o).set (h.msg a).context h.inners.length) }
        h.inners.length [((h.msg a).id, a)]).outer o = (h.outer o).set (h.msg a).context h.inners.length := by
      have := outer_set h o ((h.outer o).set (h.msg a).context h.inners.length) o mo.bound
      rw [if_pos rfl] at this
      exact this
    unfold Heap.messages
    rw [ho]
    rw [map_set (Heap.innerMessages (Heap.setInner
        { h with inners := h.inners ++ [[]], outers := h.outers.set o ((h.outer o).set (h.msg a).context h.inners.length) }
        h.inners.length [((h.msg a).id, a)])) (h.outer o) (h.msg a).context h.inners.length]
    congr 1
    · refine map_same h.innerMessages _ _ mo.wf fun c j x => ?_
      have := (mo.inner c j x).1
      unfold Heap.innerMessages
      rw [hin, if_neg (by omega)]
      rfl
    · unfold Heap.innerMessages
      rw [hin, if_pos rfl]
      rfl

/-- The messages of the file still do not share memory if the new one does not. -/
theorem add_owned (room : Room) {h : Heap} {o a : Nat} (ow : Owned h o) (oka : MsgOk h a) (new : New h o a) :
    Owned (add room h o a) o := by
  have okold := fun old x => ow.ok (h.msg a).context (h.msg a).id old x
  have hf := add_find room ow.maps a okold
  -- what is found afterwards was there or is the new message
  have src : ∀ c id b, find (add room h o a) o c id = some b → find h o c id = some b ∨
      (b = a ∧ c = (h.msg a).context ∧ id = (h.msg a).id ∧ find h o c id = none) := by
    intro c id b x
    rw [hf] at x
    split at x
    · rename_i e
      cases y : find h o c id with
      | some b' => rw [y] at x; exact .inl x
      | none => rw [y] at x; cases x; exact .inr ⟨rfl, e.1.symm, e.2.symm, rfl⟩
    · exact .inl x
  obtain ⟨h1, i, e, ⟨old, h2, h3, h4⟩ | ⟨h2, h3, h4⟩⟩ := add_cases room ow.maps a
  · have okold1 := (msgOk_eq e.refs e.flags e.cmts e.msgs old).mpr (okold old h2)
    have s := mergeMsg_step room okold1 a
    have src' : ∀ c id b, find (add room h o a) o c id = some b → find h o c id = some b := by
      intro c id b x
      rcases src c id b x with y | ⟨_, rfl, rfl, y⟩
      · exact y
      · rw [y] at h2; cases h2
    -- all but the merged message are apart from it
    have far : ∀ c id b, find h o c id = some b → (c, id) ≠ ((h.msg a).context, (h.msg a).id) → MsgOk h1 b ∧ MsgApart h1 b old :=
      fun c id b x hne => ⟨(msgOk_eq e.refs e.flags e.cmts e.msgs b).mpr (ow.ok _ _ _ x),
        (msgApart_eq e.cmts e.msgs b old).mpr (ow.apart _ _ _ _ _ _ x h2 hne)⟩
    have isold : ∀ c id b, find h o c id = some b → (c, id) = ((h.msg a).context, (h.msg a).id) → b = old := by
      intro c id b x y
      cases y
      rw [x] at h2; exact Option.some.inj h2
    refine ⟨add_maps room ow.maps a okold, fun c id b x => ?_, fun c id b c' id' b' x x' hne => ?_⟩
    · have y := src' c id b x
      by_cases hk : (c, id) = ((h.msg a).context, (h.msg a).id)
      · rw [isold c id b y hk, h4]; exact s.ok
      · obtain ⟨f1, f2⟩ := far c id b y hk
        rw [h4]; exact (s.frame b f1 f2).1
    · have y := src' c id b x
      have y' := src' c' id' b' x'
      rw [h4]
      by_cases hk : (c, id) = ((h.msg a).context, (h.msg a).id)
      · obtain ⟨f1, f2⟩ := far c' id' b' y' fun z => hne (hk.trans z.symm)
        rw [isold c id b y hk]
        exact MsgApart.symm (s.frame b' f1 f2).2.2
      · obtain ⟨f1, f2⟩ := far c id b y hk
        by_cases hk' : (c', id') = ((h.msg a).context, (h.msg a).id)
        · rw [isold c' id' b' y' hk']
          exact (s.frame b f1 f2).2.2
        · obtain ⟨g1, g2⟩ := far c' id' b' y' hk'
          exact s.pair f1 g1 f2 g2 ((msgApart_eq e.cmts e.msgs b b').mpr (ow.apart _ _ _ _ _ _ y y' hne))
  · have hok : ∀ b, MsgOk (add room h o a) b ↔ MsgOk h b := fun b => by
      rw [h4]; exact msgOk_eq (h := h) (h' := h1.setInner i _) e.refs e.flags e.cmts e.msgs b
    have hap : ∀ b b', MsgApart (add room h o a) b b' ↔ MsgApart h b b' := fun b b' => by
      rw [h4]; exact msgApart_eq (h := h) (h' := h1.setInner i _) e.cmts e.msgs b b'
    refine ⟨add_maps room ow.maps a okold, fun c id b x => ?_, fun c id b c' id' b' x x' hne => ?_⟩
    · rw [hok]
      rcases src c id b x with y | ⟨rfl, _⟩
      · exact ow.ok _ _ _ y
      · exact oka
    · rw [hap]
      rcases src c id b x with y | ⟨rfl, rfl, rfl, _⟩
      · rcases src c' id' b' x' with y' | ⟨rfl, _⟩
        · exact ow.apart _ _ _ _ _ _ y y' hne
        · exact new _ _ _ y
      · rcases src c' id' b' x' with y' | ⟨_, rfl, rfl, _⟩
        · exact MsgApart.symm (new _ _ _ y')
        · exact absurd rfl hne

/-- A second file with maps of its own. -/
theorem add_other (room : Room) {h : Heap} {o p : Nat} (mo : MapsOk h o) (mp : MapsOk h p) (ap : MapsApart h o p) (a : Nat)
    (ok : ∀ old, find h o (h.msg a).context (h.msg a).id = some old → MsgOk h old) :
    MapsOk (add room h o a) p ∧ MapsApart (add room h o a) o p ∧
      (∀ c id, find (add room h o a) p c id = find h p c id) ∧
      (add room h o a).outer p = h.outer p ∧ (∀ c j, (h.outer p).get? c = some j → (add room h o a).inner j = h.inner j) := by
  obtain ⟨h1, i, e, hc⟩ := add_cases room mo a
  -- the state after `ensureInner`
  have ho1 : h1.outer p = h.outer p := e.others p ap.1.symm
  have hi1 : ∀ c j, (h.outer p).get? c = some j → h1.inner j = h.inner j := fun c j x => e.old j (mp.inner c j x).1
  -- the rest
  have rest : (add room h o a).outers = h1.outers ∧ (add room h o a).inners.length = h1.inners.length ∧
      ∀ j, j ≠ i → (add room h o a).inner j = h1.inner j := by
    rcases hc with ⟨old, h2, h3, h4⟩ | ⟨h2, h3, h4⟩
    · have s := mergeMsg_step room ((msgOk_eq e.refs e.flags e.cmts e.msgs old).mpr (ok old h2)) a
      rw [h4]
      exact ⟨s.outers, by rw [s.inners], fun j _ => inner_eq s.inners j⟩
    · rw [h4]
      refine ⟨rfl, List.length_set, fun j hj => ?_⟩
      rw [setInner_inner (e.maps.inner _ _ e.has).1, if_neg (Ne.symm hj)]
  have houter : (add room h o a).outer p = h.outer p := by rw [outer_eq rest.1, ho1]
  have hne : ∀ c j, (h.outer p).get? c = some j → j ≠ i := by
    rintro c j x rfl
    rcases e.fresh _ _ e.has with y | y
    · exact ap.2 _ _ _ y x
    · have := (mp.inner c _ x).1; omega
  have hinner : ∀ c j, (h.outer p).get? c = some j → (add room h o a).inner j = h.inner j := fun c j x => by
    rw [rest.2.2 j (hne c j x), hi1 c j x]
  have hbound : p < h1.outers.length := by rw [e.count]; exact mp.bound
  refine ⟨⟨by rw [rest.1]; exact hbound, by rw [houter]; exact mp.wf, fun c j x => ?_, fun c c' j x y => ?_⟩, ⟨ap.1, ?_⟩, ?_, houter, hinner⟩
  · rw [houter] at x
    obtain ⟨b1, b2⟩ := mp.inner c j x
    exact ⟨by rw [rest.2.1]; exact Nat.lt_of_lt_of_le b1 e.grows, by rw [hinner c j x]; exact b2⟩
  · rw [houter] at x y; exact mp.single c c' j x y
  · intro c c' j x y
    rw [houter] at y
    rw [outer_eq rest.1] at x
    rcases e.fresh c j x with z | z
    · exact ap.2 _ _ _ z y
    · have := (mp.inner c' _ y).1; omega
  · intro c id
    unfold find
    rw [houter]
    cases x : (h.outer p).get? c with
    | none => rfl
    | some j => simp only []; rw [hinner c j x]

/-! ## Files -/

theorem add_files (room : Room) {h : Heap} {o : Nat} (mo : MapsOk h o) (a : Nat)
    (ok : ∀ old, find h o (h.msg a).context (h.msg a).id = some old → MsgOk h old) : (add room h o a).files = h.files := by
  obtain ⟨h1, i, e, ⟨old, h2, h3, h4⟩ | ⟨h2, h3, h4⟩⟩ := add_cases room mo a
  · rw [h4, (mergeMsg_step room ((msgOk_eq e.refs e.flags e.cmts e.msgs old).mpr (ok old h2)) a).files, e.files]
  · rw [h4]; exact e.files

/-- Every message stays one. -/
theorem add_all (room : Room) {h : Heap} {o : Nat} (mo : MapsOk h o) (a : Nat)
    (ok : ∀ old, find h o (h.msg a).context (h.msg a).id = some old → MsgOk h old) {b : Nat} (okb : MsgOk h b) :
    MsgOk (add room h o a) b := by
  obtain ⟨h1, i, e, ⟨old, h2, h3, h4⟩ | ⟨h2, h3, h4⟩⟩ := add_cases room mo a
  · have s := mergeMsg_step room ((msgOk_eq e.refs e.flags e.cmts e.msgs old).mpr (ok old h2)) a
    rw [h4]
    exact s.all b ((msgOk_eq e.refs e.flags e.cmts e.msgs b).mpr okb)
  · rw [h4]
    exact (msgOk_eq (h := h) (h' := h1.setInner i _) e.refs e.flags e.cmts e.msgs b).mpr okb

/-- Messages that are apart stay apart. -/
theorem add_apart (room : Room) {h : Heap} {o : Nat} (mo : MapsOk h o) (a : Nat)
    (ok : ∀ old, find h o (h.msg a).context (h.msg a).id = some old → MsgOk h old) {b b' : Nat} (okb : MsgOk h b) (okb' : MsgOk h b')
    (x : MsgApart h b b') (y : ∀ old, find h o (h.msg a).context (h.msg a).id = some old → b = old ∨ MsgApart h b old)
    (y' : ∀ old, find h o (h.msg a).context (h.msg a).id = some old → b' = old ∨ MsgApart h b' old) :
    MsgApart (add room h o a) b b' := by
  obtain ⟨h1, i, e, ⟨old, h2, h3, h4⟩ | ⟨h2, h3, h4⟩⟩ := add_cases room mo a
  · have s := mergeMsg_step room ((msgOk_eq e.refs e.flags e.cmts e.msgs old).mpr (ok old h2)) a
    have x1 := (msgApart_eq e.cmts e.msgs b b').mpr x
    have o1 := (msgOk_eq e.refs e.flags e.cmts e.msgs b).mpr okb
    have o2 := (msgOk_eq e.refs e.flags e.cmts e.msgs b').mpr okb'
    rw [h4]
    rcases y old h2 with rfl | z
    · exact MsgApart.symm (s.frame b' o2 (MsgApart.symm x1)).2.2
    · rcases y' old h2 with rfl | z'
      · exact (s.frame b o1 x1).2.2
      · exact s.pair o1 o2 ((msgApart_eq e.cmts e.msgs b old).mpr z) ((msgApart_eq e.cmts e.msgs b' old).mpr z') x1
  · rw [h4]
    exact (msgApart_eq (h := h) (h' := h1.setInner i _) e.cmts e.msgs b b').mpr x

theorem outer_push (h : Heap) (m : GoMap Bytes Nat) (j : Nat) :
    ((h.outers ++ [m])[j]?.getD []) = if j = h.outers.length then m else h.outer j := by
  unfold Heap.outer
  by_cases e : j < h.outers.length
  · rw [List.getElem?_append_left e, if_neg (by omega)]
  · by_cases e' : j = h.outers.length
    · subst e'; simp
    · rw [if_neg e', List.getElem?_eq_none (by simp; omega), List.getElem?_eq_none (by omega)]

/-- What `ensureOuter` gives. -/
structure Opened (h : Heap) (f : Nat) (h' : Heap) (o : Nat) : Prop where
  refs : h'.refs = h.refs
  flags : h'.flags = h.flags
  cmts : h'.cmts = h.cmts
  msgs : h'.msgs = h.msgs
  inners : h'.inners = h.inners
  has : h'.files[f]?.getD none = some o
  len : h'.files.length = h.files.length
  maps : MapsOk h' o
  find : ∀ c id, find h' o c id = getMessage h f c id
  value : h'.messages o = h.file f

theorem opened {h : Heap} {f : Nat} (hf : f < h.files.length) (mo : ∀ o, h.files[f]?.getD none = some o → MapsOk h o) :
    Opened h f (ensureOuter h f).1 (ensureOuter h f).2 := by
  unfold ensureOuter
  cases hg : h.files[f]?.getD none with
  | some o =>
    refine ⟨rfl, rfl, rfl, rfl, rfl, hg, rfl, mo o hg, fun c id => ?_, ?_⟩
    · unfold getMessage; rw [hg]
    · unfold Heap.file; rw [hg]
  | none =>
    have ho : Heap.outer { h with outers := h.outers ++ [[]], files := h.files.set f (some h.outers.length) } h.outers.length = [] := by
      have := outer_push h [] h.outers.length
      rw [if_pos rfl] at this
      exact this
    refine ⟨rfl, rfl, rfl, rfl, rfl, ?_, by simp, ⟨by simp, ?_, ?_, ?_⟩, fun c id => ?_, ?_⟩
    · simp [hf]
    · rw [ho]; exact GoMap.WF.nil
    · intro c i x; rw [ho] at x; cases x
    · intro c c' i x; rw [ho] at x; cases x
    · unfold Memory.find getMessage; rw [ho, hg]; rfl
    · unfold Heap.messages Heap.file; rw [ho, hg]; rfl

theorem getMessage_of {h : Heap} {f o : Nat} (x : h.files[f]?.getD none = some o) (c id : Bytes) :
    getMessage h f c id = find h o c id := by unfold getMessage; rw [x]

theorem addMessage_unfold (room : Room) (h : Heap) (f a : Nat) :
    addMessage room h f a = if (h.msg a).id = [] then (ensureOuter h f).1 else add room (ensureOuter h f).1 (ensureOuter h f).2 a := rfl

theorem addMessage_ok (room : Room) {h : Heap} {f : Nat} (ok : FileOk h f) {a : Nat} (oka : MsgOk h a) :
    FileOk (addMessage room h f a) f ∧ (∀ b, MsgOk h b → MsgOk (addMessage room h f a) b) ∧
      (∀ b, ((addMessage room h f a).msg b).context = (h.msg b).context ∧ ((addMessage room h f a).msg b).id = (h.msg b).id) ∧
      ∀ c id, getMessage (addMessage room h f a) f c id =
        if (h.msg a).id ≠ [] ∧ HasKey h c id a then some ((getMessage h f c id).getD a) else getMessage h f c id := by
  have e := opened ok.1 ok.2.1
  have hmsg : ∀ b, (ensureOuter h f).1.msg b = h.msg b := fun b => by unfold Heap.msg; rw [e.msgs]
  have hmo := fun b => msgOk_eq (h := h) e.refs e.flags e.cmts e.msgs b
  rw [addMessage_unfold]
  by_cases h0 : (h.msg a).id = []
  · rw [if_pos h0]
    refine ⟨⟨by rw [e.len]; exact ok.1, fun o x => ?_, fun c id b x => ?_⟩, fun b x => (hmo b).mpr x, fun b => by rw [hmsg]; exact ⟨rfl, rfl⟩,
      fun c id => ?_⟩
    · rw [e.has] at x; cases x; exact e.maps
    · rw [getMessage_of e.has, e.find] at x
      exact (hmo b).mpr (ok.2.2 c id b x)
    · rw [getMessage_of e.has, e.find, if_neg (fun x => x.1 h0)]
  · rw [if_neg h0]
    have okold : ∀ old, find (ensureOuter h f).1 (ensureOuter h f).2 ((ensureOuter h f).1.msg a).context ((ensureOuter h f).1.msg a).id
        = some old → MsgOk (ensureOuter h f).1 old := fun old x => by
      rw [e.find] at x; exact (hmo old).mpr (ok.2.2 _ _ old x)
    have hfiles := add_files room e.maps a okold
    have hhas : (add room (ensureOuter h f).1 (ensureOuter h f).2 a).files[f]?.getD none = some (ensureOuter h f).2 := by
      rw [hfiles]; exact e.has
    have hfind : ∀ c id, getMessage (add room (ensureOuter h f).1 (ensureOuter h f).2 a) f c id =
        if (h.msg a).id ≠ [] ∧ HasKey h c id a then some ((getMessage h f c id).getD a) else getMessage h f c id := by
      intro c id
      rw [getMessage_of hhas, add_find room e.maps a okold, hmsg, e.find]
      by_cases hk : (h.msg a).context = c ∧ (h.msg a).id = id
      · rw [if_pos hk, if_pos ⟨h0, hk⟩]
      · rw [if_neg hk, if_neg (fun x => hk x.2)]
    refine ⟨⟨by rw [hfiles, e.len]; exact ok.1, fun o x => ?_, fun c id b x => ?_⟩, fun b x => add_all room e.maps a okold ((hmo b).mpr x),
      fun b => ?_, hfind⟩
    · rw [hhas] at x; cases x
      exact add_maps room e.maps a okold
    · refine add_all room e.maps a okold ((hmo b).mpr ?_)
      rw [hfind] at x
      split at x
      · cases y : getMessage h f c id with
        | none => rw [y] at x; cases x; exact oka
        | some b' => rw [y] at x; cases x; exact ok.2.2 _ _ _ y
      · exact ok.2.2 _ _ _ x
    · have := add_key room e.maps a okold b
      rw [hmsg] at this; exact this

/-- Adding to the file, in terms of the map that `ensureOuter` gives. -/
theorem addMessage_open (room : Room) {h : Heap} {f : Nat} (ok : FileOk h f) (a : Nat) :
    ∃ h1 o, Opened h f h1 o ∧ h1 = (ensureOuter h f).1 ∧ o = (ensureOuter h f).2 ∧
      (∀ old, find h1 o (h1.msg a).context (h1.msg a).id = some old → MsgOk h1 old ∧
        getMessage h f (h.msg a).context (h.msg a).id = some old) ∧
      addMessage room h f a = if (h.msg a).id = [] then h1 else add room h1 o a := by
  have e := opened ok.1 ok.2.1
  refine ⟨_, _, e, rfl, rfl, fun old x => ?_, rfl⟩
  have hmsg : (ensureOuter h f).1.msg a = h.msg a := by unfold Heap.msg; rw [e.msgs]
  rw [e.find, hmsg] at x
  exact ⟨(msgOk_eq e.refs e.flags e.cmts e.msgs old).mpr (ok.2.2 _ _ _ x), x⟩

theorem addMessage_frame (room : Room) {h : Heap} {f : Nat} (ok : FileOk h f) {a b : Nat} (okb : MsgOk h b)
    (ap : ∀ old, getMessage h f (h.msg a).context (h.msg a).id = some old → MsgApart h b old) :
    (addMessage room h f a).message b = h.message b := by
  obtain ⟨h1, o, e, _, _, hold, h4⟩ := addMessage_open room ok a
  have hva := message_eq (h := h) e.refs e.flags e.cmts e.msgs b
  rw [h4]
  split
  · exact hva
  · exact (add_frame room e.maps a (fun old x => (hold old x).1) ((msgOk_eq e.refs e.flags e.cmts e.msgs b).mpr okb)
      fun old x => (msgApart_eq e.cmts e.msgs b old).mpr (ap old (hold old x).2)).2.1.trans hva

theorem addMessage_merged (room : Room) {h : Heap} {f : Nat} (ok : FileOk h f) {a old : Nat} (oka : MsgOk h a) (h0 : (h.msg a).id ≠ [])
    (hf : getMessage h f (h.msg a).context (h.msg a).id = some old) (hm : Mergeable h old a) :
    (addMessage room h f a).message old = (h.message old).merge (h.message a) := by
  obtain ⟨h1, o, e, _, _, hold, h4⟩ := addMessage_open room ok a
  have hmsg : h1.msg a = h.msg a := by unfold Heap.msg; rw [e.msgs]
  rw [h4, if_neg h0, add_merged room e.maps ((msgOk_eq e.refs e.flags e.cmts e.msgs a).mpr oka) (old := old)
    (by rw [hmsg, e.find]; exact hf) ((msgOk_eq e.refs e.flags e.cmts e.msgs old).mpr (ok.2.2 _ _ _ hf))
    ((mergeable_eq e.cmts e.msgs old a).mpr hm), message_eq e.refs e.flags e.cmts e.msgs, message_eq e.refs e.flags e.cmts e.msgs]

/-- The map of another file. -/
theorem ensureOuter_other {h : Heap} {f g p : Nat} (hne : f ≠ g) (hg : h.files[g]?.getD none = some p) (mp : MapsOk h p)
    (ap : ∀ o, h.files[f]?.getD none = some o → MapsApart h o p) :
    (ensureOuter h f).1.files[g]?.getD none = some p ∧ MapsOk (ensureOuter h f).1 p ∧ MapsApart (ensureOuter h f).1 (ensureOuter h f).2 p ∧
      (ensureOuter h f).1.outer p = h.outer p := by
  unfold ensureOuter
  cases hf : h.files[f]?.getD none with
  | some o => exact ⟨hg, mp, ap o hf, rfl⟩
  | none =>
    have ho : ∀ q, Heap.outer { h with outers := h.outers ++ [[]], files := h.files.set f (some h.outers.length) } q =
        if q = h.outers.length then [] else h.outer q := outer_push h []
    have hp := mp.bound
    have hop := ho p
    rw [if_neg (by omega)] at hop
    refine ⟨?_, ⟨by simp; omega, by rw [hop]; exact mp.wf, fun c i x => by rw [hop] at x; exact mp.inner c i x,
      fun c c' i x y => by rw [hop] at x y; exact mp.single c c' i x y⟩, ⟨by simp only []; omega, fun c c' i x => ?_⟩, hop⟩
    · simp only []
      rw [List.getElem?_set, if_neg hne]; exact hg
    · simp only [] at x
      rw [ho, if_pos rfl] at x; cases x

theorem addMessage_other (room : Room) {h : Heap} {f g : Nat} (ok : FileOk h f) (okg : FileOk h g) (hne : f ≠ g)
    (ap : ∀ o p, h.files[f]?.getD none = some o → h.files[g]?.getD none = some p → MapsApart h o p) (a : Nat) :
    (∀ c id, getMessage (addMessage room h f a) g c id = getMessage h g c id) ∧
    ((∀ c id b old, getMessage h g c id = some b → getMessage h f (h.msg a).context (h.msg a).id = some old → MsgApart h b old) →
      (addMessage room h f a).file g = h.file g) := by
  obtain ⟨h1, o, e, rfl, rfl, hold, h4⟩ := addMessage_open room ok a
  cases hg : h.files[g]?.getD none with
  | none =>
    have hg1 : (ensureOuter h f).1.files[g]?.getD none = none := by
      unfold ensureOuter
      cases hf : h.files[f]?.getD none with
      | some o => exact hg
      | none => simp only []; rw [List.getElem?_set, if_neg hne]; exact hg
    have hg2 : (addMessage room h f a).files[g]?.getD none = none := by
      rw [h4]; split
      · exact hg1
      · rw [add_files room e.maps a fun old x => (hold old x).1]; exact hg1
    refine ⟨fun c id => by unfold getMessage; rw [hg2, hg], fun _ => by unfold Heap.file; rw [hg2, hg]⟩
  | some p =>
    have mp := okg.2.1 p hg
    obtain ⟨q1, q2, q3, q4⟩ := ensureOuter_other hne hg mp fun o x => ap o p x hg
    have hfind1 : ∀ c id, find (ensureOuter h f).1 p c id = getMessage h g c id := fun c id => by
      rw [find_eq q4 e.inners, getMessage_of hg]
    have hval1 : (ensureOuter h f).1.messages p = h.file g := by
      unfold Heap.file
      rw [hg]
      exact messages_same mp q4 (fun c i _ => inner_eq e.inners i) fun c id b _ => message_eq e.refs e.flags e.cmts e.msgs b
    rw [h4]
    split
    · refine ⟨fun c id => ?_, fun _ => ?_⟩
      · rw [getMessage_of q1, hfind1]
      · unfold Heap.file at hval1 ⊢
        rw [q1]; exact hval1
    · obtain ⟨r1, r2, r3, r4, r5⟩ := add_other room e.maps q2 q3 a fun old x => (hold old x).1
      have hfiles := add_files room e.maps a fun old x => (hold old x).1
      have hg2 : (add room (ensureOuter h f).1 (ensureOuter h f).2 a).files[g]?.getD none = some p := by rw [hfiles]; exact q1
      refine ⟨fun c id => ?_, fun far => ?_⟩
      · rw [getMessage_of hg2, r3, hfind1]
      · rw [← hval1]
        unfold Heap.file
        rw [hg2]
        refine messages_same q2 r4 r5 fun c id b x => ?_
        rw [hfind1] at x
        exact (add_frame room e.maps a (fun old y => (hold old y).1)
          ((msgOk_eq e.refs e.flags e.cmts e.msgs b).mpr (okg.2.2 c id b x))
          fun old y => (msgApart_eq e.cmts e.msgs b old).mpr (far c id b old x (hold old y).2)).2.1

/-- The pointers after adding several messages. -/
theorem addAll_find (room : Room) (f : Nat) : ∀ (l : List Nat) (h : Heap), FileOk h f → (∀ a ∈ l, MsgOk h a) → ∀ c id, id ≠ [] →
    getMessage (addAll room h f l) f c id = (getMessage h f c id).or (l.find? fun a => decide (HasKey h c id a))
  | [], h, _, _, c, id, _ => by
    show getMessage h f c id = _
    rw [List.find?_nil, Option.or_none]
  | a :: l, h, ok, oks, c, id, h0 => by
    obtain ⟨k1, k2, k3, k4⟩ := addMessage_ok room ok (oks a List.mem_cons_self)
    have ih := addAll_find room f l (addMessage room h f a) k1 (fun b hb => k2 b (oks b (List.mem_cons_of_mem _ hb))) c id h0
    show getMessage (addAll room (addMessage room h f a) f l) f c id = _
    have hk : (fun b => decide (HasKey (addMessage room h f a) c id b)) = fun b => decide (HasKey h c id b) := by
      funext b
      refine decide_eq_decide.mpr ?_
      unfold HasKey
      rw [(k3 b).1, (k3 b).2]
    rw [ih, k4, hk, List.find?_cons]
    by_cases hh : HasKey h c id a
    · have : (h.msg a).id ≠ [] := by rw [hh.2]; exact h0
      rw [if_pos ⟨this, hh⟩, decide_eq_true hh]
      cases getMessage h f c id <;> rfl
    · rw [if_neg (fun x => hh x.2), decide_eq_false hh]

theorem addMessage_owned (room : Room) {h : Heap} {f : Nat} (ow : FileOwned h f) {a : Nat} (oka : MsgOk h a) (new : FileNew h f a) :
    FileOwned (addMessage room h f a) f ∧
      (∀ hd, (addMessage room h f a).file f = (File.addMessage ⟨hd, h.file f⟩ (h.message a)).messages) ∧
      ∀ b, MsgOk h b → FileNew h f b → MsgOk (addMessage room h f a) b ∧ (addMessage room h f a).message b = h.message b ∧
        (addMessage room h f a).msg b = h.msg b ∧
        (∀ b', MsgOk h b' → FileNew h f b' → MsgApart h b b' → MsgApart (addMessage room h f a) b b') ∧
        (MsgApart h a b → FileNew (addMessage room h f a) f b) := by
  have okmaps : ∀ o, h.files[f]?.getD none = some o → MapsOk h o := fun o x => (ow.2 o x).maps
  have e := opened ow.1 okmaps
  have hmsg : ∀ b, (ensureOuter h f).1.msg b = h.msg b := fun b => by unfold Heap.msg; rw [e.msgs]
  have hmo := fun b => msgOk_eq (h := h) e.refs e.flags e.cmts e.msgs b
  have hap := fun b b' => msgApart_eq (h := h) (h' := (ensureOuter h f).1) e.cmts e.msgs b b'
  have hva := fun b => message_eq (h := h) e.refs e.flags e.cmts e.msgs b
  have own : Owned (ensureOuter h f).1 (ensureOuter h f).2 := by
    refine ⟨e.maps, fun c id b x => ?_, fun c id b c' id' b' x x' hne => ?_⟩
    · rw [e.find] at x
      cases hg : h.files[f]?.getD none with
      | none => unfold getMessage at x; rw [hg] at x; cases x
      | some o => rw [getMessage_of hg] at x; exact (hmo b).mpr ((ow.2 o hg).ok _ _ _ x)
    · rw [e.find] at x x'
      cases hg : h.files[f]?.getD none with
      | none => unfold getMessage at x; rw [hg] at x; cases x
      | some o => rw [getMessage_of hg] at x x'; exact (hap b b').mpr ((ow.2 o hg).apart _ _ _ _ _ _ x x' hne)
  have newo : New (ensureOuter h f).1 (ensureOuter h f).2 a := fun c id b x => by
    rw [e.find] at x; exact (hap b a).mpr (new c id b x)
  have oka1 := (hmo a).mpr oka
  rw [addMessage_unfold]
  by_cases h0 : (h.msg a).id = []
  · rw [if_pos h0]
    refine ⟨⟨by rw [e.len]; exact ow.1, fun o x => by rw [e.has] at x; cases x; exact own⟩, fun hd => ?_, fun b okb nb =>
      ⟨(hmo b).mpr okb, hva b, hmsg b, fun b' _ _ x => (hap b b').mpr x, fun _ c id b' x => ?_⟩⟩
    · unfold Heap.file
      rw [e.has]
      simp only []
      rw [e.value]
      unfold File.addMessage
      rw [if_pos (show (h.message a).id = [] from h0)]
      rfl
    · rw [getMessage_of e.has, e.find] at x
      exact (hap b' b).mpr (nb c id b' x)
  · rw [if_neg h0]
    have okold : ∀ old, find (ensureOuter h f).1 (ensureOuter h f).2 ((ensureOuter h f).1.msg a).context ((ensureOuter h f).1.msg a).id
        = some old → MsgOk (ensureOuter h f).1 old := fun old x => own.ok _ _ old x
    have hfiles := add_files room e.maps a okold
    have hhas : (add room (ensureOuter h f).1 (ensureOuter h f).2 a).files[f]?.getD none = some (ensureOuter h f).2 := by
      rw [hfiles]; exact e.has
    have far : ∀ b, FileNew h f b → ∀ old, find (ensureOuter h f).1 (ensureOuter h f).2 ((ensureOuter h f).1.msg a).context
        ((ensureOuter h f).1.msg a).id = some old → MsgApart (ensureOuter h f).1 b old := fun b nb old x => by
      rw [e.find] at x
      exact (hap b old).mpr (MsgApart.symm (nb _ _ old x))
    refine ⟨⟨by rw [hfiles, e.len]; exact ow.1, fun o x => ?_⟩, fun hd => ?_, fun b okb nb => ?_⟩
    · rw [hhas] at x; cases x
      exact add_owned room own oka1 newo
    · unfold Heap.file
      rw [hhas]
      simp only []
      rw [add_value room own oka1 (fun old x c d hc hd => .inr ((newo _ _ old x).2 c d hc hd).2.1), e.value, hva]
      unfold File.addMessage
      rw [if_neg (show ¬ (h.message a).id = [] from h0)]
      rfl
    · obtain ⟨f1, f2, f3⟩ := add_frame room e.maps a okold ((hmo b).mpr okb) (far b nb)
      refine ⟨f1, f2.trans (hva b), f3.trans (hmsg b), fun b' okb' nb' x => ?_, fun x c id b' y => ?_⟩
      · exact add_apart room e.maps a okold ((hmo b).mpr okb) ((hmo b').mpr okb') ((hap b b').mpr x) (fun old y => .inr (far b nb old y))
          fun old y => .inr (far b' nb' old y)
      · rw [getMessage_of hhas, add_find room e.maps a okold, e.find] at y
        -- a message of the file, old or new
        have old_case : ∀ b', getMessage h f c id = some b' → MsgApart (add room (ensureOuter h f).1 (ensureOuter h f).2 a) b' b := by
          intro b' z
          have okb' : MsgOk (ensureOuter h f).1 b' := own.ok c id b' ((e.find c id).trans z)
          refine add_apart room e.maps a okold okb' ((hmo b).mpr okb) ((hap b' b).mpr (nb c id b' z)) (fun old w => ?_)
            fun old w => .inr (far b nb old w)
          by_cases hk : (c, id) = (((ensureOuter h f).1.msg a).context, ((ensureOuter h f).1.msg a).id)
          · cases hk
            rw [e.find, z] at w
            exact .inl (Option.some.inj w)
          · exact .inr (own.apart _ _ _ _ _ _ ((e.find c id).trans z) w hk)
        split at y
        · cases z : getMessage h f c id with
          | some b'' => rw [z] at y; cases y; exact old_case _ z
          | none =>
            rw [z] at y; cases y
            exact add_apart room e.maps a okold oka1 ((hmo b).mpr okb) ((hap a b).mpr x) (fun old w => .inr (far a new old w))
              fun old w => .inr (far b nb old w)
        · exact old_case b' y

/-- What a file stands for after adding messages that do not share memory. -/
theorem addAll_value (room : Room) (f : Nat) (hd : Option Header) : ∀ (l : List Nat) (h : Heap), FileOwned h f → (∀ a ∈ l, MsgOk h a) →
    (∀ a ∈ l, FileNew h f a) → l.Pairwise (MsgApart h) →
    FileOwned (addAll room h f l) f ∧
      (addAll room h f l).file f = ((l.map h.message).foldl File.addMessage ⟨hd, h.file f⟩).messages
  | [], h, ow, _, _, _ => ⟨ow, rfl⟩
  | a :: l, h, ow, oks, news, pw => by
    obtain ⟨k1, k2, k3⟩ := addMessage_owned room ow (oks a List.mem_cons_self) (news a List.mem_cons_self)
    have oksl : ∀ b ∈ l, MsgOk h b := fun b hb => oks b (List.mem_cons_of_mem _ hb)
    have newsl : ∀ b ∈ l, FileNew h f b := fun b hb => news b (List.mem_cons_of_mem _ hb)
    have pw' := List.pairwise_cons.mp pw
    have ih := addAll_value room f hd l (addMessage room h f a) k1 (fun b hb => (k3 b (oksl b hb) (newsl b hb)).1)
      (fun b hb => (k3 b (oksl b hb) (newsl b hb)).2.2.2.2 (pw'.1 b hb))
      (pw'.2.imp_of_mem fun {b b'} hb hb' x => (k3 b (oksl b hb) (newsl b hb)).2.2.2.1 b' (oksl b' hb') (newsl b' hb') x)
    refine ⟨ih.1, ?_⟩
    show (addAll room (addMessage room h f a) f l).file f = _
    rw [ih.2, k2 hd, List.map_cons, List.foldl_cons]
    have hm : l.map (addMessage room h f a).message = l.map h.message := by
      apply List.map_congr_left
      intro b hb
      exact (k3 b (oksl b hb) (newsl b hb)).2.1
    rw [hm]
    have hh : (File.addMessage ⟨hd, h.file f⟩ (h.message a)).header = hd := by
      unfold File.addMessage; split <;> rfl
    generalize hF : File.addMessage ⟨hd, h.file f⟩ (h.message a) = F
    rw [hF] at hh
    obtain ⟨x, y⟩ := F
    cases hh
    rfl

end Verif.Proofs.Po.Memory
