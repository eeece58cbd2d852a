import Verif.Spec.Saving
import Verif.Proofs.Po.MemoryFile
import Verif.Proofs.Po.EncodeSame
/-!
# Proofs about saving PO files in memory
-/
namespace Verif.Proofs.Po.Memory
open Verif.Go Verif.Model.Po Verif.Model.Po.Memory Verif.Spec.Memory Verif.Spec.Saving Verif.Proofs.Po

theorem sort_value' {h : Heap} {c : Nat} (ok : CmtOk h c) : (sort h c).comment c = (h.comment c).sort := sort_value ok

/-- Several comments are sorted. -/
def sortAll (h : Heap) (cs : List Nat) : Heap := cs.foldl sort h

/-- Everything but the arrays is the same. -/
structure Still (h h' : Heap) : Prop where
  cmts : h'.cmts = h.cmts
  msgs : h'.msgs = h.msgs
  inners : h'.inners = h.inners
  outers : h'.outers = h.outers
  files : h'.files = h.files

theorem Still.refl (h : Heap) : Still h h := ⟨rfl, rfl, rfl, rfl, rfl⟩

theorem Still.trans {h h' h'' : Heap} (a : Still h h') (b : Still h' h'') : Still h h'' :=
  ⟨b.cmts.trans a.cmts, b.msgs.trans a.msgs, b.inners.trans a.inners, b.outers.trans a.outers, b.files.trans a.files⟩

theorem Still.msg {h h' : Heap} (s : Still h h') (a : Nat) : h'.msg a = h.msg a := by unfold Heap.msg; rw [s.msgs]

theorem Still.cmt {h h' : Heap} (s : Still h h') (a : Nat) : h'.cmt a = h.cmt a := by unfold Heap.cmt; rw [s.cmts]

theorem Still.apart {h h' : Heap} (s : Still h h') {c d : Nat} (x : CmtApart h c d) : CmtApart h' c d := by
  unfold CmtApart; rw [s.cmt, s.cmt]; exact x

theorem Still.pointers {h h' : Heap} (s : Still h h') (f : Nat) : pointers h' f = pointers h f := by
  unfold Memory.pointers Heap.outer Heap.inner
  rw [s.files, s.outers, s.inners]

theorem Still.getMessage {h h' : Heap} (s : Still h h') (f : Nat) (c id : Bytes) : getMessage h' f c id = getMessage h f c id := by
  unfold Memory.getMessage find Heap.outer Heap.inner
  rw [s.files, s.outers, s.inners]

theorem sort_still (h : Heap) (c : Nat) : Still h (sort h c) := ⟨rfl, rfl, rfl, rfl, rfl⟩

theorem sortAll_still (cs : List Nat) : ∀ h : Heap, Still h (sortAll h cs) := by
  induction cs with
  | nil => exact Still.refl
  | cons c cs ih => intro h; exact (sort_still h c).trans (ih _)

theorem sortAll_ok (cs : List Nat) : ∀ {h : Heap}, (∀ c ∈ cs, CmtOk h c) → ∀ {d : Nat}, CmtOk h d → CmtOk (sortAll h cs) d := by
  induction cs with
  | nil => intro h _ d ok; exact ok
  | cons c cs ih =>
    intro h hc d ok
    have hs := sort_step (hc c (List.mem_cons_self ..))
    exact ih (fun c' hc' => hs.all (hc c' (List.mem_cons_of_mem _ hc'))) (hs.all ok)

theorem sortAll_comment (cs : List Nat) : ∀ {h : Heap}, (∀ c ∈ cs, CmtOk h c) → ∀ {d : Nat}, CmtOk h d →
    (∀ c ∈ cs, d = c ∨ CmtApart h d c) →
    (sortAll h cs).comment d = if d ∈ cs then (h.comment d).sort else h.comment d := by
  induction cs with
  | nil => intro h _ d _ _; rfl
  | cons c cs ih =>
    intro h hc d ok hd
    have okc := hc c (List.mem_cons_self ..)
    have hs := sort_step okc
    have ih' := ih (h := sort h c) (fun c' hc' => hs.all (hc c' (List.mem_cons_of_mem _ hc'))) (hs.all ok)
      (fun c' hc' => (hd c' (List.mem_cons_of_mem _ hc')).imp id (fun x => (sort_still h c).apart x))
    show (sortAll (sort h c) cs).comment d = _
    rw [ih']
    by_cases e : d = c
    · subst e
      rw [sort_value' okc, sort_sort, if_pos (List.mem_cons_self ..)]
      split <;> rfl
    · have hv : (sort h c).comment d = h.comment d := (hs.other ok ((hd c (List.mem_cons_self ..)).resolve_left e)).2.1
      rw [hv]
      simp only [List.mem_cons, e, false_or]

/-- The comments that a comparison sorts. -/
def both (h : Heap) (a b : Nat) : List Nat :=
  match (h.msg a).comment, (h.msg b).comment with
  | some c, some d => [c, d]
  | _, _ => []

theorem compareIn_heap (h : Heap) (a b : Nat) : (compareIn h a b).2 = sortAll h (both h a b) := by
  unfold compareIn both
  cases (h.msg a).comment <;> cases (h.msg b).comment <;> rfl

/-- The messages at the addresses are messages, and their comments are the same or apart. -/
structure Sep (h : Heap) (l : List Nat) : Prop where
  ok : ∀ a ∈ l, MsgOk h a
  apart : ∀ a ∈ l, ∀ b ∈ l, ∀ c d, (h.msg a).comment = some c → (h.msg b).comment = some d → c = d ∨ CmtApart h c d

theorem both_mem {h : Heap} {a b c : Nat} (x : c ∈ both h a b) : (h.msg a).comment = some c ∨ (h.msg b).comment = some c := by
  unfold both at x
  cases ha : (h.msg a).comment with
  | none => rw [ha] at x; cases x
  | some c1 =>
    cases hb : (h.msg b).comment with
    | none => rw [ha, hb] at x; cases x
    | some c2 =>
      rw [ha, hb] at x
      simp only [List.mem_cons, List.not_mem_nil, or_false] at x
      rcases x with rfl | rfl
      · exact .inl rfl
      · exact .inr rfl

/-- Comments of the messages of the list. -/
def Of (h : Heap) (l cs : List Nat) : Prop := ∀ c ∈ cs, ∃ a ∈ l, (h.msg a).comment = some c

theorem both_of {h : Heap} {l : List Nat} {a b : Nat} (ha : a ∈ l) (hb : b ∈ l) : Of h l (both h a b) := by
  intro c hc
  rcases both_mem hc with x | x
  · exact ⟨a, ha, x⟩
  · exact ⟨b, hb, x⟩

theorem Sep.cmtOk {h : Heap} {l cs : List Nat} (s : Sep h l) (x : Of h l cs) : ∀ c ∈ cs, CmtOk h c := by
  intro c hc
  obtain ⟨a, ha, e⟩ := x c hc
  exact (s.ok a ha).2 c e

theorem Sep.after {h : Heap} {l cs : List Nat} (s : Sep h l) (x : Of h l cs) : Sep (sortAll h cs) l := by
  have st := sortAll_still cs h
  refine ⟨fun a ha => ⟨by rw [st.msgs]; exact (s.ok a ha).1, fun c hc => ?_⟩, fun a ha b hb c d hc hd => ?_⟩
  · rw [st.msg] at hc
    exact sortAll_ok cs (s.cmtOk x) ((s.ok a ha).2 c hc)
  · rw [st.msg] at hc hd
    exact (s.apart a ha b hb c d hc hd).imp id st.apart

theorem message_after {h : Heap} {cs : List Nat} (hok : ∀ c ∈ cs, CmtOk h c) {b : Nat} (ok : MsgOk h b)
    (hd : ∀ c d, (h.msg b).comment = some d → c ∈ cs → d = c ∨ CmtApart h d c) :
    (sortAll h cs).message b = if (∃ d ∈ cs, (h.msg b).comment = some d) then tidy (h.message b) else h.message b := by
  have st := sortAll_still cs h
  unfold Heap.message tidy
  rw [st.msg]
  cases hb : (h.msg b).comment with
  | none =>
    rw [if_neg (by rintro ⟨d, _, x⟩; cases x)]
    rfl
  | some d =>
    simp only [Option.map_some]
    rw [sortAll_comment cs hok (ok.2 d hb) (fun c hc => hd c d hb hc)]
    by_cases hm : d ∈ cs
    · rw [if_pos hm, if_pos ⟨d, hm, rfl⟩]
    · rw [if_neg hm, if_neg (by rintro ⟨d', h1, h2⟩; cases h2; exact hm h1)]

theorem Sep.message {h : Heap} {l cs : List Nat} (s : Sep h l) (x : Of h l cs) {b : Nat} (hb : b ∈ l) :
    (sortAll h cs).message b = if (∃ d ∈ cs, (h.msg b).comment = some d) then tidy (h.message b) else h.message b := by
  refine message_after (s.cmtOk x) (s.ok b hb) fun c d hd hc => ?_
  obtain ⟨a, ha, e⟩ := x c hc
  exact s.apart b hb a ha d c hd e

theorem tidied {h : Heap} {l cs : List Nat} (s : Sep h l) (x : Of h l cs) {b : Nat} (hb : b ∈ l) :
    tidy ((sortAll h cs).message b) = tidy (h.message b) := by
  rw [s.message x hb]
  split
  · exact tidy_tidy _
  · rfl

theorem compareIn_result {h : Heap} {l : List Nat} (s : Sep h l) {a b : Nat} (ha : a ∈ l) (hb : b ∈ l) :
    (compareIn h a b).1 = (defaultSort (h.message a) (h.message b)).1 := by
  have hmem := both_of (h := h) ha hb
  have e1 := s.message hmem ha
  have e2 := s.message hmem hb
  have hh : (compareIn h a b).2 = sortAll h (both h a b) := compareIn_heap h a b
  unfold compareIn at hh ⊢
  unfold defaultSort
  cases hc : (h.msg a).comment with
  | none =>
    have : (h.message a).comment = none := by unfold Heap.message; rw [hc]; rfl
    rw [this]
  | some c =>
    have hca : (h.message a).comment = some (h.comment c) := by unfold Heap.message; rw [hc]; rfl
    cases hd : (h.msg b).comment with
    | none =>
      have : (h.message b).comment = none := by unfold Heap.message; rw [hd]; rfl
      rw [this, hca]
    | some d =>
      have hcb : (h.message b).comment = some (h.comment d) := by unfold Heap.message; rw [hd]; rfl
      rw [hca, hcb]
      rw [hc, hd] at hh
      simp only at hh ⊢
      rw [hh]
      have hbc : both h a b = [c, d] := by unfold both; rw [hc, hd]
      rw [hbc] at e1 e2 hmem ⊢
      have hok := s.cmtOk hmem
      have vc : (sortAll h [c, d]).comment c = (h.comment c).sort := by
        rw [sortAll_comment _ hok (hok c (by simp)) (fun x hx => ?_), if_pos (by simp)]
        simp only [List.mem_cons, List.not_mem_nil, or_false] at hx
        rcases hx with rfl | rfl
        · exact .inl rfl
        · exact s.apart a ha b hb _ _ hc hd
      have vd : (sortAll h [c, d]).comment d = (h.comment d).sort := by
        rw [sortAll_comment _ hok (hok d (by simp)) (fun x hx => ?_), if_pos (by simp)]
        simp only [List.mem_cons, List.not_mem_nil, or_false] at hx
        rcases hx with rfl | rfl
        · exact s.apart b hb a ha _ _ hd hc
        · exact .inl rfl
      have hk : compareKeys ((sortAll h [c, d]).message a) ((sortAll h [c, d]).message b) = compareKeys (h.message a) (h.message b) := by
        unfold compareKeys Heap.message
        simp only [(sortAll_still [c, d] h).msg]
      rw [vc, vd, hk]

/-- The comparisons that are made, in their order. -/
def path (cmp : Nat → Nat → Int) : Algo → List (Nat × Nat)
  | .done _ => []
  | .compare a b next => (a, b) :: path cmp (next (cmp a b))

/-- The comments that are sorted. -/
def touched (h : Heap) (cmp : Nat → Nat → Int) (x : Algo) : List Nat := (path cmp x).flatMap fun p => both h p.1 p.2

theorem path_mem {l : List Nat} {cmp : Nat → Nat → Int} {x : Algo} (hx : Sorts l x) : ∀ p ∈ path cmp x, p.1 ∈ l ∧ p.2 ∈ l := by
  induction hx with
  | done _ => intro p hp; cases hp
  | compare ha hb _ ih =>
    intro p hp
    rcases List.mem_cons.mp hp with rfl | hp
    · exact ⟨ha, hb⟩
    · exact ih _ p hp

theorem touched_of {h : Heap} {l : List Nat} {cmp : Nat → Nat → Int} {x : Algo} (hx : Sorts l x) : Of h l (touched h cmp x) := by
  intro c hc
  obtain ⟨p, hp, hc⟩ := List.mem_flatMap.mp hc
  exact both_of (path_mem hx p hp).1 (path_mem hx p hp).2 c hc

theorem order_perm {l : List Nat} {cmp : Nat → Nat → Int} {x : Algo} (hx : Sorts l x) : (order cmp x).Perm l := by
  induction hx with
  | done h => exact h
  | compare _ _ _ ih => exact ih _

theorem cmp_congr {l : List Nat} {cmp cmp' : Nat → Nat → Int} (h : ∀ a ∈ l, ∀ b ∈ l, cmp a b = cmp' a b) {x : Algo} (hx : Sorts l x) :
    order cmp x = order cmp' x ∧ path cmp x = path cmp' x := by
  induction hx with
  | done _ => exact ⟨rfl, rfl⟩
  | @compare a b next ha hb _ ih =>
    simp only [order, path]
    rw [h a ha b hb]
    exact ⟨(ih _).1, congrArg _ (ih _).2⟩

theorem cmpOf_after {h : Heap} {l cs : List Nat} (s : Sep h l) (x : Of h l cs) : ∀ a ∈ l, ∀ b ∈ l,
    cmpOf (sortAll h cs) a b = cmpOf h a b := by
  intro a ha b hb
  unfold cmpOf
  rw [defaultSort_before, tidied s x ha, tidied s x hb, ← defaultSort_before]

theorem both_still {h h' : Heap} (s : Still h h') (a b : Nat) : both h' a b = both h a b := by
  unfold both; rw [s.msg, s.msg]

/-- What a run does: the order is that of the comparison of the first memory, and the compared comments are sorted. -/
theorem run_eq {l : List Nat} {x : Algo} (hx : Sorts l x) : ∀ {h : Heap}, Sep h l →
    x.run h = (order (cmpOf h) x, sortAll h (touched h (cmpOf h) x)) := by
  induction hx with
  | done _ => intro h _; rfl
  | @compare a b next ha hb hn ih =>
    intro h s
    have hof := both_of (h := h) ha hb
    have s' := s.after hof
    have hc := cmpOf_after s hof
    show (next (compareIn h a b).1).run (compareIn h a b).2 = _
    rw [compareIn_heap, compareIn_result s ha hb, show (defaultSort (h.message a) (h.message b)).1 = cmpOf h a b from rfl, ih _ s']
    have e := cmp_congr hc (hn (cmpOf h a b))
    rw [e.1]
    refine Prod.ext rfl ?_
    show sortAll (sortAll h (both h a b)) (touched (sortAll h (both h a b)) (cmpOf (sortAll h (both h a b))) (next (cmpOf h a b))) = _
    unfold touched
    rw [e.2]
    simp only [path, List.flatMap_cons, both_still (sortAll_still _ h)]
    unfold sortAll
    rw [List.foldl_append]

theorem tidy_message {h : Heap} {l cs : List Nat} (s : Sep h l) (x : Of h l cs) {b : Nat} (hb : b ∈ l) :
    (sortAll (sortAll h cs) cs).message b = (sortAll h cs).message b := by
  have st := sortAll_still cs h
  have x' : Of (sortAll h cs) l cs := by
    intro c hc
    obtain ⟨a, ha, e⟩ := x c hc
    exact ⟨a, ha, by rw [st.msg]; exact e⟩
  rw [(s.after x).message x' hb, s.message x hb]
  simp only [st.msg]
  split
  · exact tidy_tidy _
  · rfl

theorem pointers_mem {h : Heap} {f : Nat} (mo : ∀ o, h.files[f]?.getD none = some o → MapsOk h o) {a : Nat} :
    a ∈ pointers h f ↔ ∃ c id, getMessage h f c id = some a := by
  unfold pointers getMessage
  cases hf : h.files[f]?.getD none with
  | none => exact ⟨(fun x => nomatch x), (fun ⟨_, _, x⟩ => nomatch x)⟩
  | some o =>
    have m := mo o hf
    simp only [List.mem_flatMap, List.mem_map]
    constructor
    · rintro ⟨p, hp, q, hq, rfl⟩
      have hg := GoMap.get?_of_mem m.wf (k := p.1) (v := p.2) hp
      refine ⟨p.1, q.1, ?_⟩
      rw [find_of hg]
      exact GoMap.get?_of_mem (m.inner _ _ hg).2 hq
    · rintro ⟨c, id, x⟩
      unfold find at x
      cases hg : (h.outer o).get? c with
      | none => rw [hg] at x; cases x
      | some i =>
        rw [hg] at x
        exact ⟨(c, i), GoMap.mem_of_get? hg, (id, a), GoMap.mem_of_get? x, rfl⟩

theorem sep_of {h : Heap} {f : Nat} (ok : FileOk h f) (ap : CommentsApart h f) : Sep h (pointers h f) := by
  refine ⟨fun a ha => ?_, fun a ha b hb c d hc hd => ?_⟩
  · obtain ⟨c, id, e⟩ := (pointers_mem ok.2.1).mp ha
    exact ok.2.2 c id a e
  · obtain ⟨c1, id1, e1⟩ := (pointers_mem ok.2.1).mp ha
    obtain ⟨c2, id2, e2⟩ := (pointers_mem ok.2.1).mp hb
    exact ap _ _ _ _ _ _ e1 e2 c d hc hd

theorem saveIn_eq (enc : Encoder) (x : Algo) (header : Option Header) (h : Heap) :
    saveIn enc x header h =
      ((enc.encodeMessages ((x.run h).1.map (x.run h).2.message)).map
        (fun body => (match header with
          | some hd => if enc.writeHeader then enc.encodeHeader hd ++ b!"\n" else []
          | none => []) ++ body), (x.run h).2) := by
  unfold saveIn
  dsimp only
  cases enc.encodeMessages ((x.run h).1.map (x.run h).2.message) <;> rfl

theorem reordered_refl (m : Message) : Reordered m m :=
  ⟨rfl, rfl, rfl, rfl, Iff.rfl, fun c c' h h' => by rw [h] at h'; cases h'; exact ⟨rfl, rfl, .refl _, .refl _, rfl, rfl⟩⟩

theorem reordered_tidy (m : Message) : Reordered m (tidy m) := by
  refine ⟨rfl, rfl, rfl, rfl, by unfold tidy; simp, fun c c' h h' => ?_⟩
  unfold tidy at h'
  rw [h] at h'
  cases h'
  exact ⟨rfl, rfl, sortBy_perm _ _, sortBy_perm _ _, rfl, rfl⟩

theorem touched_after {h : Heap} {l cs : List Nat} (s : Sep h l) (x : Of h l cs) {y : Algo} (hy : Sorts l y) :
    touched (sortAll h cs) (cmpOf (sortAll h cs)) y = touched h (cmpOf h) y := by
  unfold touched
  rw [(cmp_congr (cmpOf_after s x) hy).2]
  simp only [both_still (sortAll_still cs h)]

theorem run_again {l : List Nat} {x : Algo} (hx : Sorts l x) {h : Heap} (s : Sep h l) :
    (x.run (x.run h).2).1 = (x.run h).1 ∧ ∀ b ∈ l, (x.run (x.run h).2).2.message b = (x.run h).2.message b := by
  have e := run_eq hx s
  have hof := touched_of (h := h) (cmp := cmpOf h) hx
  have e' := run_eq hx (s.after hof)
  rw [e]
  simp only
  rw [e', touched_after s hof hx]
  exact ⟨(cmp_congr (cmpOf_after s hof) hx).1, fun b hb => tidy_message s hof hb⟩

theorem order_mem {l : List Nat} {cmp : Nat → Nat → Int} {x : Algo} (hx : Sorts l x) {b : Nat} (hb : b ∈ order cmp x) : b ∈ l :=
  (order_perm hx).mem_iff.mp hb

end Verif.Proofs.Po.Memory
