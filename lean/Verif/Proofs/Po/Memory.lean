import Verif.Spec.Memory
/-!
# Proofs about PO messages in memory
-/
namespace Verif.Proofs.Po.Memory
open Verif.Go Verif.Model.Po Verif.Model.Po.Memory Verif.Spec.Memory

/-! ## Comments -/

theorem CmtApart.symm {h : Heap} {c d : Nat} (x : CmtApart h c d) : CmtApart h d c := ⟨x.1.symm, x.2.1.symm, x.2.2.symm⟩
theorem MsgApart.symm {h : Heap} {a b : Nat} (x : MsgApart h a b) : MsgApart h b a :=
  ⟨x.1.symm, fun c d hc hd => CmtApart.symm (x.2 d c hd hc)⟩

theorem cmt_set (h : Heap) (c : Nat) (v : Cmt) (d : Nat) (hc : c < h.cmts.length) :
    ((h.cmts.set c v)[d]?.getD ⟨[], [], .nil, .nil, [], []⟩) = if c = d then v else h.cmt d := by
  unfold Heap.cmt
  rw [List.getElem?_set]
  by_cases e : c = d
  · subst e; rw [if_pos rfl, if_pos hc, if_pos rfl]; rfl
  · rw [if_neg e, if_neg e]

/-- An operation on one comment: other comments stay, and so do slices that are apart from its own. -/
structure CStep (h : Heap) (c : Nat) (h' : Heap) : Prop where
  len : h'.cmts.length = h.cmts.length
  others : ∀ d, d ≠ c → h'.cmt d = h.cmt d
  msgs : h'.msgs = h.msgs
  inners : h'.inners = h.inners
  outers : h'.outers = h.outers
  files : h'.files = h.files
  refs : Slice.Step h.refs (h.cmt c).references h'.refs (h'.cmt c).references
  flags : Slice.Step h.flags (h.cmt c).flags h'.flags (h'.cmt c).flags

theorem CStep.trans {h h' h'' : Heap} {c : Nat} (s : CStep h c h') (s' : CStep h' c h'') : CStep h c h'' :=
  ⟨s'.len.trans s.len, fun d hd => (s'.others d hd).trans (s.others d hd), s'.msgs.trans s.msgs, s'.inners.trans s.inners,
    s'.outers.trans s.outers, s'.files.trans s.files, s.refs.trans s'.refs, s.flags.trans s'.flags⟩

theorem CStep.refl {h : Heap} {c : Nat} (ok : CmtOk h c) : CStep h c h :=
  ⟨rfl, fun _ _ => rfl, rfl, rfl, rfl, rfl, .refl ok.2.1, .refl ok.2.2⟩

theorem CStep.ok {h h' : Heap} {c : Nat} (s : CStep h c h') (ok : CmtOk h c) : CmtOk h' c :=
  ⟨by rw [s.len]; exact ok.1, s.refs.1, s.flags.1⟩

theorem CStep.all {h h' : Heap} {c : Nat} (s : CStep h c h') {d : Nat} (ok : CmtOk h d) : CmtOk h' d := by
  by_cases e : d = c
  · rw [e] at ok ⊢; exact s.ok ok
  · have e := s.others d e
    exact ⟨by rw [s.len]; exact ok.1, by rw [e]; exact s.refs.2.1 _ ok.2.1, by rw [e]; exact s.flags.2.1 _ ok.2.2⟩

theorem CStep.other {h h' : Heap} {c : Nat} (s : CStep h c h') {d : Nat} (ok : CmtOk h d) (ap : CmtApart h d c) :
    CmtOk h' d ∧ h'.comment d = h.comment d ∧ CmtApart h' d c := by
  obtain ⟨r2, r3⟩ := s.refs.2.2 _ ok.2.1 ap.2.1
  obtain ⟨f2, f3⟩ := s.flags.2.2 _ ok.2.2 ap.2.2
  have e := s.others d ap.1
  refine ⟨s.all ok, ?_, ap.1, by rw [e]; exact r3, by rw [e]; exact f3⟩
  unfold Heap.comment
  rw [e, r2, f2]

theorem sortFlags_step {h : Heap} {c : Nat} (ok : CmtOk h c) : CStep h c (sortFlags h c) :=
  ⟨rfl, fun _ _ => rfl, rfl, rfl, rfl, rfl, .refl ok.2.1, Slice.sort_step bytesLe ok.2.2⟩

theorem sortReferences_step {h : Heap} {c : Nat} (ok : CmtOk h c) : CStep h c (sortReferences h c) :=
  ⟨rfl, fun _ _ => rfl, rfl, rfl, rfl, rfl, Slice.sort_step Reference.le ok.2.1, .refl ok.2.2⟩

theorem sortFlags_value {h : Heap} {c : Nat} (ok : CmtOk h c) : (sortFlags h c).comment c = (h.comment c).sortFlags := by
  show Comment.mk _ _ _ ((h.cmt c).flags.get ((h.cmt c).flags.sort bytesLe h.flags)) _ _ = _
  rw [Slice.sort_get bytesLe ok.2.2]; rfl

theorem sortReferences_value {h : Heap} {c : Nat} (ok : CmtOk h c) :
    (sortReferences h c).comment c = (h.comment c).sortReferences := by
  show Comment.mk _ _ ((h.cmt c).references.get ((h.cmt c).references.sort Reference.le h.refs)) _ _ _ = _
  rw [Slice.sort_get Reference.le ok.2.1]; rfl

theorem putRefs_cmt {h : Heap} {c : Nat} (ok : CmtOk h c) (p : Arrays Reference × Slice) (d : Nat) :
    (h.putRefs c p).cmt d = if c = d then { h.cmt c with references := p.2 } else h.cmt d := cmt_set h c _ d ok.1

theorem putFlags_cmt {h : Heap} {c : Nat} (ok : CmtOk h c) (p : Arrays Bytes × Slice) (d : Nat) :
    (h.putFlags c p).cmt d = if c = d then { h.cmt c with flags := p.2 } else h.cmt d := cmt_set h c _ d ok.1

theorem setCmt_cmt {h : Heap} {c : Nat} (ok : CmtOk h c) (v : Cmt) (d : Nat) :
    (h.setCmt c v).cmt d = if c = d then v else h.cmt d := cmt_set h c _ d ok.1

theorem putRefs_step {h : Heap} {c : Nat} (ok : CmtOk h c) {p : Arrays Reference × Slice}
    (st : Slice.Step h.refs (h.cmt c).references p.1 p.2) : CStep h c (h.putRefs c p) := by
  refine ⟨List.length_set, fun d hd => ?_, rfl, rfl, rfl, rfl, ?_, ?_⟩
  · rw [putRefs_cmt ok, if_neg (Ne.symm hd)]
  · rw [putRefs_cmt ok, if_pos rfl]; exact st
  · rw [putRefs_cmt ok, if_pos rfl]; exact .refl ok.2.2

theorem putFlags_step {h : Heap} {c : Nat} (ok : CmtOk h c) {p : Arrays Bytes × Slice}
    (st : Slice.Step h.flags (h.cmt c).flags p.1 p.2) : CStep h c (h.putFlags c p) := by
  refine ⟨List.length_set, fun d hd => ?_, rfl, rfl, rfl, rfl, ?_, ?_⟩
  · rw [putFlags_cmt ok, if_neg (Ne.symm hd)]
  · rw [putFlags_cmt ok, if_pos rfl]; exact .refl ok.2.1
  · rw [putFlags_cmt ok, if_pos rfl]; exact st

theorem setCmt_step {h : Heap} {c : Nat} (ok : CmtOk h c) {v : Cmt} (hr : v.references = (h.cmt c).references)
    (hf : v.flags = (h.cmt c).flags) : CStep h c (h.setCmt c v) := by
  refine ⟨List.length_set, fun d hd => ?_, rfl, rfl, rfl, rfl, ?_, ?_⟩
  · rw [setCmt_cmt ok, if_neg (Ne.symm hd)]
  · rw [setCmt_cmt ok, if_pos rfl, hr]; exact .refl ok.2.1
  · rw [setCmt_cmt ok, if_pos rfl, hf]; exact .refl ok.2.2

theorem sort_step {h : Heap} {c : Nat} (ok : CmtOk h c) : CStep h c (sort h c) :=
  (sortFlags_step ok).trans (sortReferences_step ((sortFlags_step ok).ok ok))

theorem sort_value {h : Heap} {c : Nat} (ok : CmtOk h c) :
    (sort h c).comment c = (h.comment c).sortFlags.sortReferences := by
  unfold sort
  rw [sortReferences_value ((sortFlags_step ok).ok ok), sortFlags_value ok]

theorem addReference_step (room : Room) {h : Heap} {c : Nat} (ok : CmtOk h c) (r : Reference) :
    CStep h c (addReference room h c r) := by
  unfold addReference
  split
  · exact putRefs_step ok (Slice.step_make _ _ _)
  · have s := putRefs_step ok (Slice.append_step room.refs ok.2.1 r)
    exact s.trans (sortReferences_step (s.ok ok))

theorem addReference_value (room : Room) {h : Heap} {c : Nat} (ok : CmtOk h c) (r : Reference) :
    (addReference room h c r).comment c = (h.comment c).addReference r := by
  have hlen := Slice.get_length ok.2.1
  unfold addReference Comment.addReference
  by_cases h0 : (h.cmt c).references.len = 0
  · have : (h.comment c).references = [] := List.length_eq_zero_iff.mp (hlen.trans h0)
    rw [if_pos h0, if_pos this]
    unfold Heap.comment
    rw [putRefs_cmt ok, if_pos rfl]
    simp only []
    show Comment.mk _ _ ((makeSlice h.refs [r] []).2.get (makeSlice h.refs [r] []).1) _ _ _ = _
    rw [makeSlice_get]; rfl
  · have : (h.comment c).references ≠ [] := fun e => h0 (hlen.symm.trans (List.length_eq_zero_iff.mpr e))
    rw [if_neg h0, if_neg this]
    have s := putRefs_step ok (Slice.append_step room.refs ok.2.1 r)
    rw [sortReferences_value (s.ok ok)]
    congr 1
    unfold Heap.comment
    rw [putRefs_cmt ok, if_pos rfl]
    simp only []
    show Comment.mk _ _ (((h.cmt c).references.append room.refs h.refs r).2.get ((h.cmt c).references.append room.refs h.refs r).1)
      _ _ _ = _
    rw [Slice.append_get room.refs ok.2.1]; rfl

theorem addFlag_step (room : Room) {h : Heap} {c : Nat} (ok : CmtOk h c) (f : Bytes) : CStep h c (addFlag room h c f) := by
  unfold addFlag
  split
  · exact .refl ok
  · have s := putFlags_step ok (Slice.append_step room.flags ok.2.2 f)
    exact s.trans (sortFlags_step (s.ok ok))

theorem addFlag_value (room : Room) {h : Heap} {c : Nat} (ok : CmtOk h c) (f : Bytes) :
    (addFlag room h c f).comment c = (h.comment c).addFlag f := by
  unfold addFlag Comment.addFlag Comment.hasFlag
  by_cases hf : f ∈ (h.cmt c).flags.get h.flags
  · have hf' : f ∈ (h.comment c).flags := hf
    rw [if_pos hf, if_pos (decide_eq_true hf')]
  · have hf' : ¬ f ∈ (h.comment c).flags := hf
    rw [if_neg hf, if_neg (fun x => hf' (of_decide_eq_true x))]
    have s := putFlags_step ok (Slice.append_step room.flags ok.2.2 f)
    rw [sortFlags_value (s.ok ok)]
    congr 1
    unfold Heap.comment
    rw [putFlags_cmt ok, if_pos rfl]
    simp only []
    show Comment.mk _ _ _ (((h.cmt c).flags.append room.flags h.flags f).2.get ((h.cmt c).flags.append room.flags h.flags f).1)
      _ _ = _
    rw [Slice.append_get room.flags ok.2.2]; rfl

/-! ## The loop over the references -/

theorem mergeRefs_step (room : Nat → List Reference) (t : Slice) : ∀ (k : Nat) (A : Arrays Reference) (s : Slice), s.Ok A →
    Slice.Step A s (mergeRefs room t k A s).1 (mergeRefs room t k A s).2
  | 0, _, _, ok => .refl ok
  | k + 1, A, s, ok => by
    unfold mergeRefs
    split
    · exact .refl ok
    · split
      · exact mergeRefs_step room t k A s ok
      · have st := Slice.append_step room ok (x := by assumption)
        exact st.trans (mergeRefs_step room t k _ _ st.1)

theorem mergeRefs_apart (room : Nat → List Reference) (t : Slice) : ∀ (k : Nat) (A : Arrays Reference) (s : Slice),
    s.Ok A → t.Ok A → t.Apart s → k ≤ t.len →
    (mergeRefs room t k A s).2.get (mergeRefs room t k A s).1 =
      mergeReferences (s.get A) ((t.get A).drop (t.len - k))
  | 0, A, s, ok, tok, _, _ => by
    have := Slice.get_length tok
    rw [Nat.sub_zero, List.drop_of_length_le (by omega)]
    rfl
  | k + 1, A, s, ok, tok, ap, hk => by
    have hlen := Slice.get_length tok
    have hlt : t.len - (k + 1) < (t.get A).length := by omega
    unfold mergeRefs
    rw [List.getElem?_eq_getElem hlt]
    simp only []
    rw [List.drop_eq_getElem_cons hlt, show t.len - (k + 1) + 1 = t.len - k by omega]
    show _ = mergeReferences (s.get A) (_ :: _)
    unfold mergeReferences
    split
    · exact mergeRefs_apart room t k A s ok tok ap (by omega)
    · have st := Slice.append_step room ok (x := (t.get A)[t.len - (k + 1)])
      have t1 := st.2.1 t tok
      obtain ⟨t2, t3⟩ := st.2.2 t tok ap
      rw [mergeRefs_apart room t k _ _ st.1 t1 t3 (by omega), t2, Slice.append_get room ok]

theorem mergeRefs_known (room : Nat → List Reference) (t : Slice) (A : Arrays Reference) (s : Slice)
    (known : ∀ r ∈ t.get A, r ∈ s.get A) : ∀ k, mergeRefs room t k A s = (A, s)
  | 0 => rfl
  | k + 1 => by
    unfold mergeRefs
    split
    · rfl
    · rename_i hr
      rw [if_pos (known _ (List.mem_of_getElem? hr))]
      exact mergeRefs_known room t A s known k

theorem mergeReferences_known (l : List Reference) : ∀ rs : List Reference, (∀ r ∈ rs, r ∈ l) → mergeReferences l rs = l
  | [], _ => rfl
  | r :: rs, h => by
    unfold mergeReferences
    rw [if_pos (h r List.mem_cons_self)]
    exact mergeReferences_known l rs fun x hx => h x (List.mem_cons_of_mem _ hx)

theorem mergeRefs_value (room : Nat → List Reference) {A : Arrays Reference} {s t : Slice} (ok : s.Ok A) (tok : t.Ok A)
    (hc : s = t ∨ s.Apart t) :
    (mergeRefs room t t.len A s).2.get (mergeRefs room t t.len A s).1 = mergeReferences (s.get A) (t.get A) := by
  rcases hc with rfl | hc
  · rw [mergeRefs_known room s A s (fun _ h => h), mergeReferences_known _ _ fun _ h => h]
  · rw [mergeRefs_apart room t t.len A s ok tok hc.symm (Nat.le_refl _), Nat.sub_self, List.drop_zero]

/-! ## Merging of comments -/

theorem mergeTexts_step {h : Heap} {c : Nat} (ok : CmtOk h c) (o : Nat) : CStep h c (mergeTexts h c o) := by
  unfold mergeTexts
  have s := setCmt_step ok (v := { h.cmt c with translator := mergeText (h.cmt c).translator (h.cmt o).translator }) rfl rfl
  exact s.trans (setCmt_step (s.ok ok) rfl rfl)

theorem mergeTexts_cmt {h : Heap} {c : Nat} (ok : CmtOk h c) (o d : Nat) :
    (mergeTexts h c o).cmt d =
      if c = d then { h.cmt c with
          translator := mergeText (h.cmt c).translator (h.cmt o).translator
          extracted := mergeText (h.cmt c).extracted (h.cmt o).extracted }
      else h.cmt d := by
  have s := setCmt_step ok (v := { h.cmt c with translator := mergeText (h.cmt c).translator (h.cmt o).translator }) rfl rfl
  unfold mergeTexts
  simp only []
  rw [setCmt_cmt (s.ok ok), setCmt_cmt ok, setCmt_cmt ok, setCmt_cmt ok, if_pos rfl]
  by_cases e : c = d
  · rw [if_pos e, if_pos e]
    by_cases e' : c = o
    · rw [if_pos e', e']
    · rw [if_neg e']
  · rw [if_neg e, if_neg e, if_neg e]

theorem mergeFlags_step {h : Heap} {c : Nat} (ok : CmtOk h c) (o : Nat) : CStep h c (mergeFlags h c o) :=
  putFlags_step ok (Slice.step_make _ _ _)

theorem mergeFlags_value {h : Heap} {c : Nat} (ok : CmtOk h c) (o : Nat) :
    (mergeFlags h c o).comment c = { h.comment c with flags := mergeStringArrays (h.comment c).flags (h.comment o).flags } := by
  unfold mergeFlags
  simp only []
  unfold Heap.comment
  rw [putFlags_cmt ok, if_pos rfl]
  simp only []
  show Comment.mk _ _ _ ((makeSlice h.flags _ _).2.get (makeSlice h.flags _ _).1) _ _ = _
  rw [makeSlice_get]
  rfl

theorem joinReferences_step (room : Room) {h : Heap} {c : Nat} (ok : CmtOk h c) (o : Nat) :
    CStep h c (joinReferences room h c o) :=
  putRefs_step ok (mergeRefs_step _ _ _ _ _ ok.2.1)

theorem joinReferences_value (room : Room) {h : Heap} {c o : Nat} (ok : CmtOk h c) (oko : CmtOk h o)
    (hc : (h.cmt c).references = (h.cmt o).references ∨ (h.cmt c).references.Apart (h.cmt o).references) :
    (joinReferences room h c o).comment c =
      { h.comment c with references := mergeReferences (h.comment c).references (h.comment o).references } := by
  unfold joinReferences
  rw [show (h.putRefs c _).comment c = Comment.mk _ _ (((h.putRefs c _).cmt c).references.get (h.putRefs c _).refs)
    (((h.putRefs c _).cmt c).flags.get h.flags) _ _ from rfl, putRefs_cmt ok, if_pos rfl]
  simp only []
  have e := mergeRefs_value room.refs ok.2.1 oko.2.1 hc
  show Comment.mk _ _ ((mergeRefs room.refs (h.cmt o).references (h.cmt o).references.len h.refs (h.cmt c).references).2.get
    (mergeRefs room.refs (h.cmt o).references (h.cmt o).references.len h.refs (h.cmt c).references).1) _ _ _ = _
  rw [e]
  rfl

theorem mergeComment_step (room : Room) {h : Heap} {c : Nat} (ok : CmtOk h c) (o : Option Nat) :
    CStep h c (mergeComment room h c o) := by
  cases o with
  | none => exact .refl ok
  | some o =>
    unfold mergeComment
    have s1 := mergeTexts_step ok o
    have s2 := mergeFlags_step (s1.ok ok) o
    have s3 := joinReferences_step room (s2.ok (s1.ok ok)) o
    have s4 := sort_step (s3.ok (s2.ok (s1.ok ok)))
    exact s1.trans (s2.trans (s3.trans s4))

theorem mergeComment_value (room : Room) {h : Heap} {c o : Nat} (ok : CmtOk h c) (oko : CmtOk h o)
    (hc : (h.cmt c).references = (h.cmt o).references ∨ (h.cmt c).references.Apart (h.cmt o).references) :
    (mergeComment room h c (some o)).comment c = (h.comment c).merge (some (h.comment o)) := by
  unfold mergeComment
  have s1 := mergeTexts_step ok o
  have ok1 := s1.ok ok
  have s2 := mergeFlags_step ok1 o
  have ok2 := s2.ok ok1
  have s3 := joinReferences_step room ok2 o
  have ok3 := s3.ok ok2
  -- the other comment keeps its references
  have r1 : ((mergeTexts h c o).cmt o).references = (h.cmt o).references := by
    rw [mergeTexts_cmt ok]; split
    · rename_i e; rw [e]
    · rfl
  have f1 : ((mergeTexts h c o).cmt o).flags = (h.cmt o).flags := by
    rw [mergeTexts_cmt ok]; split
    · rename_i e; rw [e]
    · rfl
  have rc1 : ((mergeTexts h c o).cmt c).references = (h.cmt c).references := by rw [mergeTexts_cmt ok, if_pos rfl]
  have r2 : ∀ d, ((mergeFlags (mergeTexts h c o) c o).cmt d).references = ((mergeTexts h c o).cmt d).references := by
    intro d
    unfold mergeFlags
    rw [putFlags_cmt ok1]; split
    · rename_i e; rw [e]
    · rfl
  have a1 : (mergeTexts h c o).refs = h.refs := rfl
  have a2 : (mergeFlags (mergeTexts h c o) c o).refs = h.refs := rfl
  have oko2 : CmtOk (mergeFlags (mergeTexts h c o) c o) o := by
    by_cases e : c = o
    · rw [← e] at ok2 ⊢; exact ok2
    · refine ⟨by rw [s2.len, s1.len]; exact oko.1, by rw [r2, r1, a2]; exact oko.2.1, ?_⟩
      rw [s2.others o (Ne.symm e), f1]
      exact oko.2.2.push _
  rw [sort_value ok3, joinReferences_value room ok2 oko2 (by rw [r2, r2, rc1, r1]; exact hc), mergeFlags_value ok1]
  have v1 : (mergeTexts h c o).comment c = { h.comment c with
      translator := mergeText (h.comment c).translator (h.comment o).translator
      extracted := mergeText (h.comment c).extracted (h.comment o).extracted } := by
    unfold Heap.comment
    rw [mergeTexts_cmt ok, if_pos rfl]
    rfl
  have v2 : ((mergeTexts h c o).comment o).flags = (h.comment o).flags := by
    show ((mergeTexts h c o).cmt o).flags.get h.flags = _
    rw [f1]; rfl
  have v3 : ((mergeFlags (mergeTexts h c o) c o).comment o).references = (h.comment o).references := by
    show ((mergeFlags (mergeTexts h c o) c o).cmt o).references.get h.refs = _
    rw [r2, r1]; rfl
  rw [v1, v2, v3]
  rfl

/-! ## Messages -/

theorem msg_set (h : Heap) (a : Nat) (v : Msg) (b : Nat) (ha : a < h.msgs.length) :
    ((h.msgs.set a v)[b]?.getD ⟨none, [], [], [], []⟩) = if a = b then v else h.msg b := by
  unfold Heap.msg
  rw [List.getElem?_set]
  by_cases e : a = b
  · subst e; rw [if_pos rfl, if_pos ha, if_pos rfl]; rfl
  · rw [if_neg e, if_neg e]

/-- An operation on one message. -/
structure MStep (h : Heap) (a : Nat) (h' : Heap) : Prop where
  len : h'.msgs.length = h.msgs.length
  others : ∀ b, b ≠ a → h'.msg b = h.msg b
  context : (h'.msg a).context = (h.msg a).context
  id : (h'.msg a).id = (h.msg a).id
  inners : h'.inners = h.inners
  outers : h'.outers = h.outers
  files : h'.files = h.files
  ok : MsgOk h' a
  grows : h.cmts.length ≤ h'.cmts.length
  cmts : ∀ d, d < h.cmts.length → (h.msg a).comment ≠ some d → h'.cmt d = h.cmt d
  own : ∀ c, (h'.msg a).comment = some c → (h.msg a).comment = some c ∨ h.cmts.length ≤ c
  all : ∀ b, MsgOk h b → MsgOk h' b
  frame : ∀ b, MsgOk h b → MsgApart h b a → MsgOk h' b ∧ h'.message b = h.message b ∧ MsgApart h' b a

theorem MStep.refl {h : Heap} {a : Nat} (ok : MsgOk h a) : MStep h a h :=
  ⟨rfl, fun _ _ => rfl, rfl, rfl, rfl, rfl, rfl, ok, Nat.le_refl _, fun _ _ _ => rfl, fun _ x => .inl x,
    fun _ x => x, fun _ x y => ⟨x, rfl, y⟩⟩

theorem MStep.trans {h h' h'' : Heap} {a : Nat} (s : MStep h a h') (s' : MStep h' a h'') : MStep h a h'' where
  len := s'.len.trans s.len
  others b hb := (s'.others b hb).trans (s.others b hb)
  context := s'.context.trans s.context
  id := s'.id.trans s.id
  inners := s'.inners.trans s.inners
  outers := s'.outers.trans s.outers
  files := s'.files.trans s.files
  ok := s'.ok
  grows := Nat.le_trans s.grows s'.grows
  cmts d hd hn := by
    rw [s'.cmts d (Nat.lt_of_lt_of_le hd s.grows) ?_, s.cmts d hd hn]
    intro e
    rcases s.own d e with x | x
    · exact hn x
    · omega
  own c hc := by
    rcases s'.own c hc with x | x
    · exact s.own c x
    · exact .inr (Nat.le_trans s.grows x)
  all b ok := s'.all b (s.all b ok)
  frame b ok ap := by
    obtain ⟨a1, a2, a3⟩ := s.frame b ok ap
    obtain ⟨b1, b2, b3⟩ := s'.frame b a1 a3
    exact ⟨b1, b2.trans a2, b3⟩

/-- Every message keeps its key. -/
theorem MStep.key {h h' : Heap} {a : Nat} (s : MStep h a h') (b : Nat) :
    (h'.msg b).context = (h.msg b).context ∧ (h'.msg b).id = (h.msg b).id := by
  by_cases e : b = a
  · subst e; exact ⟨s.context, s.id⟩
  · rw [s.others b e]; exact ⟨rfl, rfl⟩

/-- Messages that are apart from the changed one stay apart from each other. -/
theorem MStep.pair {h h' : Heap} {a : Nat} (s : MStep h a h') {b b' : Nat} (ok : MsgOk h b) (ok' : MsgOk h b')
    (ap : MsgApart h b a) (ap' : MsgApart h b' a) (x : MsgApart h b b') : MsgApart h' b b' := by
  refine ⟨x.1, fun c d hc hd => ?_⟩
  rw [s.others b ap.1] at hc
  rw [s.others b' ap'.1] at hd
  have e1 : h'.cmt c = h.cmt c := s.cmts c (ok.2 c hc).1 fun e => (ap.2 c c hc e).1 rfl
  have e2 : h'.cmt d = h.cmt d := s.cmts d (ok'.2 d hd).1 fun e => (ap'.2 d d hd e).1 rfl
  obtain ⟨y1, y2, y3⟩ := x.2 c d hc hd
  exact ⟨y1, by rw [e1, e2]; exact y2, by rw [e1, e2]; exact y3⟩

theorem CStep.msg {h h' : Heap} {c : Nat} (s : CStep h c h') (b : Nat) : h'.msg b = h.msg b := by
  unfold Heap.msg; rw [s.msgs]

theorem CStep.toM {h h' : Heap} {a c : Nat} (s : CStep h c h') (ok : MsgOk h a) (hc : (h.msg a).comment = some c) :
    MStep h a h' := by
  have hm : ∀ b, h'.msg b = h.msg b := fun b => by unfold Heap.msg; rw [s.msgs]
  refine ⟨by rw [s.msgs], fun b _ => hm b, by rw [hm], by rw [hm], s.inners, s.outers, s.files, ⟨by rw [s.msgs]; exact ok.1, ?_⟩,
    Nat.le_of_eq s.len.symm, fun d _ hn => s.others d fun e => hn (e ▸ hc), fun d hd => .inl (by rw [hm] at hd; exact hd), ?_, ?_⟩
  · intro d hd
    rw [hm, hc] at hd
    cases hd
    exact s.ok (ok.2 c hc)
  · intro b okb
    exact ⟨by rw [s.msgs]; exact okb.1, fun d hd => s.all (okb.2 d (by rw [hm] at hd; exact hd))⟩
  · intro b okb ap
    refine ⟨⟨by rw [s.msgs]; exact okb.1, fun d hd => ?_⟩, ?_, ap.1, fun d c' hd hc' => ?_⟩
    · rw [hm] at hd
      exact (s.other (okb.2 d hd) (ap.2 d c hd hc)).1
    · unfold Heap.message
      rw [hm]
      cases hb : (h.msg b).comment with
      | none => rfl
      | some d => rw [Option.map_some, Option.map_some, (s.other (okb.2 d hb) (ap.2 d c hb hc)).2.1]
    · rw [hm] at hd hc'
      rw [hc] at hc'
      cases hc'
      exact (s.other (okb.2 d hd) (ap.2 d c hd hc)).2.2

theorem cmt_push (h : Heap) (v : Cmt) (d : Nat) :
    ((h.cmts ++ [v])[d]?.getD ⟨[], [], .nil, .nil, [], []⟩) = if d = h.cmts.length then v else h.cmt d := by
  unfold Heap.cmt
  by_cases e : d < h.cmts.length
  · rw [List.getElem?_append_left e, if_neg (by omega)]
  · by_cases e' : d = h.cmts.length
    · subst e'; simp
    · rw [if_neg e', List.getElem?_eq_none (by simp; omega), List.getElem?_eq_none (by omega)]

theorem ensureComment_some {h : Heap} {a c : Nat} (hc : (h.msg a).comment = some c) : ensureComment h a = h := by
  unfold ensureComment; rw [hc]

theorem ensureComment_none {h : Heap} {a : Nat} (hc : (h.msg a).comment = none) :
    ensureComment h a = { h with
      cmts := h.cmts ++ [⟨[], [], .nil, .nil, [], []⟩]
      msgs := h.msgs.set a { h.msg a with comment := some h.cmts.length } } := by
  unfold ensureComment; rw [hc]

theorem ensureComment_msg {h : Heap} {a : Nat} (ok : MsgOk h a) (b : Nat) :
    (ensureComment h a).msg b = if a = b then { h.msg a with comment := some ((h.msg a).comment.getD h.cmts.length) } else h.msg b := by
  cases hc : (h.msg a).comment with
  | some c =>
    rw [ensureComment_some hc]
    by_cases e : a = b
    · subst e
      rw [if_pos rfl, Option.getD_some, ← hc]
    · rw [if_neg e]
  | none =>
    rw [ensureComment_none hc]
    exact msg_set h a _ b ok.1

theorem ensureComment_step {h : Heap} {a : Nat} (ok : MsgOk h a) : MStep h a (ensureComment h a) := by
  cases hc : (h.msg a).comment with
  | some c => rw [ensureComment_some hc]; exact .refl ok
  | none =>
    have hm := ensureComment_msg ok
    rw [hc, Option.getD_none] at hm
    have he := ensureComment_none hc
    have hd : ∀ d, (ensureComment h a).cmt d = if d = h.cmts.length then ⟨[], [], .nil, .nil, [], []⟩ else h.cmt d := by
      rw [he]; exact cmt_push h _
    have hr : (ensureComment h a).refs = h.refs := by rw [he]
    have hf : (ensureComment h a).flags = h.flags := by rw [he]
    have hl : (ensureComment h a).cmts.length = h.cmts.length + 1 := by rw [he]; simp
    have hml : (ensureComment h a).msgs.length = h.msgs.length := by rw [he]; simp
    refine ⟨hml, fun b hb => by rw [hm, if_neg (Ne.symm hb)], by rw [hm, if_pos rfl], by rw [hm, if_pos rfl], by rw [he], by rw [he],
      by rw [he], ⟨by rw [hml]; exact ok.1, ?_⟩, by omega, fun d hlt _ => by rw [hd, if_neg (by omega)], ?_, ?_, ?_⟩
    · intro c hcc
      rw [hm, if_pos rfl] at hcc
      cases hcc
      exact ⟨by omega, by rw [hd, if_pos rfl]; exact Slice.nil_ok _, by rw [hd, if_pos rfl]; exact Slice.nil_ok _⟩
    · intro c hcc
      rw [hm, if_pos rfl] at hcc
      cases hcc
      exact .inr (Nat.le_refl _)
    · intro b okb
      refine ⟨by rw [hml]; exact okb.1, fun d x => ?_⟩
      rw [hm] at x
      split at x
      · cases x
        exact ⟨by omega, by rw [hd, if_pos rfl]; exact Slice.nil_ok _, by rw [hd, if_pos rfl]; exact Slice.nil_ok _⟩
      · obtain ⟨o1, o2, o3⟩ := okb.2 d x
        exact ⟨by omega, by rw [hd, if_neg (by omega), hr]; exact o2, by rw [hd, if_neg (by omega), hf]; exact o3⟩
    · intro b okb ap
      have hb : (ensureComment h a).msg b = h.msg b := by rw [hm, if_neg (Ne.symm ap.1)]
      have old : ∀ d, (h.msg b).comment = some d → (ensureComment h a).cmt d = h.cmt d := fun d x => by
        have := (okb.2 d x).1
        rw [hd, if_neg (by omega)]
      refine ⟨⟨by rw [hml]; exact okb.1, fun d x => ?_⟩, ?_, ap.1, fun d c x y => ?_⟩
      · rw [hb] at x
        obtain ⟨o1, o2, o3⟩ := okb.2 d x
        exact ⟨by omega, by rw [old d x, hr]; exact o2, by rw [old d x, hf]; exact o3⟩
      · unfold Heap.message
        rw [hb]
        cases x : (h.msg b).comment with
        | none => rfl
        | some d =>
          rw [Option.map_some, Option.map_some]
          unfold Heap.comment
          rw [old d x, hr, hf]
      · rw [hb] at x
        rw [hm, if_pos rfl] at y
        cases y
        have := (okb.2 d x).1
        refine ⟨by omega, ?_, ?_⟩
        · rw [hd h.cmts.length, if_pos rfl]; exact (Slice.nil_apart _).symm
        · rw [hd h.cmts.length, if_pos rfl]; exact (Slice.nil_apart _).symm

theorem ensureComment_value {h : Heap} {a : Nat} (ok : MsgOk h a) :
    (ensureComment h a).message a = { h.message a with comment := some ((h.message a).comment.getD .new) } := by
  cases hc : (h.msg a).comment with
  | some c =>
    rw [ensureComment_some hc]
    unfold Heap.message
    rw [hc]; rfl
  | none =>
    have hm := ensureComment_msg ok a
    rw [hc, Option.getD_none, if_pos rfl] at hm
    have hd : (ensureComment h a).cmt h.cmts.length = ⟨[], [], .nil, .nil, [], []⟩ := by
      rw [ensureComment_none hc]
      have := cmt_push h ⟨[], [], .nil, .nil, [], []⟩ h.cmts.length
      rw [if_pos rfl] at this
      exact this
    unfold Heap.message
    rw [hm, hc]
    simp only [Option.map_some, Option.map_none, Option.getD_none]
    unfold Heap.comment
    rw [hd]
    simp only [Slice.get_nil]
    rfl

theorem mergePlural_step {h : Heap} {a : Nat} (ok : MsgOk h a) (b : Nat) : MStep h a (mergePlural h a b) := by
  unfold mergePlural
  split
  · have hm : ∀ x, (h.setMsg a { h.msg a with idPlural := (h.msg b).idPlural }).msg x =
        if a = x then { h.msg a with idPlural := (h.msg b).idPlural } else h.msg x := fun x => msg_set h a _ x ok.1
    have hml : (h.setMsg a { h.msg a with idPlural := (h.msg b).idPlural }).msgs.length = h.msgs.length := List.length_set
    have hcm : ∀ x, ((h.setMsg a { h.msg a with idPlural := (h.msg b).idPlural }).msg x).comment = (h.msg x).comment := by
      intro x
      rw [hm]; split
      · rename_i e; rw [e]
      · rfl
    refine ⟨hml, fun x hx => by rw [hm, if_neg (Ne.symm hx)], by rw [hm, if_pos rfl], by rw [hm, if_pos rfl], rfl, rfl, rfl,
      ⟨by rw [hml]; exact ok.1, fun c hc => ?_⟩, Nat.le_refl _, fun _ _ _ => rfl, fun c hc => ?_,
      fun x okx => ⟨by rw [hml]; exact okx.1, fun c hc => okx.2 c (by rw [hcm] at hc; exact hc)⟩, fun x okx ap => ?_⟩
    · rw [hcm] at hc; exact ok.2 c hc
    · rw [hcm] at hc; exact .inl hc
    · have hx := hm x
      rw [if_neg (Ne.symm ap.1)] at hx
      refine ⟨⟨by rw [hml]; exact okx.1, fun c hc => ?_⟩, ?_, ap.1, fun c d hc hd => ?_⟩
      · rw [hcm] at hc; exact okx.2 c hc
      · unfold Heap.message
        rw [hx]; rfl
      · rw [hcm] at hc hd; exact ap.2 c d hc hd
  · exact .refl ok

theorem mergePlural_value {h : Heap} {a : Nat} (ok : MsgOk h a) (b : Nat) :
    (mergePlural h a b).message a =
      if (h.message a).idPlural = [] ∧ (h.message b).idPlural ≠ [] then { h.message a with idPlural := (h.message b).idPlural }
      else h.message a := by
  unfold mergePlural
  by_cases e : (h.msg a).idPlural = [] ∧ (h.msg b).idPlural ≠ []
  · rw [if_pos e, if_pos (show (h.message a).idPlural = [] ∧ (h.message b).idPlural ≠ [] from e)]
    have hm : (h.setMsg a { h.msg a with idPlural := (h.msg b).idPlural }).msg a = { h.msg a with idPlural := (h.msg b).idPlural } := by
      have := msg_set h a { h.msg a with idPlural := (h.msg b).idPlural } a ok.1
      rw [if_pos rfl] at this
      exact this
    unfold Heap.message
    rw [hm]; rfl
  · rw [if_neg e, if_neg (show ¬ ((h.message a).idPlural = [] ∧ (h.message b).idPlural ≠ []) from e)]

theorem mergeMsg_step (room : Room) {h : Heap} {a : Nat} (ok : MsgOk h a) (b : Nat) : MStep h a (mergeMsg room h a b) := by
  unfold mergeMsg
  have s := ensureComment_step ok
  simp only []
  split
  · exact s
  · rename_i c hc
    have s2 := (mergeComment_step room (s.ok.2 c hc) ((ensureComment h a).msg b).comment).toM s.ok hc
    exact s.trans (s2.trans (mergePlural_step s2.ok b))

theorem new_merge_new : Comment.new.merge (some .new) = Comment.new := by rfl

theorem mergeMsg_value (room : Room) {h : Heap} {a b : Nat} (ok : MsgOk h a) (okb : MsgOk h b) (hm : Mergeable h a b) :
    (mergeMsg room h a b).message a = (h.message a).merge (h.message b) := by
  have s := ensureComment_step ok
  have hma := ensureComment_msg ok
  have hca : ((ensureComment h a).msg a).comment = some ((h.msg a).comment.getD h.cmts.length) := by rw [hma, if_pos rfl]
  have hv := ensureComment_value ok
  have hidb : ((ensureComment h a).msg b).idPlural = (h.msg b).idPlural := by
    rw [hma]; split
    · rename_i e; rw [e]
    · rfl
  unfold mergeMsg
  simp only []
  rw [hca]
  simp only []
  have okc := s.ok.2 _ hca
  have cs := mergeComment_step room okc ((ensureComment h a).msg b).comment
  have s2 := cs.toM s.ok hca
  rw [mergePlural_value s2.ok]
  have hm2 : ∀ x, (mergeComment room (ensureComment h a) ((h.msg a).comment.getD h.cmts.length)
      ((ensureComment h a).msg b).comment).msg x = (ensureComment h a).msg x := fun x => cs.msg x
  -- the merged comment
  have key : (mergeComment room (ensureComment h a) ((h.msg a).comment.getD h.cmts.length)
      ((ensureComment h a).msg b).comment).comment ((h.msg a).comment.getD h.cmts.length) =
        ((h.message a).comment.getD .new).merge (h.message b).comment := by
    have hva : (ensureComment h a).comment ((h.msg a).comment.getD h.cmts.length) = (h.message a).comment.getD .new := by
      have := congrArg Message.comment hv
      simp only [Heap.message] at this
      rw [hca] at this
      simp only [Option.map_some] at this
      exact Option.some.inj this
    cases hb : ((ensureComment h a).msg b).comment with
    | none =>
      have : (h.message b).comment = none := by
        rw [hma] at hb
        split at hb
        · cases hb
        · unfold Heap.message; rw [hb]; rfl
      rw [this]
      exact hva
    | some d =>
      have okd : CmtOk (ensureComment h a) d := by
        by_cases e : a = b
        · subst e; exact s.ok.2 d hb
        · rw [hma, if_neg e] at hb
          obtain ⟨o1, o2, o3⟩ := okb.2 d hb
          have hd : (ensureComment h a).cmt d = h.cmt d ∧ (ensureComment h a).refs = h.refs ∧ (ensureComment h a).flags = h.flags := by
            cases hc : (h.msg a).comment with
            | some c => rw [ensureComment_some hc]; exact ⟨rfl, rfl, rfl⟩
            | none =>
              rw [ensureComment_none hc]
              refine ⟨?_, rfl, rfl⟩
              have := cmt_push h ⟨[], [], .nil, .nil, [], []⟩ d
              rw [if_neg (by omega)] at this
              exact this
          exact ⟨Nat.lt_of_lt_of_le o1 s.grows, by rw [hd.1, hd.2.1]; exact o2, by rw [hd.1, hd.2.2]; exact o3⟩
      have hcomp : ((ensureComment h a).cmt ((h.msg a).comment.getD h.cmts.length)).references = ((ensureComment h a).cmt d).references ∨
          ((ensureComment h a).cmt ((h.msg a).comment.getD h.cmts.length)).references.Apart ((ensureComment h a).cmt d).references := by
        cases hc : (h.msg a).comment with
        | some c =>
          rw [ensureComment_some hc] at hb ⊢
          exact hm c d hc hb
        | none =>
          right
          rw [ensureComment_none hc]
          have := cmt_push h ⟨[], [], .nil, .nil, [], []⟩ h.cmts.length
          rw [if_pos rfl] at this
          rw [show (Heap.cmt { h with
            cmts := h.cmts ++ [⟨[], [], .nil, .nil, [], []⟩]
            msgs := h.msgs.set a { h.msg a with comment := some h.cmts.length } } (Option.getD none h.cmts.length)) = _ from this]
          exact Slice.nil_apart _
      rw [mergeComment_value room okc okd hcomp, hva]
      cases hbc : (h.msg b).comment with
      | some d' =>
        have hdd : d = d' := by
          rw [hma] at hb
          split at hb
          · rename_i e
            subst e
            rw [hbc] at hb
            exact (Option.some.inj hb).symm
          · rw [hbc] at hb; exact (Option.some.inj hb).symm
        subst hdd
        have : (h.message b).comment = some ((ensureComment h a).comment d) := by
          unfold Heap.message
          rw [hbc]
          simp only [Option.map_some]
          congr 1
          cases hc : (h.msg a).comment with
          | some c => rw [ensureComment_some hc]
          | none =>
            have hlt := (okb.2 d hbc).1
            rw [ensureComment_none hc]
            unfold Heap.comment
            have := cmt_push h ⟨[], [], .nil, .nil, [], []⟩ d
            rw [if_neg (by omega)] at this
            rw [show (Heap.cmt { h with
              cmts := h.cmts ++ [⟨[], [], .nil, .nil, [], []⟩]
              msgs := h.msgs.set a { h.msg a with comment := some h.cmts.length } } d) = _ from this]
        rw [this]
      | none =>
        have e : a = b := by
          rw [hma] at hb
          split at hb
          · assumption
          · rw [hbc] at hb; cases hb
        subst e
        have h0 : (h.message a).comment = none := by unfold Heap.message; rw [hbc]; rfl
        have hdd : d = (h.msg a).comment.getD h.cmts.length := by
          rw [hca] at hb; exact (Option.some.inj hb).symm
        rw [hdd, hva, h0]
        rfl
  have hval : (mergeComment room (ensureComment h a) ((h.msg a).comment.getD h.cmts.length)
      ((ensureComment h a).msg b).comment).message a =
        { h.message a with comment := some (((h.message a).comment.getD .new).merge (h.message b).comment) } := by
    unfold Heap.message at key ⊢
    rw [hm2, hca]
    simp only [Option.map_some]
    rw [key, hma, if_pos rfl]
  have hpb : ((mergeComment room (ensureComment h a) ((h.msg a).comment.getD h.cmts.length)
      ((ensureComment h a).msg b).comment).message b).idPlural = (h.message b).idPlural := by
    show ((mergeComment room _ _ _).msg b).idPlural = _
    rw [hm2, hidb]; rfl
  rw [hval, hpb]
  rfl

end Verif.Proofs.Po.Memory
