import Verif.Proofs.Po.File
import Verif.Proofs.Utf8
/-!
# C15, C16: messages, comments and headers of PO files

`Unicode` leaves the non-ASCII part of package `unicode` open.
-/
namespace Verif.Props.PoFile
open Verif.Go Verif.Model.Po Verif.Proofs.Po

/-! ## C15 -/

/-- A message with text, for the examples. -/
def hello : Message :=
  ⟨some ⟨b!"note", b!"tip", [⟨b!"a.go", 3, 0⟩], [b!"go-format"], [], []⟩, [], b!"hello", [], [(0, b!"Hallo")]⟩

def helloAgain : Message :=
  ⟨some ⟨b!"more", b!"tip", [⟨b!"a.go", 3, 0⟩, ⟨b!"b.go", 1, 0⟩], [b!"fuzzy"], [], []⟩, [], b!"hello", b!"hellos",
    [(0, b!"Servus")]⟩

/-- Merging keeps context, id and translations, and only fills a missing plural id. -/
theorem C15_merge_keeps (m o : Message) :
    (m.merge o).str = m.str ∧ (m.merge o).context = m.context ∧ (m.merge o).id = m.id ∧
      (m.idPlural ≠ [] → (m.merge o).idPlural = m.idPlural) ∧
      (m.idPlural = [] → (m.merge o).idPlural = o.idPlural) := by
  unfold Message.merge
  simp only []
  split
  · rename_i h; exact ⟨rfl, rfl, rfl, fun h' => absurd h.1 h', fun _ => rfl⟩
  · rename_i h
    refine ⟨rfl, rfl, rfl, fun _ => rfl, fun h' => ?_⟩
    by_cases ho : o.idPlural = []
    · rw [ho]; exact h'
    · exact absurd ⟨h', ho⟩ h

example : (hello.merge helloAgain).str = [(0, b!"Hallo")] ∧ (hello.merge helloAgain).idPlural = b!"hellos" := by
  decide

theorem merge_comment (m o : Message) :
    (m.merge o).comment = some ((m.comment.getD .new).merge o.comment) := by
  unfold Message.merge
  simp only []
  split <;> rfl

/-- After a merge the flags are the flags of both messages, each once, and every reference of both messages
is present: those of the first message as often as before, the new ones once. -/
theorem C15_merge_comment (m o : Message) :
    ∃ c, (m.merge o).comment = some c ∧
      (∀ fl, fl ∈ c.flags ↔ fl ∈ (m.comment.getD .new).flags ∨ fl ∈ (o.comment.getD .new).flags) ∧
      (o.comment ≠ none → c.flags.Nodup) ∧
      (∀ r, c.references.count r =
        if r ∈ (m.comment.getD .new).references then (m.comment.getD .new).references.count r
        else if r ∈ (o.comment.getD .new).references then 1 else 0) := by
  refine ⟨_, merge_comment m o, ?_⟩
  cases o.comment with
  | none =>
    refine ⟨fun fl => by simp [Comment.merge, Comment.new], fun h => absurd rfl h, fun r => ?_⟩
    simp only [Comment.merge]
    split
    · rfl
    · rename_i h
      rw [List.count_eq_zero.mpr h]
      simp [Comment.new]
  | some oc =>
    refine ⟨fun fl => ?_, fun _ => ?_, fun r => ?_⟩
    · simp only [Comment.merge, Comment.sortReferences, Comment.sortFlags, mem_sortBy, mem_mergeStringArrays,
        Option.getD_some]
    · exact (sortBy_perm _ _).nodup_iff.mpr (nodup_mergeStringArrays _ _)
    · simp only [Comment.merge, Comment.sortReferences, Comment.sortFlags, Option.getD_some]
      rw [(sortBy_perm _ _).count_eq, mergeReferences_eq, count_addNew]

example : ∃ c, (hello.merge helloAgain).comment = some c ∧ c.flags = [b!"fuzzy", b!"go-format"] ∧
    c.references = [⟨b!"a.go", 3, 0⟩, ⟨b!"b.go", 1, 0⟩] ∧ c.translator = b!"note\nmore" := by
  refine ⟨_, rfl, ?_⟩
  decide

/-- What a sequence of messages for one entry amounts to. -/
def mergeAll (m : Option Message) : List Message → Option Message
  | [] => m
  | x :: xs => mergeAll (some (match m with | some old => old.merge x | none => x)) xs

/-- Every history of additions: an entry is the merge, in order, of the added messages with its context and
id; messages with an empty id are ignored. -/
theorem C15_history (f : File) (msgs : List Message) (ctx id : Bytes) :
    (msgs.foldl File.addMessage f).getMessage ctx id =
      mergeAll (f.getMessage ctx id)
        (msgs.filter fun m => m.id ≠ [] ∧ m.context = ctx ∧ m.id = id) := by
  induction msgs generalizing f with
  | nil => rfl
  | cons m msgs ih =>
    rw [List.foldl_cons, ih, getMessage_addMessage]
    by_cases h : m.id ≠ [] ∧ m.context = ctx ∧ m.id = id
    · rw [if_pos h, List.filter_cons_of_pos (by simpa using h)]
      rfl
    · rw [if_neg h, List.filter_cons_of_neg (by simpa using h)]

theorem mergeAll_str (m : Message) (xs : List Message) :
    ∃ r, mergeAll (some m) xs = some r ∧ r.str = m.str := by
  induction xs generalizing m with
  | nil => exact ⟨m, rfl, rfl⟩
  | cons x xs ih =>
    obtain ⟨r, hr, hs⟩ := ih (m.merge x)
    exact ⟨r, hr, hs.trans (C15_merge_keeps m x).1⟩

/-- No history of additions changes the translations of an entry that is present. -/
theorem C15_history_keeps (f : File) (msgs : List Message) (ctx id : Bytes) (m : Message)
    (h : f.getMessage ctx id = some m) :
    ∃ r, (msgs.foldl File.addMessage f).getMessage ctx id = some r ∧ r.str = m.str := by
  rw [C15_history, h]
  exact mergeAll_str m _

/-- Every added message with an id is present afterwards, the first one of an entry with its translations. -/
theorem C15_history_first (f : File) (before after : List Message) (m : Message) (hid : m.id ≠ [])
    (hf : f.getMessage m.context m.id = none)
    (hb : ∀ x ∈ before, ¬(x.context = m.context ∧ x.id = m.id)) :
    ∃ r, ((before ++ m :: after).foldl File.addMessage f).getMessage m.context m.id = some r ∧ r.str = m.str := by
  rw [C15_history, List.filter_append, hf]
  have : before.filter (fun x => x.id ≠ [] ∧ x.context = m.context ∧ x.id = m.id) = [] := by
    rw [List.filter_eq_nil_iff]
    intro x hx h
    exact hb x hx (by simpa using (of_decide_eq_true h).2)
  rw [this, List.nil_append, List.filter_cons_of_pos (by simpa using hid)]
  exact mergeAll_str m _

example : ((([hello, helloAgain] : List Message).foldl File.addMessage .new).getMessage [] b!"hello").map
    (fun m => (m.str, m.idPlural)) = some ([(0, b!"Hallo")], b!"hellos") := by decide

/-- Merging the same message again changes nothing, if no line of the comment texts begins or ends with
white space.  Missing for the full claim: such lines (see `C15_negation`). -/
theorem C15_merge_again_partial (m o : Message)
    (hm : NeatComment (m.comment.getD .new)) (ho : ∀ c, o.comment = some c → NeatComment c) :
    (m.merge o).merge o = m.merge o := by
  have h := Comment.merge_idem hm ho
  by_cases h1 : m.idPlural = [] ∧ o.idPlural ≠ []
  · simp only [Message.merge, h1.1, h1.2, ne_eq, not_false_eq_true, and_self, if_true, Option.getD_some, h,
      false_and, if_false]
  · simp only [Message.merge, if_neg h1, Option.getD_some, h]

instance (l : Bytes) : Decidable (Neat l) := inferInstanceAs (Decidable (_ ∧ _))
instance (ls : List Bytes) : Decidable (NeatLines ls) := inferInstanceAs (Decidable (∀ l ∈ ls, _))
instance (c : Comment) : Decidable (NeatComment c) := inferInstanceAs (Decidable (_ ∧ _))

example : NeatComment (hello.comment.getD .new) ∧ (∀ c, helloAgain.comment = some c → NeatComment c) := by
  refine ⟨by decide, ?_⟩
  rintro c ⟨rfl⟩
  decide

/-- Merging the same message again can change the comment: the indented line is trimmed the first time and
then no longer recognised. -/
theorem C15_negation :
    ∃ m o : Message, (m.merge o).merge o ≠ m.merge o := by
  refine ⟨⟨none, [], b!"a", [], []⟩, ⟨some ⟨b!"  x", [], [], [], [], []⟩, [], b!"a", [], []⟩, ?_⟩
  decide

/-! ## C16 -/

/-- ASCII lower case. -/
def asciiLower (c : Char) : Char := if 65 ≤ c.toNat ∧ c.toNat ≤ 90 then Char.ofNat (c.toNat + 32) else c

/-- ASCII upper case. -/
def asciiUpper (c : Char) : Char := if 97 ≤ c.toNat ∧ c.toNat ≤ 122 then Char.ofNat (c.toNat - 32) else c

/-- Two keys differ at most in the case of ASCII letters. -/
def CaseVariant (k k' : Bytes) : Prop := (runes k).map asciiLower = (runes k').map asciiLower

/-- What is assumed of package `unicode`: its behaviour on ASCII. -/
structure AsciiOk (u : Unicode) : Prop where
  upper : ∀ c : Char, c.toNat < 128 → u.upper c = asciiUpper c
  fold : ∀ c : Char, c.toNat < 128 → u.fold c = asciiUpper c

theorem forall_ascii {P : Char → Prop} (h : ∀ n : Fin 128, P (Char.ofNat n.val)) (c : Char)
    (hc : c.toNat < 128) : P c := by
  have := h ⟨c.toNat, hc⟩
  simpa using this

theorem upper_lower : ∀ c : Char, c.toNat < 128 →
    asciiUpper (asciiLower c) = asciiUpper c ∧ (asciiLower c).toNat < 128 :=
  forall_ascii (by decide)

theorem lower_big {c : Char} (h : ¬ c.toNat < 128) : asciiLower c = c := by
  unfold asciiLower; rw [if_neg (by omega)]

theorem congr_case {f : Char → Char} (hf : ∀ c : Char, c.toNat < 128 → f c = asciiUpper c) {c d : Char}
    (h : asciiLower c = asciiLower d) : f c = f d := by
  by_cases hc : c.toNat < 128
  · by_cases hd : d.toNat < 128
    · rw [hf c hc, hf d hd, ← (upper_lower c hc).1, ← (upper_lower d hd).1, h]
    · rw [lower_big hd] at h
      exact absurd (h ▸ (upper_lower c hc).2) hd
  · rw [lower_big hc] at h
    by_cases hd : d.toNat < 128
    · exact absurd (h ▸ (upper_lower d hd).2) hc
    · rw [lower_big hd] at h; rw [h]

theorem map_case {f : Char → Char} (hf : ∀ c : Char, c.toNat < 128 → f c = asciiUpper c) :
    ∀ {l m : List Char}, l.map asciiLower = m.map asciiLower → l.map f = m.map f
  | [], [], _ => rfl
  | [], _ :: _, h => by cases h
  | _ :: _, [], h => by cases h
  | c :: l, d :: m, h => by
    rw [List.map_cons, List.map_cons, List.cons.injEq] at h
    rw [List.map_cons, List.map_cons, congr_case hf h.1, map_case hf h.2]

theorem fieldOf_variant {u : Unicode} (hu : AsciiOk u) {k k' : Bytes} (h : CaseVariant k k') :
    fieldOf u k = fieldOf u k' := by
  unfold fieldOf Unicode.toUpper
  rw [map_case hu.upper h]

/-- The ASCII part of package `unicode` as a table, for computations. -/
def ascii : Unicode := ⟨asciiUpper, asciiUpper⟩

theorem ascii_ok : AsciiOk ascii := ⟨fun _ _ => rfl, fun _ _ => rfl⟩

theorem key_ascii (f : Field) : ∀ c ∈ runes f.key, c.toNat < 128 := by
  cases f <;> decide

theorem toUpper_key {u : Unicode} (hu : AsciiOk u) (f : Field) : u.toUpper f.key = ascii.toUpper f.key := by
  unfold Unicode.toUpper
  rw [List.map_congr_left fun c hc => hu.upper c (key_ascii f c hc)]
  rfl

theorem fieldOf_key {u : Unicode} (hu : AsciiOk u) (f : Field) : fieldOf u f.key = some f := by
  have : fieldOf u f.key = fieldOf ascii f.key := by
    unfold fieldOf
    congr 1
    funext g
    rw [toUpper_key hu, toUpper_key hu]
  rw [this]
  cases f <;> decide

theorem getField_setField (h : Header) (v : Bytes) (f g : Field) :
    (h.setField v f).getField g = if f = g then v else h.getField g := by
  cases f <;> cases g <;> rfl

theorem setField_unknown (h : Header) (v : Bytes) (f : Field) :
    (h.setField v f).unknownFields = h.unknownFields := by cases f <;> rfl

/-- A known field, set under any spelling of its name, is read back under any spelling; the eleven other
fields and the unknown fields keep their values. -/
theorem C16_known {u : Unicode} (hu : AsciiOk u) (h : Header) (f : Field) (k k' v : Bytes)
    (hk : CaseVariant f.key k) (hk' : CaseVariant f.key k') :
    (h.set u k v).get u k' = v ∧ (h.set u k v).getField f = v ∧
      (∀ g, g ≠ f → (h.set u k v).get u g.key = h.get u g.key) ∧
      (h.set u k v).unknownFields = h.unknownFields := by
  have e1 : fieldOf u k = some f := (fieldOf_variant hu hk).symm.trans (fieldOf_key hu f)
  have e2 : fieldOf u k' = some f := (fieldOf_variant hu hk').symm.trans (fieldOf_key hu f)
  simp only [Header.set, Header.get, e1, e2, getField_setField, if_true, true_and, fieldOf_key hu,
    setField_unknown, and_true]
  intro g hg
  rw [if_neg fun e => hg e.symm]

instance (k k' : Bytes) : Decidable (CaseVariant k k') := inferInstanceAs (Decidable (_ = _))

example : CaseVariant Field.pluralForms.key b!"PLURAL-forms" ∧
    (Header.set ascii {} b!"plural-FORMS" b!"x").pluralForms = b!"x" := by decide

/-- After `Set(k, v)`, `Get(k')` returns `v` for every `k'` that differs in ASCII case only, in every order
of the map of unknown fields, if that map holds no second spelling of `k`.  Missing for the full claim:
headers that hold several spellings of an unknown key (see `C16_negation`). -/
theorem C16_set_get_partial {u : Unicode} (hu : AsciiOk u) (h h' : Header) (k k' v : Bytes)
    (hk : CaseVariant k k')
    (huniq : ∀ x w, (x, w) ∈ h.unknownFields → u.equalFold x k = true → x = k)
    (hwf : h.unknownFields.WF)
    (hf : ∀ f, h'.getField f = (h.set u k v).getField f)
    (hp : h'.unknownFields.Perm (h.set u k v).unknownFields) :
    h'.get u k' = v := by
  unfold Header.get
  rw [← fieldOf_variant hu hk]
  cases e : fieldOf u k with
  | some f =>
    simp only [hf, Header.set, e, getField_setField, if_true]
  | none =>
    simp only []
    have hset : (h.set u k v).unknownFields = h.unknownFields.set k v := by simp only [Header.set, e]
    rw [hset] at hp
    have hfold : ∀ x, u.equalFold x k' = u.equalFold x k := by
      intro x; unfold Unicode.equalFold; rw [map_case hu.fold hk]
    have hwf' : GoMap.WF h'.unknownFields := (hwf.set k v).perm hp.symm
    have hmem : (k, v) ∈ h'.unknownFields :=
      hp.mem_iff.mpr (GoMap.mem_of_get? (by rw [GoMap.get?_set, if_pos rfl]))
    have hall : ∀ x w, (x, w) ∈ h'.unknownFields → u.equalFold x k = true → w = v := by
      intro x w hm hx
      have hg := GoMap.get?_of_mem (hwf.set k v) (hp.mem_iff.mp hm)
      rw [GoMap.get?_set] at hg
      by_cases hxk : k = x
      · rw [if_pos hxk] at hg; exact (Option.some.inj hg).symm
      · rw [if_neg hxk] at hg
        exact absurd (huniq x w (GoMap.mem_of_get? hg) hx).symm hxk
    clear hwf' hp hset
    generalize h'.unknownFields = m at hmem hall
    induction m with
    | nil => cases hmem
    | cons p m ih =>
      obtain ⟨x, w⟩ := p
      unfold findFold
      rw [hfold]
      by_cases hx : u.equalFold x k = true
      · rw [if_pos hx]; exact hall x w List.mem_cons_self hx
      · rw [if_neg hx]
        refine ih ?_ fun x w hm => hall x w (List.mem_cons_of_mem _ hm)
        rcases List.mem_cons.mp hmem with e | hm
        · cases e; exact absurd (by simp [Unicode.equalFold]) hx
        · exact hm

example : ∃ h : Header, h.unknownFields.WF ∧ h.unknownFields ≠ [] ∧
    (∀ x w, (x, w) ∈ h.unknownFields → ascii.equalFold x b!"X-New" = true → x = b!"X-New") ∧
    (h.set ascii b!"X-New" b!"1").get ascii b!"x-new" = b!"1" := by
  refine ⟨{ unknownFields := [(b!"X-Old", b!"0")] }, by decide, by decide, ?_, by decide⟩
  intro x w hm
  simp only [List.mem_cons, Prod.mk.injEq, List.not_mem_nil, or_false] at hm
  rw [hm.1]
  decide

theorem findFold_set {u : Unicode} {k k' : Bytes} (v : Bytes) (h : u.equalFold k k' = false)
    (m : GoMap Bytes Bytes) : findFold u k' (m.set k v) = findFold u k' m := by
  induction m with
  | nil => simp [GoMap.set, findFold, h]
  | cons p m ih =>
    obtain ⟨x, w⟩ := p
    unfold GoMap.set
    split
    · rename_i e
      subst e
      simp [findFold, h]
    · simp only [findFold, ih]

/-- Every other key is unaffected: if `k'` selects another field than `k`, or both are unknown and not equal
under case folding, `Get(k')` returns what it returned before. -/
theorem C16_others (u : Unicode) (h : Header) (k k' v : Bytes)
    (hne : fieldOf u k ≠ fieldOf u k' ∨ (fieldOf u k = none ∧ u.equalFold k k' = false)) :
    (h.set u k v).get u k' = h.get u k' := by
  unfold Header.get Header.set
  cases e : fieldOf u k with
  | some f =>
    cases e' : fieldOf u k' with
    | none => simp only [setField_unknown]
    | some g =>
      simp only [getField_setField]
      rw [if_neg]
      rintro rfl
      rcases hne with h | h
      · exact h (e.trans e'.symm)
      · rw [e] at h; cases h.1
  | none =>
    cases e' : fieldOf u k' with
    | some g => cases g <;> rfl
    | none =>
      simp only []
      rcases hne with h | h
      · exact absurd (e.trans e'.symm) h
      · exact findFold_set v h.2 _

example : fieldOf ascii b!"Language" ≠ fieldOf ascii b!"X-a" ∧
    (fieldOf ascii b!"X-a" = none ∧ ascii.equalFold b!"X-a" b!"X-b" = false) := by decide

theorem findFold_all {u : Unicode} {k v : Bytes} : ∀ {m : GoMap Bytes Bytes}, (k, v) ∈ m →
    (∀ x w, (x, w) ∈ m → u.equalFold x k = true → w = v) → findFold u k m = v
  | [], h, _ => nomatch h
  | (x, w) :: m, hmem, hall => by
    unfold findFold
    by_cases hx : u.equalFold x k = true
    · rw [if_pos hx]; exact hall x w List.mem_cons_self hx
    · rw [if_neg hx]
      refine findFold_all ?_ fun x w hm => hall x w (List.mem_cons_of_mem _ hm)
      rcases List.mem_cons.mp hmem with e | hm
      · cases e; exact absurd (by simp [Unicode.equalFold]) hx
      · exact hm

/-- **C16, exactly.** After `Set(k, v)`, `Get(k)` returns `v` in every order of the map of unknown fields if and only if `k` names a
known field or every other spelling of `k` in the map had the value `v` already. -/
theorem C16_set_get_iff {u : Unicode} (h : Header) (k v : Bytes) (hwf : h.unknownFields.WF) :
    (∀ h' : Header, (∀ f, h'.getField f = (h.set u k v).getField f) → h'.unknownFields.Perm (h.set u k v).unknownFields → h'.get u k = v) ↔
      ((fieldOf u k).isSome ∨ ∀ x w, (x, w) ∈ h.unknownFields → u.equalFold x k = true → x = k ∨ w = v) := by
  cases e : fieldOf u k with
  | some f =>
    refine ⟨fun _ => .inl rfl, fun _ h' hf _ => ?_⟩
    unfold Header.get
    rw [e]
    simp only [hf, Header.set, e, getField_setField, if_true]
  | none =>
    have hset : (h.set u k v).unknownFields = h.unknownFields.set k v := by simp only [Header.set, e]
    have hmem : (k, v) ∈ h.unknownFields.set k v := GoMap.mem_of_get? (by rw [GoMap.get?_set, if_pos rfl])
    rw [hset]
    constructor
    · intro H
      refine .inr fun x w hx hfold => ?_
      by_cases hxk : x = k
      · exact .inl hxk
      · right
        have hin : (x, w) ∈ h.unknownFields.set k v := by
          refine GoMap.mem_of_get? ?_
          rw [GoMap.get?_set, if_neg (Ne.symm hxk)]
          exact GoMap.get?_of_mem hwf hx
        obtain ⟨s, t, hst⟩ := List.append_of_mem hin
        have := H { h.set u k v with unknownFields := (x, w) :: (s ++ t) } (fun f => by cases f <;> rfl) (by
          show ((x, w) :: (s ++ t)).Perm (h.unknownFields.set k v)
          rw [hst]
          exact List.perm_middle.symm)
        unfold Header.get at this
        rw [e] at this
        simp only [findFold, hfold, if_true] at this
        exact this
    · rintro (H | H) h' _ hp
      · cases H
      · unfold Header.get
        rw [e]
        refine findFold_all (hp.mem_iff.mpr hmem) fun x w hx hfold => ?_
        have hg := GoMap.get?_of_mem (hwf.set k v) (hp.mem_iff.mp hx)
        rw [GoMap.get?_set] at hg
        by_cases hxk : k = x
        · rw [if_pos hxk] at hg; exact (Option.some.inj hg).symm
        · rw [if_neg hxk] at hg
          exact (H x w (GoMap.mem_of_get? hg) hfold).resolve_left (Ne.symm hxk)

example : ∃ h : Header, h.unknownFields.WF ∧ fieldOf ascii b!"X-New" = none ∧ ∃ w, (b!"x-new", w) ∈ h.unknownFields ∧ w ≠ b!"1" :=
  ⟨{ unknownFields := [(b!"x-new", b!"0")] }, by decide, by decide, b!"0", by decide, by decide⟩

/-- With two spellings of an unknown key in the header, `Get` can return the older value. -/
theorem C16_negation : ∃ (h : Header) (k v : Bytes), h.unknownFields.WF ∧
    (h.set ascii k v).get ascii k ≠ v := by
  refine ⟨Header.set ascii {} b!"x-a" b!"1", b!"X-A", b!"2", ?_⟩
  decide

end Verif.Props.PoFile
