import Verif.Model.Catalog.Gettext
import Verif.Proofs.Po.File
import Verif.Props.Cldr
/-!
# Proofs about gettext catalogs
-/
namespace Verif.Proofs.Catalog
open Verif.Go Verif.Model.Po Verif.Model.Catalog Verif.Cldr
open Verif.Model.Cldr (RuleSet forLanguage)

/-- The keys of the maps of a file are the contexts and ids of its messages, as the parsers leave it. -/
structure Consistent (ms : Messages) : Prop where
  wf : ms.WF
  inner : ∀ ctx msgs, (ctx, msgs) ∈ ms → msgs.WF ∧ ∀ id m, (id, m) ∈ msgs → m.context = ctx ∧ m.id = id

/-- The translations that a catalog has to hold for an id. -/
def wanted (msgs : GoMap Bytes Message) (id : Bytes) : Option (GoMap Int Bytes) :=
  if id = [] then none
  else match msgs.get? id with
    | none => none
    | some m => if isFuzzy m then none else some m.str

theorem buildInner_spec {ctx : Bytes} : ∀ {msgs : GoMap Bytes Message} {look : PoLookupMap}
    {inner : GoMap Bytes (GoMap Int Bytes)}, msgs.WF → (∀ id m, (id, m) ∈ msgs → m.context = ctx ∧ m.id = id) →
    look.get? ctx = some inner → (∀ id ∈ msgs.keys, inner.get? id = none) →
    ∃ look' inner', buildInner look msgs = .ok look' ∧ look'.get? ctx = some inner' ∧
      (∀ c, c ≠ ctx → look'.get? c = look.get? c) ∧
      (∀ id, inner'.get? id = if id ∈ msgs.keys then wanted msgs id else inner.get? id)
  | [], look, inner, _, _, hl, _ => ⟨look, inner, rfl, hl, fun _ _ => rfl, fun id => by simp [GoMap.keys]⟩
  | (id0, m) :: rest, look, inner, hwf, hk, hl, hn => by
    have hnd := GoMap.WF.cons_inv hwf
    have hm := hk id0 m List.mem_cons_self
    have hk' : ∀ id m, (id, m) ∈ rest → m.context = ctx ∧ m.id = id :=
      fun id m h => hk id m (List.mem_cons_of_mem _ h)
    have hn' : ∀ id ∈ GoMap.keys rest, inner.get? id = none := fun id h => hn id (List.mem_cons_of_mem _ h)
    have hw : ∀ id, id ≠ id0 → wanted ((id0, m) :: rest) id = wanted rest id := by
      intro id h
      unfold wanted
      simp only [GoMap.get?, if_neg (fun e => h (Eq.symm e))]
    have hw0 : wanted ((id0, m) :: rest) id0 = if id0 = [] then none else if isFuzzy m then none else some m.str := by
      simp only [wanted, GoMap.get?, if_true]
    -- the loop skips the message
    have skip : wanted ((id0, m) :: rest) id0 = none → buildInner look ((id0, m) :: rest) = buildInner look rest →
        ∃ look' inner', buildInner look ((id0, m) :: rest) = .ok look' ∧ look'.get? ctx = some inner' ∧
        (∀ c, c ≠ ctx → look'.get? c = look.get? c) ∧
        (∀ id, inner'.get? id =
          if id ∈ GoMap.keys ((id0, m) :: rest) then wanted ((id0, m) :: rest) id else inner.get? id) := by
      intro hnone hb
      obtain ⟨look', inner', h1, h2, h3, h4⟩ := buildInner_spec hnd.2 hk' hl hn'
      refine ⟨look', inner', hb.trans h1, h2, h3, fun id => ?_⟩
      rw [h4 id, GoMap.keys_cons]
      by_cases e : id = id0
      · subst e
        rw [if_neg hnd.1, if_pos List.mem_cons_self, hnone, hn _ List.mem_cons_self]
      · rw [hw id e]
        by_cases hi : id ∈ GoMap.keys rest
        · rw [if_pos hi, if_pos (List.mem_cons_of_mem _ hi)]
        · rw [if_neg hi, if_neg (List.not_mem_cons_of_ne_of_not_mem e hi)]
    by_cases h0 : id0 = []
    · exact skip (by rw [hw0, if_pos h0]) (by rw [buildInner, if_pos h0])
    · by_cases hf : isFuzzy m = true
      · exact skip (by rw [hw0, if_neg h0, if_pos hf]) (by rw [buildInner, if_neg h0, if_pos hf])
      · have hb : buildInner look ((id0, m) :: rest) =
            buildInner (look.set ctx (inner.set id0 m.str)) rest := by
          rw [buildInner, if_neg h0, if_neg hf, hm.1, hl, hm.2]
        obtain ⟨look', inner', h1, h2, h3, h4⟩ := buildInner_spec (look := look.set ctx (inner.set id0 m.str))
          (inner := inner.set id0 m.str) hnd.2 hk' (by rw [GoMap.get?_set, if_pos rfl]) (by
            intro id hid
            rw [GoMap.get?_set, if_neg]
            · exact hn' id hid
            · rintro rfl; exact hnd.1 hid)
        refine ⟨look', inner', hb.trans h1, h2, fun c hc => ?_, fun id => ?_⟩
        · rw [h3 c hc, GoMap.get?_set, if_neg fun e => hc e.symm]
        · rw [h4 id, GoMap.keys_cons, GoMap.get?_set]
          by_cases e : id = id0
          · subst e
            rw [if_neg hnd.1, if_pos rfl, if_pos List.mem_cons_self, hw0, if_neg h0, if_neg hf]
          · rw [hw id e, if_neg fun h => e (Eq.symm h)]
            by_cases hi : id ∈ GoMap.keys rest
            · rw [if_pos hi, if_pos (List.mem_cons_of_mem _ hi)]
            · rw [if_neg hi, if_neg (List.not_mem_cons_of_ne_of_not_mem e hi)]

/-- The contents of a catalog for one context. -/
def ContextOk (ms : Messages) (look : PoLookupMap) (ctx : Bytes) : Prop :=
  match ms.get? ctx with
  | none => look.get? ctx = none
  | some [] => look.get? ctx = none
  | some msgs => ∃ inner, look.get? ctx = some inner ∧ ∀ id, inner.get? id = wanted msgs id

theorem wanted_not_mem {msgs : GoMap Bytes Message} {id : Bytes} (h : id ∉ msgs.keys) : wanted msgs id = none := by
  unfold wanted
  rw [GoMap.get?_eq_none.mpr h]
  split <;> rfl

theorem buildLookup_spec : ∀ {ms : Messages} {look : PoLookupMap}, Consistent ms →
    (∀ ctx ∈ ms.keys, look.get? ctx = none) →
    ∃ look', buildLookup look ms = .ok look' ∧
      (∀ ctx, ctx ∈ ms.keys → ContextOk ms look' ctx) ∧ (∀ ctx, ctx ∉ ms.keys → look'.get? ctx = look.get? ctx)
  | [], look, _, _ => ⟨look, rfl, (fun ctx h => nomatch h), fun _ _ => rfl⟩
  | (ctx0, msgs) :: rest, look, hc, hn => by
    have hnd := GoMap.WF.cons_inv hc.wf
    have hc' : Consistent rest := ⟨hnd.2, fun c m h => hc.inner c m (List.mem_cons_of_mem _ h)⟩
    have hget : ∀ ctx, ctx ≠ ctx0 → GoMap.get? ((ctx0, msgs) :: rest) ctx = GoMap.get? rest ctx := by
      intro ctx h
      simp only [GoMap.get?, if_neg (fun e => h (Eq.symm e))]
    have hget0 : GoMap.get? ((ctx0, msgs) :: rest) ctx0 = some msgs := by simp only [GoMap.get?, if_true]
    by_cases he : msgs = []
    · subst he
      obtain ⟨look', h1, h2, h3⟩ := buildLookup_spec (look := look) hc' fun c h => hn c (List.mem_cons_of_mem _ h)
      refine ⟨look', by rw [buildLookup, if_pos rfl]; exact h1, fun ctx hctx => ?_, fun ctx hctx => ?_⟩
      · by_cases e : ctx = ctx0
        · subst e
          unfold ContextOk
          rw [hget0]
          simp only []
          rw [h3 _ hnd.1, hn _ List.mem_cons_self]
        · unfold ContextOk
          rw [hget ctx e]
          exact h2 ctx ((List.mem_cons.mp hctx).resolve_left e)
      · exact h3 ctx fun h => hctx (List.mem_cons_of_mem _ h)
    · have hi := hc.inner ctx0 msgs List.mem_cons_self
      have h0 : look.get? ctx0 = none := hn _ List.mem_cons_self
      obtain ⟨look1, inner1, g1, g2, g3, g4⟩ := buildInner_spec (look := look.set ctx0 []) (inner := []) hi.1 hi.2
        (by rw [GoMap.get?_set, if_pos rfl]) (fun _ _ => rfl)
      obtain ⟨look', h1, h2, h3⟩ := buildLookup_spec (look := look1) hc' (by
        intro c h
        have : c ≠ ctx0 := by rintro rfl; exact hnd.1 h
        rw [g3 c this, GoMap.get?_set, if_neg fun e => this (Eq.symm e)]
        exact hn c (List.mem_cons_of_mem _ h))
      refine ⟨look', ?_, fun ctx hctx => ?_, fun ctx hctx => ?_⟩
      · rw [buildLookup, if_neg he]
        simp only [h0, Option.isNone_none, if_true, bind, Except.bind]
        rw [g1]
        exact h1
      · by_cases e : ctx = ctx0
        · subst e
          unfold ContextOk
          rw [hget0]
          cases msgs with
          | nil => exact absurd rfl he
          | cons p ps =>
            simp only []
            refine ⟨inner1, by rw [h3 _ hnd.1, g2], fun id => ?_⟩
            rw [g4 id]
            split
            · rfl
            · rename_i hid; rw [wanted_not_mem hid]; rfl
        · unfold ContextOk
          rw [hget ctx e]
          exact h2 ctx ((List.mem_cons.mp hctx).resolve_left e)
      · have e : ctx ≠ ctx0 := fun e => hctx (e ▸ List.mem_cons_self)
        rw [h3 ctx fun h => hctx (List.mem_cons_of_mem _ h), g3 ctx e, GoMap.get?_set, if_neg fun h => e (Eq.symm h)]

/-- Building from a consistent file succeeds and the catalog holds the wanted messages of every context. -/
theorem buildLookup_ok {ms : Messages} (hc : Consistent ms) :
    ∃ look, buildLookup [] ms = .ok look ∧ ∀ ctx, ContextOk ms look ctx := by
  obtain ⟨look, h1, h2, h3⟩ := buildLookup_spec (look := []) hc fun _ _ => rfl
  refine ⟨look, h1, fun ctx => ?_⟩
  by_cases h : ctx ∈ ms.keys
  · exact h2 ctx h
  · unfold ContextOk
    rw [GoMap.get?_eq_none.mpr h]
    simp only []
    rw [h3 ctx h]
    rfl

/-! ## Consistency is what `AddMessage` maintains -/

theorem mem_of_set {κ α : Type} [DecidableEq κ] {m : GoMap κ α} {k k' : κ} {v v' : α} (hm : m.WF)
    (h : (k', v') ∈ m.set k v) : (k' = k ∧ v' = v) ∨ (k' ≠ k ∧ (k', v') ∈ m) := by
  have hg := GoMap.get?_of_mem (hm.set k v) h
  rw [GoMap.get?_set] at hg
  by_cases e : k = k'
  · rw [if_pos e] at hg; exact Or.inl ⟨e.symm, (Option.some.inj hg).symm⟩
  · rw [if_neg e] at hg; exact Or.inr ⟨fun h => e h.symm, GoMap.mem_of_get? hg⟩

theorem merge_key (m o : Message) : (m.merge o).context = m.context ∧ (m.merge o).id = m.id := by
  unfold Message.merge
  simp only []
  split <;> exact ⟨rfl, rfl⟩

theorem Consistent.nil : Consistent [] := ⟨GoMap.WF.nil, fun _ _ h => by cases h⟩

theorem Consistent.add {ms : Messages} (hc : Consistent ms) (m : Message) : Consistent (Messages.add ms m) := by
  have key : ∀ v : Message, v.context = m.context ∧ v.id = m.id →
      Consistent (GoMap.set ms m.context (((GoMap.get? ms m.context).getD []).set m.id v)) := by
    intro v hv
    refine ⟨hc.wf.set _ _, fun ctx msgs h => ?_⟩
    rcases mem_of_set hc.wf h with ⟨rfl, rfl⟩ | ⟨_, h⟩
    · have hin : ((GoMap.get? ms m.context).getD []).WF ∧
          ∀ id x, (id, x) ∈ (GoMap.get? ms m.context).getD [] → x.context = m.context ∧ x.id = id := by
        cases hg : GoMap.get? ms m.context with
        | none => exact ⟨GoMap.WF.nil, fun _ _ h => by cases h⟩
        | some msgs => exact hc.inner _ _ (GoMap.mem_of_get? hg)
      refine ⟨hin.1.set _ _, fun id x h => ?_⟩
      rcases mem_of_set hin.1 h with ⟨rfl, rfl⟩ | ⟨_, h⟩
      · exact hv
      · exact hin.2 id x h
    · exact hc.inner ctx msgs h
  unfold Messages.add
  simp only []
  cases ho : GoMap.get? ((GoMap.get? ms m.context).getD []) m.id with
  | none => exact key m ⟨rfl, rfl⟩
  | some old =>
    refine key _ ?_
    have hold : old.context = m.context ∧ old.id = m.id := by
      cases hg : GoMap.get? ms m.context with
      | none => rw [hg] at ho; cases ho
      | some msgs =>
        rw [hg] at ho
        exact (hc.inner _ _ (GoMap.mem_of_get? hg)).2 _ _ (GoMap.mem_of_get? ho)
    have := merge_key old m
    exact ⟨this.1.trans hold.1, this.2.trans hold.2⟩

theorem consistent_addAll {f : File} (hc : Consistent f.messages) (msgs : List Message) :
    Consistent (msgs.foldl File.addMessage f).messages := by
  induction msgs generalizing f with
  | nil => exact hc
  | cons m msgs ih =>
    rw [List.foldl_cons]
    refine ih ?_
    unfold File.addMessage
    split
    · exact hc
    · exact hc.add m

/-! ## The plural index -/

theorem fillForms_get? : ∀ (cats : List Category) (m : GoMap Category Int) (k : Int) (c : Category), cats.Nodup →
    (fillForms m k cats).get? c = if c ∈ cats then some (k + cats.idxOf c) else m.get? c
  | [], m, k, c, _ => by simp [fillForms]
  | a :: cats, m, k, c, h => by
    have hn := List.nodup_cons.mp h
    unfold fillForms
    rw [fillForms_get? cats _ _ c hn.2, GoMap.get?_set]
    by_cases e : a = c
    · subst e
      rw [if_neg hn.1, if_pos rfl, if_pos List.mem_cons_self]
      simp
    · rw [if_neg e]
      by_cases hc : c ∈ cats
      · rw [if_pos hc, if_pos (List.mem_cons_of_mem _ hc), List.idxOf_cons]
        have : (a == c) = false := by simpa using e
        rw [this]
        simp only [Option.some.injEq, cond_false]
        omega
      · rw [if_neg hc, if_neg (List.not_mem_cons_of_ne_of_not_mem (Ne.symm e) hc)]

end Verif.Proofs.Catalog
