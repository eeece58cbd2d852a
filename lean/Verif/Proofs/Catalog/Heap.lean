import Verif.Spec.Program
import Verif.Proofs.Catalog.Json
/-!
# Lemmas on JSON catalogs in memory
-/
namespace Verif.Proofs.Catalog.Heap
open Verif.Go Verif.Model.Po Verif.Model.Catalog Verif.Model.Catalog.Heap Verif.Spec.Program

/-! ## Maps -/

theorem map_set {κ α β : Type} [DecidableEq κ] (f : α → β) : ∀ (m : GoMap κ α) (k : κ) (v : α),
    (m.set k v).map (fun p => (p.1, f p.2)) = GoMap.set (m.map fun p => (p.1, f p.2)) k (f v)
  | [], k, v => rfl
  | (k', v') :: m, k, v => by
    simp only [GoMap.set, List.map_cons]
    split
    · rfl
    · rw [List.map_cons, map_set]

theorem mem_set {κ α : Type} [DecidableEq κ] : ∀ {m : GoMap κ α} {k : κ} {v : α} {p : κ × α}, p ∈ m.set k v → p ∈ m ∨ p = (k, v)
  | [], k, v, p, h => .inr (List.mem_singleton.1 h)
  | (k', v') :: m, k, v, p, h => by
    simp only [GoMap.set] at h
    split at h
    · rcases List.mem_cons.1 h with h | h
      · exact .inr h
      · exact .inl (List.mem_cons_of_mem _ h)
    · rcases List.mem_cons.1 h with h | h
      · exact .inl (h ▸ List.mem_cons_self)
      · rcases mem_set h with h | h
        · exact .inl (List.mem_cons_of_mem _ h)
        · exact .inr h

/-! ## Memory that has grown -/

/-- The old objects are as they were. -/
structure Extends (h h' : Heap) : Prop where
  maps : h.maps <+: h'.maps
  msgs : h.msgs <+: h'.msgs
  files : h.files <+: h'.files

theorem Extends.refl (h : Heap) : Extends h h := ⟨List.prefix_rfl, List.prefix_rfl, List.prefix_rfl⟩

theorem Extends.trans {a b c : Heap} (h : Extends a b) (h' : Extends b c) : Extends a c :=
  ⟨h.maps.trans h'.maps, h.msgs.trans h'.msgs, h.files.trans h'.files⟩

theorem getElem?_prefix {α : Type} {l l' : List α} (h : l <+: l') {i : Nat} (hi : i < l.length) : l'[i]? = l[i]? := by
  obtain ⟨r, rfl⟩ := h
  exact List.getElem?_append_left hi

theorem Extends.map {h h' : Heap} (e : Extends h h') {t : Nat} (ht : t < h.maps.length) : h'.map t = h.map t := by
  unfold Heap.map; rw [getElem?_prefix e.maps ht]

theorem Extends.msg {h h' : Heap} (e : Extends h h') {a : Nat} (ha : a < h.msgs.length) : h'.msg a = h.msg a := by
  unfold Heap.msg; rw [getElem?_prefix e.msgs ha]

theorem Extends.value {h h' : Heap} (e : Extends h h') {a : Nat} (ha : a < h.msgs.length)
    (ht : ∀ t, (h.msg a).translations = some t → t < h.maps.length) : h'.value a = h.value a := by
  unfold Heap.value
  rw [e.msg ha]
  cases hm : (h.msg a).translations with
  | none => rfl
  | some t => simp only [Option.map_some, e.map (ht t hm)]

/-- A new message with a map of its own. -/
def added (h : Heap) (m : Msg) (tr : GoMap Int Bytes) : Heap :=
  ⟨h.maps ++ [tr], h.msgs ++ [{ m with translations := some h.maps.length }], h.files⟩

/-- The map of a message, as it can be read. -/
def tr (h : Heap) (m : Msg) : GoMap Int Bytes := (m.translations.map h.map).getD []

theorem extends_added (h : Heap) (m : Msg) (t : GoMap Int Bytes) : Extends h (added h m t) :=
  ⟨List.prefix_append .., List.prefix_append .., List.prefix_rfl⟩

theorem extends_newMsg (h : Heap) (m : Msg) : Extends h (h.newMsg m).1 :=
  ⟨List.prefix_rfl, List.prefix_append .., List.prefix_rfl⟩

theorem msg_added (h : Heap) (m : Msg) (t : GoMap Int Bytes) :
    (added h m t).msg h.msgs.length = { m with translations := some h.maps.length } := by
  unfold Heap.msg added; simp

theorem map_added (h : Heap) (m : Msg) (t : GoMap Int Bytes) : (added h m t).map h.maps.length = t := by
  unfold Heap.map added; simp

theorem clone_some (h : Heap) {m : Msg} {t : Nat} (hm : m.translations = some t) :
    clone h m = (added h m (h.map t), h.msgs.length) := by
  unfold clone; rw [hm]; rfl

theorem clone_none (h : Heap) {m : Msg} (hm : m.translations = none) :
    clone h m = ((h.newMsg m).1, h.msgs.length) := by
  unfold clone; rw [hm]; rfl

theorem clone_addr (h : Heap) (m : Msg) : (clone h m).2 = h.msgs.length := by
  cases hm : m.translations with
  | none => rw [clone_none h hm]
  | some t => rw [clone_some h hm]

theorem ensure_clone (h : Heap) (m : Msg) :
    ensureMap (clone h m).1 (clone h m).2 = (added h m (tr h m), h.maps.length) := by
  cases hm : m.translations with
  | none =>
    rw [clone_none h hm]
    unfold ensureMap
    have : (h.newMsg m).1.msg h.msgs.length = m := by unfold Heap.msg Heap.newMsg; simp
    simp only [this, hm]
    unfold Heap.newMsg Heap.newMap Heap.setMsg added tr
    simp [hm]
  | some t =>
    rw [clone_some h hm]
    unfold ensureMap
    simp only [msg_added]
    unfold tr; rw [hm]; rfl

theorem setMap_added (h : Heap) (m : Msg) (t t' : GoMap Int Bytes) : (added h m t).setMap h.maps.length t' = added h m t' := by
  unfold Heap.setMap added; simp

theorem setMessage_eq (names : List Int) (h : Heap) (c : Cat) (key : Bytes) (src : Option Nat) :
    c.setMessage names h key src =
      if key = [] then (h, c, some .emptyKey)
      else match src with
        | none => (h, c, some .noMessage)
        | some a =>
          if (h.msg a).context ≠ [] ∧ hasSuffix key (b!"_" ++ (h.msg a).context) = false then (h, c, some .contextMismatch)
          else if ((tr h (h.msg a)).get? other).isNone then (added h (h.msg a) (tr h (h.msg a)), c, some .noOther)
          else (added h (h.msg a) (applyCategories names c.categories (tr h (h.msg a))),
            { c with lookupMap := c.lookupMap.set (h.msg a).context (((c.lookupMap.get? (h.msg a).context).getD []).set key h.msgs.length) },
            none) := by
  unfold Cat.setMessage
  by_cases hk : key = []
  · rw [if_pos hk, if_pos hk]
  rw [if_neg hk, if_neg hk]
  cases src with
  | none => rfl
  | some a =>
    have := ensure_clone h (h.msg a)
    rw [clone_addr] at this
    simp only [clone_addr, this, map_added, setMap_added, msg_added]

/-! ## What belongs to catalogs -/

/-- Messages and maps that belong to catalogs: nothing else points to them. -/
structure Good (PM PT : Nat → Prop) (h : Heap) : Prop where
  own : ∀ a, PM a → a < h.msgs.length ∧ ∃ t, (h.msg a).translations = some t ∧ PT t ∧ h.map t ≠ []
  lt : ∀ t, PT t → t < h.maps.length
  msgs : ∀ a, a < h.msgs.length → ¬ PM a → ∀ t, (h.msg a).translations = some t → ¬ PT t ∧ t < h.maps.length
  files : ∀ f ∈ h.files, ∀ k a, (k, some a) ∈ f → ¬ PM a ∧ a < h.msgs.length

/-- The catalog has only messages of its own. -/
def Owns (PM : Nat → Prop) (c : Cat) : Prop := ∀ ctx inner, (ctx, inner) ∈ c.lookupMap → ∀ k a, (k, a) ∈ inner → PM a

theorem view_eq {PM : Nat → Prop} {h h' : Heap} {c : Cat} (ho : Owns PM c)
    (hv : ∀ a, PM a → h'.value a = h.value a) : view h' c = view h c := by
  unfold view
  have : (c.lookupMap.map fun p => (p.1, p.2.map fun q => (q.1, h'.value q.2))) =
      c.lookupMap.map fun p => (p.1, p.2.map fun q => (q.1, h.value q.2)) := by
    apply List.map_congr_left
    intro p hp
    congr 1
    apply List.map_congr_left
    intro q hq
    rw [hv _ (ho p.1 p.2 hp q.1 q.2 hq)]
  rw [this]

theorem Good.value {PM PT : Nat → Prop} {h h' : Heap} (g : Good PM PT h) (e : Extends h h') (a : Nat) (ha : PM a) :
    h'.value a = h.value a := by
  obtain ⟨h1, t, h2, h3, _⟩ := g.own a ha
  exact e.value h1 fun t' ht => by rw [h2] at ht; cases ht; exact g.lt t h3

theorem Good.valid {PM PT : Nat → Prop} {h : Heap} (g : Good PM PT h) {a : Nat} (ha : a < h.msgs.length) (t : Nat)
    (ht : (h.msg a).translations = some t) : t < h.maps.length := by
  by_cases hp : PM a
  · obtain ⟨_, u, h2, h3, _⟩ := g.own a hp
    rw [h2] at ht; cases ht
    exact g.lt t h3
  · exact (g.msgs a ha hp t ht).2

/-- A new message that belongs to nobody. -/
theorem Good.added {PM PT : Nat → Prop} {h : Heap} (g : Good PM PT h) (m : Msg) (t : GoMap Int Bytes) :
    Good PM PT (added h m t) := by
  have e := extends_added h m t
  have hl : (Verif.Proofs.Catalog.Heap.added h m t).msgs.length = h.msgs.length + 1 := by simp [Verif.Proofs.Catalog.Heap.added]
  have hm : (Verif.Proofs.Catalog.Heap.added h m t).maps.length = h.maps.length + 1 := by simp [Verif.Proofs.Catalog.Heap.added]
  refine ⟨?_, ?_, ?_, ?_⟩
  · intro a ha
    obtain ⟨h1, u, h2, h3, h4⟩ := g.own a ha
    exact ⟨by omega, u, by rw [e.msg h1]; exact h2, h3, by rw [e.map (g.lt u h3)]; exact h4⟩
  · intro u hu; have := g.lt u hu; omega
  · intro a ha hp u hu
    by_cases hlt : a < h.msgs.length
    · rw [e.msg hlt] at hu
      have := g.msgs a hlt hp u hu
      exact ⟨this.1, by omega⟩
    · have : a = h.msgs.length := by omega
      subst this
      rw [msg_added] at hu
      cases hu
      exact ⟨fun hp => by have := g.lt _ hp; omega, by omega⟩
  · intro f hf k a hk
    have := g.files f hf k a hk
    exact ⟨this.1, by omega⟩

/-- A new message that belongs to a catalog. -/
theorem Good.owned {PM PT : Nat → Prop} {h : Heap} (g : Good PM PT h) (m : Msg) {t : GoMap Int Bytes} (ht : t ≠ []) :
    Good (fun a => PM a ∨ a = h.msgs.length) (fun u => PT u ∨ u = h.maps.length) (Verif.Proofs.Catalog.Heap.added h m t) := by
  have e := extends_added h m t
  have hl : (Verif.Proofs.Catalog.Heap.added h m t).msgs.length = h.msgs.length + 1 := by simp [Verif.Proofs.Catalog.Heap.added]
  have hm : (Verif.Proofs.Catalog.Heap.added h m t).maps.length = h.maps.length + 1 := by simp [Verif.Proofs.Catalog.Heap.added]
  refine ⟨?_, ?_, ?_, ?_⟩
  · rintro a (ha | rfl)
    · obtain ⟨h1, u, h2, h3, h4⟩ := g.own a ha
      exact ⟨by omega, u, by rw [e.msg h1]; exact h2, .inl h3, by rw [e.map (g.lt u h3)]; exact h4⟩
    · exact ⟨by omega, h.maps.length, by rw [msg_added], .inr rfl, by rw [map_added]; exact ht⟩
  · rintro u (hu | rfl)
    · have := g.lt u hu; omega
    · omega
  · intro a ha hp u hu
    have hlt : a < h.msgs.length := by
      have : a ≠ h.msgs.length := fun h => hp (.inr h)
      omega
    rw [e.msg hlt] at hu
    have := g.msgs a hlt (fun h => hp (.inl h)) u hu
    refine ⟨?_, by omega⟩
    rintro (h | h)
    · exact this.1 h
    · omega
  · intro f hf k a hk
    have := g.files f hf k a hk
    refine ⟨?_, by omega⟩
    rintro (h | h)
    · exact this.1 h
    · omega

theorem Good.newMsg {PM PT : Nat → Prop} {h : Heap} (g : Good PM PT h) {m : Msg}
    (hm : ∀ t, m.translations = some t → ¬ PT t ∧ t < h.maps.length) : Good PM PT (h.newMsg m).1 := by
  have e := extends_newMsg h m
  have hl : (h.newMsg m).1.msgs.length = h.msgs.length + 1 := by simp [Heap.newMsg]
  refine ⟨?_, ?_, ?_, ?_⟩
  · intro a ha
    obtain ⟨h1, u, h2, h3, h4⟩ := g.own a ha
    exact ⟨by omega, u, by rw [e.msg h1]; exact h2, h3, by rw [e.map (g.lt u h3)]; exact h4⟩
  · exact g.lt
  · intro a ha hp u hu
    by_cases hlt : a < h.msgs.length
    · rw [e.msg hlt] at hu
      exact g.msgs a hlt hp u hu
    · have : a = h.msgs.length := by omega
      subst this
      have : (h.newMsg m).1.msg h.msgs.length = m := by unfold Heap.msg Heap.newMsg; simp
      rw [this] at hu
      exact hm u hu
  · intro f hf k a hk
    have := g.files f hf k a hk
    exact ⟨this.1, by omega⟩

theorem Good.clone {PM PT : Nat → Prop} {h : Heap} (g : Good PM PT h) (m : Msg) : Good PM PT (clone h m).1 ∧
    Extends h (Heap.clone h m).1 ∧ (Heap.clone h m).1.msgs.length = h.msgs.length + 1 ∧ ¬ PM h.msgs.length := by
  have hp : ¬ PM h.msgs.length := fun hp => by have := (g.own _ hp).1; omega
  cases hm : m.translations with
  | none =>
    rw [clone_none h hm]
    exact ⟨g.newMsg (by simp [hm]), extends_newMsg h m, by simp [Heap.newMsg], hp⟩
  | some t =>
    rw [clone_some h hm]
    exact ⟨g.added m _, extends_added h m _, by simp [Verif.Proofs.Catalog.Heap.added], hp⟩

/-! ## Functions that only add -/

/-- The memory has grown, and so has what belongs to catalogs. -/
structure Grows (PM PT : Nat → Prop) (h : Heap) (PM' PT' : Nat → Prop) (h' : Heap) : Prop where
  good : Good PM' PT' h'
  ext : Extends h h'
  msgs : ∀ a, a < h.msgs.length → (PM' a ↔ PM a)
  maps : ∀ t, t < h.maps.length → (PT' t ↔ PT t)

theorem Grows.refl {PM PT : Nat → Prop} {h : Heap} (g : Good PM PT h) : Grows PM PT h PM PT h :=
  ⟨g, .refl h, fun _ _ => .rfl, fun _ _ => .rfl⟩

theorem prefix_length {α : Type} {l l' : List α} (h : l <+: l') : l.length ≤ l'.length := h.length_le

theorem Grows.trans {PM PT PM' PT' PM'' PT'' : Nat → Prop} {h h' h'' : Heap} (g : Grows PM PT h PM' PT' h')
    (g' : Grows PM' PT' h' PM'' PT'' h'') : Grows PM PT h PM'' PT'' h'' :=
  ⟨g'.good, g.ext.trans g'.ext,
    fun a ha => (g'.msgs a (Nat.lt_of_lt_of_le ha g.ext.msgs.length_le)).trans (g.msgs a ha),
    fun t ht => (g'.maps t (Nat.lt_of_lt_of_le ht g.ext.maps.length_le)).trans (g.maps t ht)⟩

theorem Grows.sub {PM PT PM' PT' : Nat → Prop} {h h' : Heap} (g : Good PM PT h) (k : Grows PM PT h PM' PT' h') (a : Nat) (ha : PM a) :
    PM' a := (k.msgs a (g.own a ha).1).2 ha

theorem Owns.grows {PM PT PM' PT' : Nat → Prop} {h h' : Heap} {c : Cat} (ho : Owns PM c) (g : Good PM PT h)
    (k : Grows PM PT h PM' PT' h') : Owns PM' c := fun ctx inner hi key a ha => k.sub g a (ho ctx inner hi key a ha)

theorem apply_ne_nil {names cats : List Int} (ho : other ∈ cats) {t : GoMap Int Bytes} (h : (t.get? other).isNone ≠ true) :
    applyCategories names cats t ≠ [] := by
  intro he
  have := applyCategories_get? names cats t other
  rw [he] at this
  simp only [GoMap.get?, ho, if_true] at this
  cases hg : t.get? other with
  | none => rw [hg] at h; exact h rfl
  | some v =>
    rw [hg] at this
    split at this
    · cases this
    · split at this <;> cases this

/-- What `setMessage` does to memory, and that it does to the catalog what the function on values does. -/
theorem setMessage_grows {PM PT : Nat → Prop} {h : Heap} (g : Good PM PT h) (names : List Int) {c : Cat} (ho : Owns PM c)
    (hc : other ∈ c.categories) (key : Bytes) (src : Option Nat) :
    ∃ PM' PT', Grows PM PT h PM' PT' (c.setMessage names h key src).1 ∧ Owns PM' (c.setMessage names h key src).2.1 ∧
      (c.setMessage names h key src).2.1.categories = c.categories ∧
      match (view h c).setMessage names key (src.map h.value) with
      | .error e => (c.setMessage names h key src).2 = (c, some e)
      | .ok d => (c.setMessage names h key src).2.2 = none ∧ view (c.setMessage names h key src).1 (c.setMessage names h key src).2.1 = d := by
  rw [setMessage_eq]
  unfold JsonCatalog.setMessage
  by_cases hk : key = []
  · simp only [if_pos hk]
    exact ⟨PM, PT, .refl g, ho, trivial, trivial⟩
  simp only [if_neg hk]
  cases src with
  | none => exact ⟨PM, PT, .refl g, ho, rfl, rfl⟩
  | some a =>
    have e1 : (h.value a).context = (h.msg a).context := rfl
    have e2 : (h.value a).tr = tr h (h.msg a) := rfl
    simp only [Option.map_some, e1, e2]
    by_cases h1 : (h.msg a).context ≠ [] ∧ hasSuffix key (b!"_" ++ (h.msg a).context) = false
    · simp only [if_pos h1]
      exact ⟨PM, PT, .refl g, ho, trivial, trivial⟩
    simp only [if_neg h1]
    by_cases h2 : ((tr h (h.msg a)).get? other).isNone = true
    · simp only [if_pos h2]
      exact ⟨PM, PT, ⟨g.added _ _, extends_added .., fun _ _ => .rfl, fun _ _ => .rfl⟩, ho, trivial, trivial⟩
    simp only [if_neg h2]
    have hne := apply_ne_nil (names := names) hc h2
    have e := extends_added h (h.msg a) (applyCategories names c.categories (tr h (h.msg a)))
    refine ⟨_, _, ⟨g.owned (h.msg a) hne, e, ?_, ?_⟩, ?_, ?_, ?_⟩
    · intro x hx; constructor
      · rintro (h | h)
        · exact h
        · omega
      · exact .inl
    · intro x hx; constructor
      · rintro (h | h)
        · exact h
        · omega
      · exact .inl
    · intro ctx inner hi k x hx
      rcases mem_set hi with hi | hi
      · exact .inl (ho ctx inner hi k x hx)
      · cases hi
        rcases mem_set hx with hx | hx
        · cases hg : c.lookupMap.get? (h.msg a).context with
          | none => rw [hg] at hx; cases hx
          | some inner => rw [hg] at hx; exact .inl (ho _ _ (GoMap.mem_of_get? hg) k x hx)
        · cases hx; exact .inr rfl
    · trivial
    · refine ⟨trivial, ?_⟩
      have hv : view (added h (h.msg a) (applyCategories names c.categories (tr h (h.msg a)))) c = view h c :=
        view_eq ho fun x hx => g.value e x hx
      have hl := congrArg JsonCatalog.lookupMap hv
      have hval : (added h (h.msg a) (applyCategories names c.categories (tr h (h.msg a)))).value h.msgs.length =
          { h.value a with translations := some (applyCategories names c.categories (tr h (h.msg a))) } := by
        unfold Heap.value
        rw [msg_added]
        simp only [Option.map_some, map_added]
      unfold view at hl ⊢
      simp only at hl ⊢
      rw [map_set, hl]
      congr 2
      rw [map_set, hval]
      congr 1
      generalize added h (h.msg a) (applyCategories names c.categories (tr h (h.msg a))) = h' at hl
      rw [← hl, GoMap.get?_map]
      cases c.lookupMap.get? (h.msg a).context <;> rfl

theorem setAll_grows (names : List Int) : ∀ (l : GoMap Bytes (Option Nat)) {PM PT : Nat → Prop} {h : Heap} (_ : Good PM PT h)
    {c : Cat} (_ : Owns PM c) (_ : other ∈ c.categories) (_ : ∀ k a, (k, some a) ∈ l → a < h.msgs.length),
    ∃ PM' PT', Grows PM PT h PM' PT' (c.setAll names h l).1 ∧ Owns PM' (c.setAll names h l).2.1 ∧
      (c.setAll names h l).2.1.categories = c.categories ∧
      match (view h c).setAll names (l.map fun p => (p.1, p.2.map h.value)) with
      | .error e => (c.setAll names h l).2.2 = some e
      | .ok d => (c.setAll names h l).2.2 = none ∧ view (c.setAll names h l).1 (c.setAll names h l).2.1 = d
  | [], PM, PT, h, g, c, ho, hc, hl => ⟨PM, PT, .refl g, ho, rfl, rfl, rfl⟩
  | (key, src) :: rest, PM, PT, h, g, c, ho, hc, hl => by
    obtain ⟨PM1, PT1, k1, o1, c1, v1⟩ := setMessage_grows g names ho hc key src
    simp only [List.map_cons, Cat.setAll, JsonCatalog.setAll]
    generalize hr : c.setMessage names h key src = r at k1 o1 c1 v1
    obtain ⟨h1, d, err⟩ := r
    simp only at k1 o1 c1 v1
    cases hp : (view h c).setMessage names key (src.map h.value) with
    | error e =>
      rw [hp] at v1
      simp only [Prod.mk.injEq] at v1
      obtain ⟨rfl, rfl⟩ := v1
      exact ⟨PM1, PT1, k1, o1, rfl, rfl⟩
    | ok v =>
      rw [hp] at v1
      simp only at v1
      obtain ⟨rfl, rfl⟩ := v1
      have hl' : ∀ k a, (k, some a) ∈ rest → a < h1.msgs.length := fun k a ha =>
        Nat.lt_of_lt_of_le (hl k a (List.mem_cons_of_mem _ ha)) k1.ext.msgs.length_le
      obtain ⟨PM2, PT2, k2, o2, c2, v2⟩ := setAll_grows names rest k1.good o1 (by rw [c1]; exact hc) hl'
      refine ⟨PM2, PT2, k1.trans k2, o2, c2.trans c1, ?_⟩
      have : (rest.map fun p => (p.1, p.2.map h1.value)) = rest.map fun p => (p.1, p.2.map h.value) := by
        apply List.map_congr_left
        rintro ⟨k, x⟩ hx
        cases x with
        | none => rfl
        | some a =>
          have ha := hl k a (List.mem_cons_of_mem _ hx)
          simp only [Option.map_some, k1.ext.value ha (g.valid ha)]
      rw [this] at v2
      exact v2

/-! ## Copies -/

/-- The messages of a map of messages. -/
def readFile (h : Heap) (f : GoMap Bytes (Option Nat)) : GoMap Bytes (Option JsonMessage) :=
  f.map fun p => (p.1, p.2.map h.value)

theorem value_clone (h : Heap) (a : Nat) : (clone h (h.msg a)).1.value h.msgs.length = h.value a := by
  cases hm : (h.msg a).translations with
  | none =>
    rw [clone_none h hm]
    have : (h.newMsg (h.msg a)).1.msg h.msgs.length = h.msg a := by unfold Heap.msg Heap.newMsg; simp
    unfold Heap.value
    rw [this, hm]; rfl
  | some t =>
    rw [clone_some h hm]
    unfold Heap.value
    rw [msg_added, hm]
    simp only [Option.map_some, map_added]

theorem readFile_ext {PM PT : Nat → Prop} {h h' : Heap} (g : Good PM PT h) (e : Extends h h') {f : GoMap Bytes (Option Nat)}
    (hf : ∀ k a, (k, some a) ∈ f → a < h.msgs.length) : readFile h' f = readFile h f := by
  unfold readFile
  apply List.map_congr_left
  rintro ⟨k, x⟩ hx
  cases x with
  | none => rfl
  | some a => simp only [Option.map_some, e.value (hf k a hx) (g.valid (hf k a hx))]

/-- The copies are outside of the catalogs. -/
def Outside (PM : Nat → Prop) (h : Heap) (f : GoMap Bytes (Option Nat)) : Prop := ∀ k a, (k, some a) ∈ f → ¬ PM a ∧ a < h.msgs.length

theorem copyInner_grows {PM PT : Nat → Prop} : ∀ (inner : GoMap Bytes Nat) {h : Heap} (_ : Good PM PT h)
    {cpy : GoMap Bytes (Option Nat)} (_ : Outside PM h cpy) (_ : ∀ k a, (k, a) ∈ inner → PM a),
    Grows PM PT h PM PT (copyInner h cpy inner).1 ∧ Outside PM (copyInner h cpy inner).1 (copyInner h cpy inner).2 ∧
    (copyInner h cpy inner).1.files = h.files ∧
    readFile (copyInner h cpy inner).1 (copyInner h cpy inner).2 =
      (inner.map fun q => (q.1, h.value q.2)).foldl (fun m p => m.set p.1 (some p.2)) (readFile h cpy)
  | [], h, g, cpy, hc, hi => ⟨.refl g, hc, rfl, rfl⟩
  | (key, a) :: rest, h, g, cpy, hc, hi => by
    obtain ⟨g1, e1, l1, n1⟩ := g.clone (h.msg a)
    have k1 : Grows PM PT h PM PT (clone h (h.msg a)).1 := ⟨g1, e1, fun _ _ => .rfl, fun _ _ => .rfl⟩
    have hc1 : Outside PM (clone h (h.msg a)).1 (cpy.set key (some (clone h (h.msg a)).2)) := by
      intro k x hx
      rcases mem_set hx with hx | hx
      · have := hc k x hx
        exact ⟨this.1, by omega⟩
      · simp only [Prod.mk.injEq, Option.some.injEq] at hx
        obtain ⟨rfl, rfl⟩ := hx
        rw [clone_addr]
        exact ⟨n1, by omega⟩
    obtain ⟨k2, o2, f2, v2⟩ := copyInner_grows rest g1 hc1 fun k x hx => hi k x (List.mem_cons_of_mem _ hx)
    have ff : (clone h (h.msg a)).1.files = h.files := by
      cases hm : (h.msg a).translations with
      | none => rw [clone_none h hm]; rfl
      | some t => rw [clone_some h hm]; rfl
    simp only [Heap.copyInner]
    refine ⟨k1.trans k2, o2, f2.trans ff, ?_⟩
    rw [v2, List.map_cons, List.foldl_cons]
    have r1 : readFile (clone h (h.msg a)).1 (cpy.set key (some (clone h (h.msg a)).2)) =
        (readFile h cpy).set key (some (h.value a)) := by
      rw [← readFile_ext g e1 fun k x hx => (hc k x hx).2]
      unfold readFile
      rw [map_set (Option.map (clone h (h.msg a)).1.value), Option.map_some, clone_addr, value_clone]
    rw [r1]
    congr 1
    apply List.map_congr_left
    rintro ⟨k, x⟩ hx
    simp only [g.value e1 x (hi k x (List.mem_cons_of_mem _ hx))]

theorem foldl_some (l : GoMap Bytes JsonMessage) : ∀ (m : GoMap Bytes JsonMessage),
    l.foldl (fun m p => GoMap.set m p.1 (some p.2)) (m.map fun p => (p.1, some p.2)) =
      (l.foldl (fun m p => m.set p.1 p.2) m).map fun p => (p.1, some p.2) := by
  induction l with
  | nil => intro m; rfl
  | cons p l ih =>
    intro m
    simp only [List.foldl_cons]
    rw [← ih, map_set]

theorem copyAll_grows {PM PT : Nat → Prop} : ∀ (l : GoMap Bytes (GoMap Bytes Nat)) {h : Heap} (_ : Good PM PT h)
    {cpy : GoMap Bytes (Option Nat)} (_ : Outside PM h cpy) (_ : ∀ ctx inner, (ctx, inner) ∈ l → ∀ k a, (k, a) ∈ inner → PM a)
    (m : GoMap Bytes JsonMessage) (_ : readFile h cpy = m.map fun p => (p.1, some p.2)),
    Grows PM PT h PM PT (copyAll h cpy l).1 ∧ Outside PM (copyAll h cpy l).1 (copyAll h cpy l).2 ∧
    (copyAll h cpy l).1.files = h.files ∧
    readFile (copyAll h cpy l).1 (copyAll h cpy l).2 =
      (flatten m (l.map fun p => (p.1, p.2.map fun q => (q.1, h.value q.2)))).map fun p => (p.1, some p.2)
  | [], h, g, cpy, hc, hi, m, hm => ⟨.refl g, hc, rfl, hm⟩
  | (ctx, inner) :: rest, h, g, cpy, hc, hi, m, hm => by
    obtain ⟨k1, o1, f1, v1⟩ := copyInner_grows inner g hc (hi ctx inner List.mem_cons_self)
    rw [hm, foldl_some] at v1
    obtain ⟨k2, o2, f2, v2⟩ := copyAll_grows rest k1.good o1 (fun c i hx => hi c i (List.mem_cons_of_mem _ hx)) _ v1
    simp only [copyAll]
    refine ⟨k1.trans k2, o2, f2.trans f1, ?_⟩
    rw [v2, List.map_cons, flatten]
    congr 2
    apply List.map_congr_left
    rintro ⟨c, i⟩ hx
    congr 1
    apply List.map_congr_left
    rintro ⟨k, x⟩ hy
    simp only [g.value k1.ext x (hi c i (List.mem_cons_of_mem _ hx) k x hy)]

/-- A new map of messages. -/
theorem Good.newFile {PM PT : Nat → Prop} {h : Heap} (g : Good PM PT h) {f : GoMap Bytes (Option Nat)} (hf : Outside PM h f) :
    Good PM PT (h.newFile f).1 := by
  refine ⟨g.own, g.lt, g.msgs, ?_⟩
  intro x hx k a hk
  rcases List.mem_append.1 hx with hx | hx
  · exact g.files x hx k a hk
  · rw [List.mem_singleton.1 hx] at hk
    exact hf k a hk

theorem messages_grows {PM PT : Nat → Prop} {h : Heap} (g : Good PM PT h) {c : Cat} (ho : Owns PM c) :
    Grows PM PT h PM PT (c.messages h).1 ∧ (c.messages h).2 < (c.messages h).1.files.length ∧
    readFile (c.messages h).1 ((c.messages h).1.file (c.messages h).2) = (view h c).messages.map fun p => (p.1, some p.2) := by
  obtain ⟨k, o, f, v⟩ := copyAll_grows c.lookupMap (cpy := []) g (fun _ _ h => by cases h) ho [] rfl
  refine ⟨⟨k.good.newFile o, ⟨k.ext.maps, k.ext.msgs, k.ext.files.trans (List.prefix_append ..)⟩, fun _ _ => .rfl, fun _ _ => .rfl⟩, ?_, ?_⟩
  · simp [Cat.messages, Heap.newFile]
  · have : (c.messages h).1.file (c.messages h).2 = (copyAll h [] c.lookupMap).2 := by
      simp [Cat.messages, Heap.newFile, Heap.file]
    rw [this]
    exact v

/-! ## Writing a catalog -/

theorem touch_owned {PM PT : Nat → Prop} {h : Heap} (g : Good PM PT h) {a : Nat} (ha : PM a) : touch h a = h := by
  obtain ⟨_, t, h2, _, h4⟩ := g.own a ha
  unfold touch
  rw [h2]
  simp only [if_neg h4]

theorem marshalKeys_owned {PM PT : Nat → Prop} {h : Heap} (g : Good PM PT h) {m : GoMap Bytes Nat} (hm : ∀ k a, (k, a) ∈ m → PM a) :
    ∀ ks, marshalKeys m h ks = (h, marshalMembers (m.map fun p => (p.1, h.value p.2)) ks)
  | [] => rfl
  | k :: ks => by
    simp only [marshalKeys, marshalMembers, GoMap.get?_map]
    cases hg : m.get? k with
    | none => simp
    | some a =>
      have ha := touch_owned g (hm k a (GoMap.mem_of_get? hg))
      simp only [ha, marshalKeys_owned g hm ks, Option.map_some, Option.bind_some]
      cases (h.value a).marshal with
      | none => rfl
      | some j =>
        cases marshalMembers (m.map fun p => (p.1, h.value p.2)) ks <;> rfl

theorem foldl_collect {PM : Nat → Prop} (f : Nat → JsonMessage) : ∀ (inner m : GoMap Bytes Nat), (∀ k a, (k, a) ∈ inner → PM a) →
    (∀ k a, (k, a) ∈ m → PM a) →
    (∀ k a, (k, a) ∈ inner.foldl (fun m p => m.set p.1 p.2) m → PM a) ∧
    (inner.foldl (fun m p => m.set p.1 p.2) m).map (fun p => (p.1, f p.2)) =
      (inner.map fun p => (p.1, f p.2)).foldl (fun m p => GoMap.set m p.1 p.2) (m.map fun p => (p.1, f p.2))
  | [], m, _, hm => ⟨hm, rfl⟩
  | (k, a) :: inner, m, hi, hm => by
    simp only [List.foldl_cons, List.map_cons]
    rw [← map_set]
    apply foldl_collect f inner _ (fun k a h => hi k a (List.mem_cons_of_mem _ h))
    intro k' a' h
    rcases mem_set h with h | h
    · exact hm k' a' h
    · cases h; exact hi k a List.mem_cons_self

theorem collect_view {PM : Nat → Prop} (f : Nat → JsonMessage) : ∀ (l : GoMap Bytes (GoMap Bytes Nat)) (m : GoMap Bytes Nat),
    (∀ ctx inner, (ctx, inner) ∈ l → ∀ k a, (k, a) ∈ inner → PM a) → (∀ k a, (k, a) ∈ m → PM a) →
    (∀ k a, (k, a) ∈ collect m l → PM a) ∧ (collect m l).map (fun p => (p.1, f p.2)) =
      flatten (m.map fun p => (p.1, f p.2)) (l.map fun p => (p.1, p.2.map fun q => (q.1, f q.2)))
  | [], m, _, hm => ⟨hm, rfl⟩
  | (c, inner) :: l, m, hl, hm => by
    obtain ⟨h1, h2⟩ := foldl_collect f inner m (hl c inner List.mem_cons_self) hm
    simp only [collect, List.map_cons, flatten]
    rw [← h2]
    exact collect_view f l _ (fun c i h => hl c i (List.mem_cons_of_mem _ h)) h1

theorem marshal_view {PM PT : Nat → Prop} {h : Heap} (g : Good PM PT h) {c : Cat} (ho : Owns PM c) :
    c.marshal h = (h, (view h c).marshal) := by
  obtain ⟨h1, h2⟩ := collect_view (PM := PM) h.value c.lookupMap [] ho (fun _ _ h => by cases h)
  unfold Cat.marshal JsonCatalog.marshal
  have h3 : flatten [] (view h c).lookupMap = (collect [] c.lookupMap).map fun p => (p.1, h.value p.2) := h2.symm
  simp only [marshalKeys_owned g h1, h3, GoMap.keys_map]

/-! ## Reading a catalog -/

theorem load_eq (h : Heap) (m : JsonMessage) : h.load m = (match m.translations with
    | none => (h.newMsg ⟨m.comment, m.context, none⟩).1
    | some t => added h ⟨m.comment, m.context, none⟩ t, h.msgs.length) := by
  unfold Heap.load
  cases m.translations <;> rfl

theorem load_grows {PM PT : Nat → Prop} {h : Heap} (g : Good PM PT h) (m : JsonMessage) :
    Grows PM PT h PM PT (h.load m).1 ∧ (h.load m).2 < (h.load m).1.msgs.length ∧ (h.load m).1.value (h.load m).2 = m := by
  rw [load_eq]
  obtain ⟨cm, cx, t⟩ := m
  cases t with
  | none =>
    refine ⟨⟨g.newMsg (by simp), extends_newMsg .., fun _ _ => .rfl, fun _ _ => .rfl⟩, by simp [Heap.newMsg], ?_⟩
    simp [Heap.value, Heap.msg, Heap.newMsg]
  | some t =>
    refine ⟨⟨g.added _ _, extends_added .., fun _ _ => .rfl, fun _ _ => .rfl⟩, by simp [added], ?_⟩
    simp only [Heap.value, msg_added, Option.map_some, map_added]

theorem loadAll_grows {PM PT : Nat → Prop} : ∀ (l : GoMap Bytes (Option JsonMessage)) {h : Heap} (_ : Good PM PT h),
    Grows PM PT h PM PT (h.loadAll l).1 ∧ (∀ k a, (k, some a) ∈ (h.loadAll l).2 → a < (h.loadAll l).1.msgs.length) ∧
    readFile (h.loadAll l).1 (h.loadAll l).2 = l
  | [], h, g => ⟨.refl g, (by intro k a h; cases h), rfl⟩
  | (k, none) :: rest, h, g => by
    obtain ⟨k1, v1, r1⟩ := loadAll_grows rest g
    simp only [Heap.loadAll]
    refine ⟨k1, ?_, ?_⟩
    · intro k a hx
      rcases List.mem_cons.1 hx with hx | hx
      · simp at hx
      · exact v1 k a hx
    · unfold readFile at r1 ⊢
      rw [List.map_cons, r1]; rfl
  | (k, some m) :: rest, h, g => by
    obtain ⟨k0, l0, v0⟩ := load_grows g m
    obtain ⟨k1, v1, r1⟩ := loadAll_grows rest k0.good
    simp only [Heap.loadAll]
    refine ⟨k0.trans k1, ?_, ?_⟩
    · intro k a hx
      rcases List.mem_cons.1 hx with hx | hx
      · simp only [Prod.mk.injEq, Option.some.injEq] at hx
        obtain ⟨rfl, rfl⟩ := hx
        exact Nat.lt_of_lt_of_le l0 k1.ext.msgs.length_le
      · exact v1 k a hx
    · unfold readFile at r1 ⊢
      rw [List.map_cons, r1]
      simp only [Option.map_some, k1.ext.value l0 (k0.good.valid l0), v0]

theorem unmarshal_grows {PM PT : Nat → Prop} {h : Heap} (g : Good PM PT h) (names : List Int) (lower : Char → Char)
    (order : GoMap Bytes Bytes → GoMap Bytes Bytes)
    (fileOrder : GoMap Bytes (Option JsonMessage) → GoMap Bytes (Option JsonMessage)) (data : Json) {c : Cat} (ho : Owns PM c)
    (hc : other ∈ c.categories) :
    ∃ PM' PT', Grows PM PT h PM' PT' (c.unmarshal names lower order fileOrder h data).1 ∧
      Owns PM' (c.unmarshal names lower order fileOrder h data).2.1 ∧
      (c.unmarshal names lower order fileOrder h data).2.1.categories = c.categories ∧
      match (view h c).unmarshal names lower order fileOrder data with
      | .error e => (c.unmarshal names lower order fileOrder h data).2.2 = some e
      | .ok d => (c.unmarshal names lower order fileOrder h data).2.2 = none ∧
          view (c.unmarshal names lower order fileOrder h data).1 (c.unmarshal names lower order fileOrder h data).2.1 = d := by
  unfold Cat.unmarshal JsonCatalog.unmarshal
  cases data with
  | null => exact ⟨PM, PT, .refl g, ho, rfl, rfl⟩
  | str s => exact ⟨PM, PT, .refl g, ho, rfl, rfl⟩
  | other => exact ⟨PM, PT, .refl g, ho, rfl, rfl⟩
  | obj fields =>
    simp only []
    cases decodeFile lower order [] fields with
    | none => exact ⟨PM, PT, .refl g, ho, rfl, rfl⟩
    | some file =>
      cases file with
      | nil => exact ⟨PM, PT, .refl g, ho, rfl, rfl⟩
      | cons p file =>
        simp only []
        obtain ⟨k1, v1, r1⟩ := loadAll_grows (fileOrder (p :: file)) g
        obtain ⟨PM2, PT2, k2, o2, c2, v2⟩ := setAll_grows names (h.loadAll (fileOrder (p :: file))).2 k1.good ho hc v1
        refine ⟨PM2, PT2, k1.trans k2, o2, c2, ?_⟩
        unfold readFile at r1
        rw [r1, view_eq ho fun a ha => g.value k1.ext a ha] at v2
        exact v2

end Verif.Proofs.Catalog.Heap
