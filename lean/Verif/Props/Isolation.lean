import Verif.Proofs.Catalog.Heap
import Verif.Props.Json
/-!
# C104: a JSON catalog cannot be changed from outside
-/
namespace Verif.Props.Isolation
open Verif.Go Verif.Model.Po Verif.Model.Catalog Verif.Model.Catalog.Heap Verif.Spec.Program Verif.Proofs.Catalog.Heap

/-! ## Lookups read the view -/

theorem getTranslation_view (h : Heap) (c : Cat) (ctx key : Bytes) (cat : Int) :
    c.getTranslation h ctx key cat = (view h c).getTranslation ctx key cat := by
  unfold Cat.getTranslation JsonCatalog.getTranslation view
  simp only [GoMap.get?_map (fun p : GoMap Bytes Nat => p.map fun q => (q.1, h.value q.2))]
  cases c.lookupMap.get? ctx with
  | none => rfl
  | some inner =>
    simp only [Option.map_some, GoMap.get?_map]
    cases inner.get? (if ctx ≠ [] then key ++ b!"_" ++ ctx else key) with
    | none => rfl
    | some a =>
      simp only [Option.map_some, Heap.value, JsonMessage.tr]
      cases (h.msg a).translations <;> rfl

/-- Lookups in memory are lookups in what the catalog stands for. -/
theorem C104_lookup (h : Heap) (c : Cat) (ctx id : Bytes) : c.lookup h ctx id = (view h c).lookup ctx id ∧
    ∀ n, c.lookupPlural h ctx id n = (view h c).lookupPlural ctx id n := by
  unfold Cat.lookup JsonCatalog.lookup Cat.lookupPlural JsonCatalog.lookupPlural
  simp only [getTranslation_view]
  exact ⟨rfl, fun n => rfl⟩

/-! ## The invariant -/

/-- Everything that the program has is outside of the catalogs. -/
structure Inv (PM PT : Nat → Prop) (s : State) : Prop where
  good : Good PM PT s.heap
  maps : ∀ t ∈ s.maps, ¬ PT t ∧ t < s.heap.maps.length
  msgs : ∀ a ∈ s.msgs, ¬ PM a ∧ a < s.heap.msgs.length
  cats : ∀ c ∈ s.cats, Owns PM c ∧ other ∈ c.categories

theorem Inv.grows {PM PT PM' PT' : Nat → Prop} {s : State} (i : Inv PM PT s) {h' : Heap} (k : Grows PM PT s.heap PM' PT' h') :
    Inv PM' PT' { s with heap := h' } :=
  ⟨k.good,
    fun t ht => ⟨fun hp => (i.maps t ht).1 ((k.maps t (i.maps t ht).2).1 hp), Nat.lt_of_lt_of_le (i.maps t ht).2 k.ext.maps.length_le⟩,
    fun a ha => ⟨fun hp => (i.msgs a ha).1 ((k.msgs a (i.msgs a ha).2).1 hp), Nat.lt_of_lt_of_le (i.msgs a ha).2 k.ext.msgs.length_le⟩,
    fun c hc => ⟨(i.cats c hc).1.grows i.good k, (i.cats c hc).2⟩⟩

/-- The catalogs are as before. -/
def Same (s s' : State) : Prop := ∀ (i : Nat) (c : Cat), s.cats[i]? = some c → s'.cats[i]? = some c ∧ view s'.heap c = view s.heap c

theorem Inv.same_grows {PM PT PM' PT' : Nat → Prop} {s : State} (i : Inv PM PT s) {h' : Heap} (k : Grows PM PT s.heap PM' PT' h')
    {s' : State} (hh : s'.heap = h') (hc : s.cats <+: s'.cats) : Same s s' := by
  intro n c hn
  have hm := List.mem_of_getElem? hn
  refine ⟨?_, ?_⟩
  · rw [getElem?_prefix hc (List.getElem?_eq_some_iff.1 hn).1]; exact hn
  · rw [hh]
    exact view_eq (i.cats c hm).1 fun a ha => i.good.value k.ext a ha

theorem setMap_other {h : Heap} {t u : Nat} {m : GoMap Int Bytes} (hne : u ≠ t) : (h.setMap t m).map u = h.map u := by
  unfold Heap.map Heap.setMap
  simp only [List.getElem?_set_ne (Ne.symm hne)]

theorem setMsg_other {h : Heap} {a b : Nat} {m : Msg} (hne : b ≠ a) : (h.setMsg a m).msg b = h.msg b := by
  unfold Heap.msg Heap.setMsg
  simp only [List.getElem?_set_ne (Ne.symm hne)]

/-- Writing to a map outside of the catalogs. -/
theorem Good.setMap {PM PT : Nat → Prop} {h : Heap} (g : Good PM PT h) {t : Nat} (ht : ¬ PT t) (m : GoMap Int Bytes) :
    Good PM PT (h.setMap t m) ∧ ∀ a, PM a → (h.setMap t m).value a = h.value a := by
  have hne : ∀ u, PT u → u ≠ t := fun u hu e => ht (e ▸ hu)
  refine ⟨⟨?_, ?_, ?_, g.files⟩, ?_⟩
  · intro a ha
    obtain ⟨h1, u, h2, h3, h4⟩ := g.own a ha
    exact ⟨h1, u, h2, h3, by rw [setMap_other (hne u h3)]; exact h4⟩
  · intro u hu; have := g.lt u hu; simpa [Heap.setMap] using this
  · intro a ha hp u hu
    have := g.msgs a ha hp u hu
    simpa [Heap.setMap] using this
  · intro a ha
    obtain ⟨h1, u, h2, h3, h4⟩ := g.own a ha
    unfold Heap.value
    have : (h.setMap t m).msg a = h.msg a := rfl
    rw [this, h2]
    simp only [Option.map_some, setMap_other (hne u h3)]

theorem Inv.setMap {PM PT : Nat → Prop} {s : State} (i : Inv PM PT s) {t : Nat} (ht : ¬ PT t) (m : GoMap Int Bytes) :
    Inv PM PT { s with heap := s.heap.setMap t m } ∧ Same s { s with heap := s.heap.setMap t m } := by
  obtain ⟨g, v⟩ := Good.setMap i.good ht m
  refine ⟨⟨g, ?_, i.msgs, i.cats⟩, fun n c hn => ⟨hn, view_eq (i.cats c (List.mem_of_getElem? hn)).1 v⟩⟩
  intro u hu
  have := i.maps u hu
  simpa [Heap.setMap] using this

theorem Inv.step {PM PT : Nat → Prop} {s : State} (i : Inv PM PT s) (op : Op) (hcan : s.Can op) :
    (∃ PM' PT', Inv PM' PT' (s.exec op)) ∧
    ∀ n c, s.cats[n]? = some c → ¬ op.Fills n → (s.exec op).cats[n]? = some c ∧ view (s.exec op).heap c = view s.heap c := by
  have fin : ∀ {s' : State}, (∃ PM' PT', Inv PM' PT' s') → Same s s' → (∃ PM' PT', Inv PM' PT' s') ∧
      ∀ n c, s.cats[n]? = some c → ¬ op.Fills n → s'.cats[n]? = some c ∧ view s'.heap c = view s.heap c :=
    fun h1 h2 => ⟨h1, fun n c hn _ => h2 n c hn⟩
  cases op with
  | makeMap m =>
    have k : Grows PM PT s.heap PM PT (s.heap.newMap m).1 := by
      have e : Extends s.heap (s.heap.newMap m).1 := ⟨List.prefix_append .., List.prefix_rfl, List.prefix_rfl⟩
      refine ⟨⟨?_, ?_, ?_, i.good.files⟩, e, fun _ _ => .rfl, fun _ _ => .rfl⟩
      · intro a ha
        obtain ⟨h1, u, h2, h3, h4⟩ := i.good.own a ha
        exact ⟨h1, u, h2, h3, by rw [e.map (i.good.lt u h3)]; exact h4⟩
      · intro u hu; have := i.good.lt u hu; simp [Heap.newMap]; omega
      · intro a ha hp u hu
        have := i.good.msgs a ha hp u hu
        refine ⟨this.1, ?_⟩
        have := this.2
        simp [Heap.newMap]; omega
    have j := i.grows k
    refine fin ⟨PM, PT, j.good, ?_, j.msgs, j.cats⟩ (i.same_grows k rfl List.prefix_rfl)
    intro t ht
    rcases List.mem_cons.1 ht with rfl | ht
    · exact ⟨fun hp => by have := i.good.lt _ hp; simp [Heap.newMap] at this, by simp [State.exec, Heap.newMap]⟩
    · exact j.maps t ht
  | makeMsg m =>
    have k : Grows PM PT s.heap PM PT (s.heap.newMsg m).1 :=
      ⟨i.good.newMsg fun t ht => i.maps t (hcan t ht), extends_newMsg .., fun _ _ => .rfl, fun _ _ => .rfl⟩
    have j := i.grows k
    refine fin ⟨PM, PT, j.good, j.maps, ?_, j.cats⟩ (i.same_grows k rfl List.prefix_rfl)
    intro a ha
    rcases List.mem_cons.1 ha with rfl | ha
    · exact ⟨fun hp => by have := (i.good.own _ hp).1; simp [Heap.newMsg] at this, by simp [State.exec, Heap.newMsg]⟩
    · exact j.msgs a ha
  | makeFile f =>
    have k : Grows PM PT s.heap PM PT (s.heap.newFile f).1 :=
      ⟨i.good.newFile fun k a hk => i.msgs a (hcan k a hk), ⟨List.prefix_rfl, List.prefix_rfl, List.prefix_append ..⟩,
        fun _ _ => .rfl, fun _ _ => .rfl⟩
    have j := i.grows k
    exact fin ⟨PM, PT, j.good, j.maps, j.msgs, j.cats⟩ (i.same_grows k rfl List.prefix_rfl)
  | writeMap t m =>
    obtain ⟨j, k⟩ := i.setMap (i.maps t hcan).1 m
    exact fin ⟨PM, PT, j⟩ k
  | writeMsg a m =>
    have hp := i.msgs a hcan.1
    have hne : ∀ b, PM b → b ≠ a := fun b hb e => hp.1 (e ▸ hb)
    refine fin ⟨PM, PT, ⟨?_, i.good.lt, ?_, ?_⟩, i.maps, ?_, i.cats⟩ ?_
    · intro b hb
      obtain ⟨h1, u, h2, h3, h4⟩ := i.good.own b hb
      exact ⟨by simpa [State.exec, Heap.setMsg] using h1, u, by simp only [State.exec]; rw [setMsg_other (hne b hb)]; exact h2, h3, h4⟩
    · intro b hb hpb u hu
      simp only [State.exec] at hu hb ⊢
      by_cases e : b = a
      · subst e
        have : (s.heap.setMsg b m).msg b = m := by
          unfold Heap.msg Heap.setMsg
          simp [List.getElem?_set_self hp.2]
        rw [this] at hu
        exact i.maps u (hcan.2 u hu)
      · rw [setMsg_other e] at hu
        exact i.good.msgs b (by simpa [Heap.setMsg] using hb) hpb u hu
    · intro f hf k b hb
      have := i.good.files f hf k b hb
      simpa [State.exec, Heap.setMsg] using this
    · intro b hb
      have := i.msgs b hb
      simpa [State.exec, Heap.setMsg] using this
    · intro n c hn
      refine ⟨hn, view_eq (i.cats c (List.mem_of_getElem? hn)).1 fun b hb => ?_⟩
      unfold Heap.value
      simp only [State.exec]
      rw [setMsg_other (hne b hb)]; rfl
  | writeFile f m =>
    refine fin ⟨PM, PT, ⟨i.good.own, i.good.lt, i.good.msgs, ?_⟩, i.maps, i.msgs, i.cats⟩ fun n c hn => ⟨hn, rfl⟩
    intro x hx k a hk
    rcases List.mem_or_eq_of_mem_set hx with hx | rfl
    · exact i.good.files x hx k a hk
    · exact i.msgs a (hcan.2 k a hk)
  | readMsg a =>
    refine fin ⟨PM, PT, i.good, ?_, i.msgs, i.cats⟩ fun n c hn => ⟨hn, rfl⟩
    intro t ht
    rcases List.mem_append.1 ht with ht | ht
    · exact i.good.msgs a (i.msgs a hcan).2 (i.msgs a hcan).1 t (by simpa using ht)
    · exact i.maps t ht
  | readFile f =>
    refine fin ⟨PM, PT, i.good, i.maps, ?_, i.cats⟩ fun n c hn => ⟨hn, rfl⟩
    intro a ha
    rcases List.mem_append.1 ha with ha | ha
    · obtain ⟨⟨k, x⟩, hx, rfl⟩ := List.mem_filterMap.1 ha
      unfold Heap.file at hx
      cases hg : s.heap.files[f]? with
      | none => rw [hg] at hx; cases hx
      | some l =>
        rw [hg] at hx
        exact i.good.files l (List.mem_of_getElem? hg) k a hx
    · exact i.msgs a ha
  | clone a =>
    obtain ⟨g1, e1, l1, n1⟩ := i.good.clone (s.heap.msg a)
    have k : Grows PM PT s.heap PM PT (Heap.clone s.heap (s.heap.msg a)).1 := ⟨g1, e1, fun _ _ => .rfl, fun _ _ => .rfl⟩
    have j := i.grows k
    refine fin ⟨PM, PT, j.good, j.maps, ?_, j.cats⟩ (i.same_grows k rfl List.prefix_rfl)
    intro b hb
    rcases List.mem_cons.1 hb with rfl | hb
    · rw [clone_addr]
      exact ⟨n1, by simp only [State.exec]; omega⟩
    · exact j.msgs b hb
  | apply names lang a =>
    cases a with
    | none => exact fin ⟨PM, PT, i⟩ fun n c hn => ⟨hn, rfl⟩
    | some a =>
      have hp := i.msgs a (hcan a rfl)
      simp only [State.exec, applyPluralCategories]
      cases hm : (s.heap.msg a).translations with
      | none => exact fin ⟨PM, PT, i⟩ fun n c hn => ⟨hn, rfl⟩
      | some t =>
        obtain ⟨j, k⟩ := i.setMap (i.good.msgs a hp.2 hp.1 t hm).1 (applyCategories names (JsonCatalog.new lang []).categories (s.heap.map t))
        exact fin ⟨PM, PT, j⟩ k
  | marshalMsg a =>
    have hp := i.msgs a hcan
    simp only [State.exec, touch]
    cases hm : (s.heap.msg a).translations with
    | none => exact fin ⟨PM, PT, i⟩ fun n c hn => ⟨hn, rfl⟩
    | some t =>
      simp only []
      by_cases he : s.heap.map t = []
      · rw [if_pos he]
        obtain ⟨j, k⟩ := i.setMap (i.good.msgs a hp.2 hp.1 t hm).1 [(other, [])]
        exact fin ⟨PM, PT, j⟩ k
      · rw [if_neg he]
        exact fin ⟨PM, PT, i⟩ fun n c hn => ⟨hn, rfl⟩
  | newCatalog lang domain =>
    refine fin ⟨PM, PT, i.good, i.maps, i.msgs, ?_⟩ ?_
    · intro c hc
      rcases List.mem_append.1 hc with hc | hc
      · exact i.cats c hc
      · rw [List.mem_singleton.1 hc]
        exact ⟨(by intro _ _ h; cases h), (Json.new_categories lang domain).1⟩
    · exact i.same_grows (.refl i.good) rfl (List.prefix_append ..)
  | newWithMessages names lang domain f order =>
    have hl : ∀ k a, (k, some a) ∈ order → a < s.heap.msgs.length := by
      intro k a hk
      have hk := hcan.2.mem_iff.1 hk
      unfold Heap.file at hk
      cases hg : s.heap.files[f]? with
      | none => rw [hg] at hk; cases hk
      | some l => rw [hg] at hk; exact (i.good.files l (List.mem_of_getElem? hg) k a hk).2
    obtain ⟨PM1, PT1, k1, o1, c1, _⟩ := setAll_grows names order i.good (c := Cat.new lang domain)
      (fun _ _ h => by cases h) (Json.new_categories lang domain).1 hl
    have j := i.grows k1
    simp only [State.exec, Heap.newWithMessages]
    generalize (Cat.new lang domain).setAll names s.heap order = r at k1 o1 c1 j
    obtain ⟨h', c', err⟩ := r
    cases err with
    | some e => exact fin ⟨PM1, PT1, j⟩ (i.same_grows k1 rfl List.prefix_rfl)
    | none =>
      refine fin ⟨PM1, PT1, j.good, j.maps, j.msgs, ?_⟩ (i.same_grows k1 rfl (List.prefix_append ..))
      intro c hc
      rcases List.mem_append.1 hc with hc | hc
      · exact j.cats c hc
      · rw [List.mem_singleton.1 hc]
        refine ⟨o1, ?_⟩
        simp only at c1
        rw [c1]
        exact (Json.new_categories lang domain).1
  | messages n =>
    simp only [State.exec]
    cases hn : s.cats[n]? with
    | none => exact fin ⟨PM, PT, i⟩ fun n c hn => ⟨hn, rfl⟩
    | some c =>
      obtain ⟨k, _, _⟩ := messages_grows i.good (i.cats c (List.mem_of_getElem? hn)).1
      have j := i.grows k
      exact fin ⟨PM, PT, j.good, j.maps, j.msgs, j.cats⟩ (i.same_grows k rfl List.prefix_rfl)
  | marshal n =>
    simp only [State.exec]
    cases hn : s.cats[n]? with
    | none => exact fin ⟨PM, PT, i⟩ fun n c hn => ⟨hn, rfl⟩
    | some c =>
      simp only [marshal_view i.good (i.cats c (List.mem_of_getElem? hn)).1]
      exact ⟨⟨PM, PT, i⟩, fun n c hn _ => ⟨hn, trivial⟩⟩
  | unmarshal n names lower order fileOrder data =>
    simp only [State.exec]
    cases hn : s.cats[n]? with
    | none => exact fin ⟨PM, PT, i⟩ fun n c hn => ⟨hn, rfl⟩
    | some c =>
      have hc := i.cats c (List.mem_of_getElem? hn)
      obtain ⟨PM1, PT1, k1, o1, c1, _⟩ := unmarshal_grows i.good names lower order fileOrder data hc.1 hc.2
      have j := i.grows k1
      simp only []
      refine ⟨⟨PM1, PT1, j.good, j.maps, j.msgs, ?_⟩, ?_⟩
      · intro d hd
        rcases List.mem_or_eq_of_mem_set hd with hd | rfl
        · exact j.cats d hd
        · exact ⟨o1, by rw [c1]; exact hc.2⟩
      · intro m d hm hf
        have hne : n ≠ m := hf
        refine ⟨by simp only [List.getElem?_set_ne hne]; exact hm, ?_⟩
        exact view_eq (i.cats d (List.mem_of_getElem? hm)).1 fun a ha => i.good.value k1.ext a ha

theorem inv_init : Inv (fun _ => False) (fun _ => False) State.init :=
  ⟨⟨fun _ h => h.elim, fun _ h => h.elim, fun a ha => absurd ha (by simp [State.init]), (by intro f hf; cases hf)⟩,
    (by intro t ht; cases ht), (by intro a ha; cases ha), (by intro c hc; cases hc)⟩

theorem Inv.run {s s' : State} {ops : List Op} (r : Run s ops s') : ∀ {PM PT : Nat → Prop} (_ : Inv PM PT s),
    (∃ PM' PT', Inv PM' PT' s') ∧
    ∀ n c, s.cats[n]? = some c → (∀ op ∈ ops, ¬ op.Fills n) → s'.cats[n]? = some c ∧ view s'.heap c = view s.heap c := by
  induction r with
  | nil => intro PM PT i; exact ⟨⟨PM, PT, i⟩, fun n c hn _ => ⟨hn, rfl⟩⟩
  | cons hcan r ih =>
    intro PM PT i
    obtain ⟨⟨PM1, PT1, j⟩, h1⟩ := i.step _ hcan
    obtain ⟨h2, h3⟩ := ih j
    refine ⟨h2, fun n c hn hf => ?_⟩
    obtain ⟨g1, g2⟩ := h1 n c hn (hf _ List.mem_cons_self)
    obtain ⟨g3, g4⟩ := h3 n c g1 fun op ho => hf op (List.mem_cons_of_mem _ ho)
    exact ⟨g3, g4.trans g2⟩

/-- Whatever a program does, apart from filling the catalog with `UnmarshalJSON`: the catalog keeps what it stands for, and lookups
give the same answers. -/
theorem C104_isolated {s s' : State} {before after : List Op} (h : Run .init before s) (h' : Run s after s') (n : Nat) (c : Cat)
    (hn : s.cats[n]? = some c) (hf : ∀ op ∈ after, ¬ op.Fills n) :
    s'.cats[n]? = some c ∧ view s'.heap c = view s.heap c ∧ (∀ ctx id, c.lookup s'.heap ctx id = c.lookup s.heap ctx id) ∧
    ∀ ctx id n, c.lookupPlural s'.heap ctx id n = c.lookupPlural s.heap ctx id n := by
  obtain ⟨⟨PM, PT, i⟩, _⟩ := Inv.run h inv_init
  obtain ⟨h1, h2⟩ := (Inv.run h' i).2 n c hn hf
  refine ⟨h1, h2, ?_, ?_⟩
  · intro ctx id
    rw [(C104_lookup _ _ _ _).1, (C104_lookup _ _ _ _).1, h2]
  · intro ctx id n
    rw [(C104_lookup _ _ _ _).2, (C104_lookup _ _ _ _).2, h2]

/-- A program that makes a catalog from a message. -/
def create : List Op :=
  [.makeMap [(5, b!"x")], .makeMsg ⟨[], [], some 0⟩, .makeFile [(b!"k", some 0), (b!"l", some 0)],
    .newWithMessages categoryNames [("de", some "de")] b!"d" 0 [(b!"k", some 0), (b!"l", some 0)]]

/-- A program that changes the message, gets the messages of the catalog, and changes them. -/
def meddle : List Op :=
  [.writeMap 0 [(5, b!"y")], .writeMsg 0 ⟨[], b!"c", none⟩, .messages 0, .readFile 1, .readMsg 3, .writeMap 3 [(5, b!"z")],
    .readMsg 4, .writeMap 4 [], .marshalMsg 4, .marshal 0]

/-- The state after some operations. -/
def after (s : State) (ops : List Op) : State := ops.foldl (·.exec ·) s

example : ∃ s s' c, Run .init create s ∧ Run s meddle s' ∧ s.cats[0]? = some c ∧ (∀ op ∈ meddle, ¬ op.Fills 0) ∧
    c.lookup s.heap [] b!"k" = (b!"x", none) ∧ c.lookup s'.heap [] b!"k" = (b!"x", none) ∧
    s'.heap.map 0 = [(5, b!"y")] ∧ s'.heap.map 3 = [(5, b!"z")] ∧ s'.heap.map 4 = [(5, [])] := by
  refine ⟨after .init create, after (after .init create) meddle, _, ?_, ?_, rfl, ?_, rfl, rfl, rfl, rfl, rfl⟩
  · refine .cons trivial (.cons ?_ (.cons ?_ (.cons ⟨List.mem_cons_self, .refl _⟩ .nil)))
    · intro t ht; cases ht; exact List.mem_cons_self
    · intro k a ha
      simp only [List.mem_cons, Prod.mk.injEq, Option.some.injEq, List.not_mem_nil, or_false] at ha
      rcases ha with ⟨_, rfl⟩ | ⟨_, rfl⟩ <;> exact List.mem_cons_self
  · refine .cons ?_ (.cons ⟨?_, ?_⟩ (.cons ?_ (.cons ?_ (.cons ?_ (.cons ?_ (.cons ?_ (.cons ?_ (.cons ?_ (.cons ?_ .nil)))))))))
    · show 0 ∈ [0]; decide
    · show 0 ∈ [0]; decide
    · intro t ht; cases ht
    · exact Nat.zero_lt_one
    · show 1 ∈ [1, 0]; decide
    · show 3 ∈ [3, 4, 0]; decide
    · show 3 ∈ [3, 0]; decide
    · show 4 ∈ [3, 4, 0]; decide
    · show 4 ∈ [4, 3, 0]; decide
    · show 4 ∈ [3, 4, 0]; decide
    · exact Nat.zero_lt_one
  · intro op ho
    simp only [meddle, List.mem_cons, List.not_mem_nil, or_false] at ho
    rcases ho with rfl | rfl | rfl | rfl | rfl | rfl | rfl | rfl | rfl | rfl <;> exact id

/-- `NewJSONCatalogWithMessages`: the catalog has what the messages have at the time of the call, also if messages or maps are used
more than once; an error is that of the function on values. -/
theorem C104_new {s : State} {before : List Op} (h : Run .init before s) (names : List Int) (lang : Tag) (domain : Bytes) (f : Nat)
    (order : GoMap Bytes (Option Nat)) (hcan : s.Can (.newWithMessages names lang domain f order)) :
    match newJSONCatalogWithMessages names lang domain (order.map fun p => (p.1, p.2.map s.heap.value)) with
    | .error e => (Heap.newWithMessages names s.heap lang domain order).2 = .error e
    | .ok d => ∃ c, (Heap.newWithMessages names s.heap lang domain order).2 = .ok c ∧
        view (Heap.newWithMessages names s.heap lang domain order).1 c = d := by
  obtain ⟨⟨PM, PT, i⟩, _⟩ := Inv.run h inv_init
  have hl : ∀ k a, (k, some a) ∈ order → a < s.heap.msgs.length := by
    intro k a hk
    have hk := hcan.2.mem_iff.1 hk
    unfold Heap.file at hk
    cases hg : s.heap.files[f]? with
    | none => rw [hg] at hk; cases hk
    | some l => rw [hg] at hk; exact (i.good.files l (List.mem_of_getElem? hg) k a hk).2
  obtain ⟨PM1, PT1, k1, o1, c1, v1⟩ := setAll_grows names order i.good (c := Cat.new lang domain)
    (fun _ _ h => by cases h) (Json.new_categories lang domain).1 hl
  have hv : view s.heap (Cat.new lang domain) = JsonCatalog.new lang domain := by
    unfold view Cat.new JsonCatalog.new
    cases (Verif.Model.Cldr.forLanguage lang).1 <;> rfl
  rw [hv] at v1
  unfold newJSONCatalogWithMessages Heap.newWithMessages
  generalize (Cat.new lang domain).setAll names s.heap order = r at v1
  obtain ⟨h', c', err⟩ := r
  cases hp : (JsonCatalog.new lang domain).setAll names (order.map fun p => (p.1, p.2.map s.heap.value)) with
  | error e =>
    rw [hp] at v1
    simp only at v1
    rw [v1]
  | ok d =>
    rw [hp] at v1
    simp only at v1
    obtain ⟨rfl, rfl⟩ := v1
    exact ⟨c', rfl, rfl⟩

/-- `Messages` returns what the catalog stands for, and writing the catalog returns its JSON and leaves the memory as it is. -/
theorem C104_read {s : State} {before : List Op} (h : Run .init before s) (n : Nat) (c : Cat) (hn : s.cats[n]? = some c) :
    (c.messages s.heap).2 ∈ (s.exec (.messages n)).files ∧
    ((s.exec (.messages n)).heap.file (c.messages s.heap).2).map (fun p => (p.1, p.2.map (s.exec (.messages n)).heap.value)) =
      (view s.heap c).messages.map (fun p => (p.1, some p.2)) ∧
    c.marshal s.heap = (s.heap, (view s.heap c).marshal) := by
  obtain ⟨⟨PM, PT, i⟩, _⟩ := Inv.run h inv_init
  have hc := i.cats c (List.mem_of_getElem? hn)
  obtain ⟨_, _, v⟩ := messages_grows i.good hc.1
  simp only [State.exec, hn]
  exact ⟨List.mem_cons_self, v, marshal_view i.good hc.1⟩

/-- `UnmarshalJSON` without an error does to the catalog what the function on values does.  Missing for the full property: an error
leaves the catalog as it was (`C104_failed_fill_negation`). -/
theorem C104_fill_partial {s : State} {before : List Op} (h : Run .init before s) (n : Nat) (c : Cat) (hn : s.cats[n]? = some c)
    (names : List Int) (lower : Char → Char) (order : GoMap Bytes Bytes → GoMap Bytes Bytes)
    (fileOrder : GoMap Bytes (Option JsonMessage) → GoMap Bytes (Option JsonMessage)) (data : Json) :
    match (view s.heap c).unmarshal names lower order fileOrder data with
    | .error e => (c.unmarshal names lower order fileOrder s.heap data).2.2 = some e
    | .ok d => ∃ c', (s.exec (.unmarshal n names lower order fileOrder data)).cats[n]? = some c' ∧
        view (s.exec (.unmarshal n names lower order fileOrder data)).heap c' = d := by
  obtain ⟨⟨PM, PT, i⟩, _⟩ := Inv.run h inv_init
  have hc := i.cats c (List.mem_of_getElem? hn)
  obtain ⟨_, _, _, _, _, v⟩ := unmarshal_grows i.good names lower order fileOrder data hc.1 hc.2
  cases hp : (view s.heap c).unmarshal names lower order fileOrder data with
  | error e => rw [hp] at v; exact v
  | ok d =>
    rw [hp] at v
    simp only [State.exec, hn]
    refine ⟨_, ?_, v.2⟩
    rw [List.getElem?_set_self (List.getElem?_eq_some_iff.1 hn).1]

/-- `UnmarshalJSON` with an error is not without effect: what was set before the error stays in the catalog. -/
theorem C104_failed_fill_negation : ∃ (s : State) (c : Cat) (data : Json), Run .init [.newCatalog [("de", some "de")] b!"d"] s ∧
    s.cats[0]? = some c ∧ c.lookup s.heap [] b!"a" = (b!"a", some (.missingContext b!"d" [])) ∧
    (c.unmarshal categoryNames PoFile.asciiLower id id s.heap data).2.2 = some .emptyKey ∧
    (c.unmarshal categoryNames PoFile.asciiLower id id s.heap data).2.1.lookup (c.unmarshal categoryNames PoFile.asciiLower id id s.heap data).1
      [] b!"a" = (b!"x", none) :=
  ⟨_, _, .obj [(b!"a", .str b!"x"), ([], .str b!"y")], .cons trivial .nil, rfl, rfl, rfl, rfl⟩

end Verif.Props.Isolation
