import Verif.Spec.Walk
/-!
# Walking over the tree of a plural rule (C124)
-/
namespace Verif.Props.Walk
open Verif.Go Verif.Cldr Verif.Model.Cldr Verif.Model.Cldr.Walk Verif.Spec.Walk

/-! ## The calls -/

section
variable {V σ ε : Type} {visit : V → Tree → σ → Except ε (Option V × σ)}

/-- `Walk` for one tree after the other. -/
def walkAll (visit : V → Tree → σ → Except ε (Option V × σ)) (v : V) : List Tree → σ → Except ε σ
  | [], s => .ok s
  | n :: ns, s =>
    match walk visit v n s with
    | .error e => .error e
    | .ok s => walkAll visit v ns s

/-- `Walk` in terms of the children. -/
theorem walk_eq (v : V) (n : Tree) (s : σ) : walk visit v n s = around visit v n s fun w => walkAll visit w (children n) := by
  have two : ∀ (v : V) (x y : Tree) (s : σ), walkAll visit v [x, y] s = match walk visit v x s with
      | .error e => .error e
      | .ok s => walk visit v y s := by
    intro v x y s
    simp only [walkAll]
    cases walk visit v x s with
    | error e => rfl
    | ok t => simp only []; cases walk visit v y t <;> rfl
  have one : ∀ (v : V) (x : Tree) (s : σ), walkAll visit v [x] s = walk visit v x s := by
    intro v x s
    simp only [walkAll]
    cases walk visit v x s <;> rfl
  cases n with
  | rangeList x y =>
    show around _ _ _ _ _ = _
    congr 1
    funext w s
    show _ = walkAll visit w (if y = .nil then [x] else [x, y]) s
    by_cases hy : y = .nil
    · rw [if_pos hy, one]; simp only [if_pos hy]
      cases walk visit w x s <;> rfl
    · rw [if_neg hy, two]; simp only [if_neg hy]; rfl
  | modulo o k =>
    show around _ _ _ _ _ = _
    congr 1
    funext w s
    show _ = walkAll visit w [.operand o] s
    rw [one]; rfl
  | binary x op y =>
    show around _ _ _ _ _ = _
    congr 1
    funext w s
    show _ = walkAll visit w [x, y] s
    rw [two]; rfl
  | inRelation x op y =>
    show around _ _ _ _ _ = _
    congr 1
    funext w s
    show _ = walkAll visit w [x, y] s
    rw [two]; rfl
  | _ => rfl

theorem answers_append {a b : List (V × Tree × Option V)} : ∀ {s s' : σ}, Answers visit (a ++ b) s s' ↔
    ∃ t, Answers visit a s t ∧ Answers visit b t s' := by
  induction a with
  | nil => intro s s'; simp [Answers]
  | cons x a ih =>
    intro s s'
    obtain ⟨v, n, c⟩ := x
    simp only [List.cons_append, Answers, ih]
    constructor
    · rintro ⟨t, h, u, h1, h2⟩; exact ⟨u, ⟨t, h, h1⟩, h2⟩
    · rintro ⟨u, ⟨t, h, h1⟩, h2⟩; exact ⟨t, h, u, h1, h2⟩

/-- How far a node is from the leaves, at most. -/
def rank : Tree → Nat
  | .rangeList x y => rank x + rank y + 1
  | .binary x _ y => rank x + rank y + 1
  | .inRelation x _ y => rank x + rank y + 1
  | .modulo _ _ => 1
  | _ => 0

theorem rank_children {n c : Tree} (h : c ∈ children n) : rank c < rank n := by
  cases n with
  | rangeList x y =>
    have h : c ∈ if y = .nil then [x] else [x, y] := h
    have : c = x ∨ c = y := by
      split at h
      · exact .inl (List.mem_singleton.mp h)
      · simpa using h
    rcases this with rfl | rfl <;> simp only [rank] <;> omega
  | modulo o k => simp [children] at h; subst h; simp [rank]
  | binary x op y => simp [children] at h; rcases h with rfl | rfl <;> simp only [rank] <;> omega
  | inRelation x op y => simp [children] at h; rcases h with rfl | rfl <;> simp only [rank] <;> omega
  | _ => simp [children] at h

/-- A walk that stops with an error at a call. -/
def Stops (visit : V → Tree → σ → Except ε (Option V × σ)) (P : List (V × Tree × Option V) → Prop) (s : σ) (e : ε) : Prop :=
  ∃ calls v m r rest t, P (calls ++ (v, m, r) :: rest) ∧ Answers visit calls s t ∧ visit v m t = .error e

/-- A walk is one of the sequences of `Trace`, or stops within one. -/
def Good (visit : V → Tree → σ → Except ε (Option V × σ)) (P : List (V × Tree × Option V) → Prop) (s : σ) : Except ε σ → Prop
  | .ok s' => ∃ calls, P calls ∧ Answers visit calls s s'
  | .error e => Stops visit P s e

theorem traces_some (v : V) : ∀ ns : List Tree, ∃ c, Traces v ns c
  | [] => ⟨_, .nil v⟩
  | n :: ns => by obtain ⟨c, h⟩ := traces_some v ns; exact ⟨_, .cons (.skipped v n) h⟩

theorem all_of {v : V} {ns : List Tree} (ih : ∀ n ∈ ns, ∀ s : σ, Good visit (Trace v n) s (walk visit v n s)) :
    ∀ s : σ, Good visit (Traces v ns) s (walkAll visit v ns s) := by
  induction ns with
  | nil => intro s; exact ⟨[], .nil v, rfl⟩
  | cons n ns ihs =>
    intro s
    have h := ih n List.mem_cons_self s
    unfold walkAll
    cases hn : walk visit v n s with
    | error e =>
      rw [hn] at h
      obtain ⟨calls, u, m, r, rest, t, h1, h2, h3⟩ := h
      obtain ⟨c, hc⟩ := traces_some v ns
      refine ⟨calls, u, m, r, rest ++ c, t, ?_, h2, h3⟩
      have := Traces.cons h1 hc
      simpa using this
    | ok t =>
      rw [hn] at h
      obtain ⟨calls, h1, h2⟩ := h
      have h' := ihs (fun x hx => ih x (List.mem_cons_of_mem _ hx)) t
      simp only []
      cases hs : walkAll visit v ns t with
      | error e =>
        rw [hs] at h'
        obtain ⟨calls', u, m, r, rest, t', g1, g2, g3⟩ := h'
        refine ⟨calls ++ calls', u, m, r, rest, t', ?_, answers_append.mpr ⟨t, h2, g2⟩, g3⟩
        rw [List.append_assoc]
        exact .cons h1 g1
      | ok s' =>
        rw [hs] at h'
        obtain ⟨calls', g1, g2⟩ := h'
        exact ⟨_, .cons h1 g1, answers_append.mpr ⟨t, h2, g2⟩⟩

theorem walk_step (v : V) (n : Tree) (s : σ)
    (ih : ∀ c ∈ children n, ∀ (w : V) (s : σ), Good visit (Trace w c) s (walk visit w c s)) :
    Good visit (Trace v n) s (walk visit v n s) := by
  rw [walk_eq]
  unfold around
  cases hn : visit v n s with
  | error e => exact ⟨[], v, n, none, [], s, .skipped v n, rfl, hn⟩
  | ok r =>
    obtain ⟨b, t⟩ := r
    cases b with
    | none => exact ⟨_, .skipped v n, t, hn, rfl⟩
    | some w =>
      have h := all_of (fun c hc => ih c hc w) t
      simp only []
      cases hc : walkAll visit w (children n) t with
      | error e =>
        rw [hc] at h
        obtain ⟨calls, u, m, b, rest, t', h1, h2, h3⟩ := h
        refine ⟨(v, n, some w) :: calls, u, m, b, rest ++ [(w, .nil, none)], t', ?_, ⟨t, hn, h2⟩, h3⟩
        have := Trace.entered (v := v) none h1
        simpa using this
      | ok u =>
        rw [hc] at h
        obtain ⟨calls, h1, h2⟩ := h
        simp only []
        cases hl : visit w .nil u with
        | error e =>
          exact ⟨(v, n, some w) :: calls, w, .nil, none, [], u, .entered none h1, ⟨t, hn, h2⟩, hl⟩
        | ok r =>
          obtain ⟨b, x⟩ := r
          exact ⟨_, .entered b h1, t, hn, answers_append.mpr ⟨u, h2, x, hl, rfl⟩⟩

theorem walk_spec : ∀ (k : Nat) (n : Tree), rank n ≤ k → ∀ (v : V) (s : σ), Good visit (Trace v n) s (walk visit v n s) := by
  intro k
  induction k with
  | zero => exact fun n hn v s => walk_step v n s fun c hc => absurd (rank_children hc) (by omega)
  | succ k ih => exact fun n hn v s => walk_step v n s fun c hc => ih c (by have := rank_children hc; omega)

mutual
theorem trace_walk : ∀ {v : V} {n : Tree} {calls : List (V × Tree × Option V)}, Trace v n calls →
    ∀ {s s' : σ}, Answers visit calls s s' → walk visit v n s = .ok s'
  | _, _, _, .skipped v n, s, s', ha => by
    obtain ⟨t, h1, h2⟩ := ha
    cases h2
    rw [walk_eq, around, h1]
  | _, _, _, .entered r hc, s, s', ha => by
    obtain ⟨t, h1, h2⟩ := ha
    obtain ⟨u, h3, w, h4, h5⟩ := answers_append.mp h2
    cases h5
    rw [walk_eq, around, h1]
    simp only [traces_walk hc h3, h4]
theorem traces_walk : ∀ {v : V} {ns : List Tree} {calls : List (V × Tree × Option V)}, Traces v ns calls →
    ∀ {s s' : σ}, Answers visit calls s s' → walkAll visit v ns s = .ok s'
  | _, _, _, .nil v, s, s', ha => by cases ha; rfl
  | _, _, _, .cons h1 h2, s, s', ha => by
    obtain ⟨t, g1, g2⟩ := answers_append.mp ha
    unfold walkAll
    rw [trace_walk h1 g1]
    exact traces_walk h2 g2
end

/-- `Walk` calls `Visit` with the node; the visitor that is returned, if any, walks the children in order and is then called without
a node.  This is so for every tree and all visitors, whatever state they share. -/
theorem C124_calls (visit : V → Tree → σ → Except ε (Option V × σ)) (v : V) (n : Tree) (s s' : σ) :
    walk visit v n s = .ok s' ↔ ∃ calls, Trace v n calls ∧ Answers visit calls s s' := by
  constructor
  · intro h
    have := walk_spec (visit := visit) _ n (Nat.le_refl _) v s
    rw [h] at this
    exact this
  · rintro ⟨calls, h1, h2⟩
    exact trace_walk h1 h2

/-- A visitor that fails ends the walk at this call. -/
theorem C124_failure (visit : V → Tree → σ → Except ε (Option V × σ)) (v : V) (n : Tree) (s : σ) (e : ε)
    (h : walk visit v n s = .error e) : ∃ calls u m r rest t,
      Trace v n (calls ++ (u, m, r) :: rest) ∧ Answers visit calls s t ∧ visit u m t = .error e := by
  have := walk_spec (visit := visit) _ n (Nat.le_refl _) v s
  rw [h] at this
  exact this

/-- The hypothesis holds for a visitor that counts the nodes above and gives up at the second level. -/
example : walk (fun (d : Nat) m (s : Nat) => if m = .value 5 then .error d else .ok (some (d + 1), s + 1)) 0
    (.rangeList (.range 1 3) (.rangeList (.value 5) .nil)) 0 = .error 2 := by rfl

end

/-- `Inspect` for one tree after the other. -/
def inspectAll {σ ε : Type} (f : Tree → σ → Except ε (Bool × σ)) : List Tree → σ → Except ε σ
  | [], s => .ok s
  | n :: ns, s =>
    match inspect n f s with
    | .error e => .error e
    | .ok s => inspectAll f ns s

theorem walkAll_inspect {σ ε : Type} (f : Tree → σ → Except ε (Bool × σ)) : ∀ (ns : List Tree) (s : σ),
    walkAll (inspector f) () ns s = inspectAll f ns s
  | [], _ => rfl
  | n :: ns, s => by
    unfold walkAll inspectAll inspect
    cases walk (inspector f) () n s with
    | error e => rfl
    | ok t => exact walkAll_inspect f ns t

/-- `Inspect` in terms of the children. -/
theorem inspect_eq {σ ε : Type} {f : Tree → σ → Except ε (Bool × σ)} (n : Tree) (s : σ) : inspect n f s =
    match f n s with
    | .error e => .error e
    | .ok (false, s) => .ok s
    | .ok (true, s) =>
      match inspectAll f (children n) s with
      | .error e => .error e
      | .ok s =>
        match f .nil s with
        | .error e => .error e
        | .ok (_, s) => .ok s := by
  unfold inspect
  rw [walk_eq]
  unfold around inspector
  cases f n s with
  | error e => rfl
  | ok r =>
    obtain ⟨b, t⟩ := r
    cases b with
    | false => rfl
    | true =>
      simp only [Except.map, if_true]
      have := walkAll_inspect f (children n) t
      unfold inspector at this
      simp only [Except.map] at this
      rw [this]
      cases inspectAll f (children n) t with
      | error e => rfl
      | ok u =>
        simp only []
        cases f .nil u <;> rfl

/-! ## Which nodes are visited -/

mutual
theorem trace_nodes {V : Type} {f : Tree → Bool} : ∀ {v : V} {n : Tree} {calls : List (V × Tree × Option V)}, Trace v n calls →
    (∀ v m b, (v, m, b) ∈ calls → m ≠ .nil → b.isSome = f m) → (∀ p m, Under f n p m → m ≠ .nil) →
    ∃ l : List (List Nat × Tree), (calls.map (·.2.1)).filter (· ≠ .nil) = l.map Prod.snd ∧ (l.map Prod.fst).Pairwise (· < ·) ∧
      ∀ p m, (p, m) ∈ l ↔ Under f n p m
  | _, _, _, .skipped v n, hf, hn => by
    have h0 : n ≠ .nil := hn [] n rfl
    have hfn : f n = false := (hf v n none (by simp) h0).symm
    refine ⟨[([], n)], by simp [h0], by simp, fun p m => ?_⟩
    cases p with
    | nil => simp [Under, eq_comm]
    | cons i p => simp [Under, hfn]
  | _, _, _, .entered (v := v) (w := w) (n := n) (calls := calls) b hc, hf, hn => by
    have h0 : n ≠ .nil := hn [] n rfl
    have hfn : f n = true := (hf v n (some w) (by simp) h0).symm
    obtain ⟨l, h1, h2, h3⟩ := traces_nodes (f := f) hc 0 (fun v m b hm => hf v m b (by simp [hm])) (fun i c hi p m hu =>
      hn (i :: p) m ⟨hfn, c, hi, hu⟩)
    refine ⟨([], n) :: l, by simp [h0]; simpa using h1, ?_, fun p m => ?_⟩
    · rw [List.map_cons, List.pairwise_cons]
      refine ⟨fun q hq => ?_, h2⟩
      obtain ⟨⟨q, m⟩, hm, rfl⟩ := List.mem_map.mp hq
      obtain ⟨i, r, c, rfl, _⟩ := (h3 q m).mp hm
      exact List.nil_lt_cons _ _
    · cases p with
      | nil =>
        rw [List.mem_cons]
        constructor
        · rintro (h | h)
          · injection h with _ h; exact h.symm
          · obtain ⟨i, r, c, h, _⟩ := (h3 _ _).mp h; cases h
        · intro h; cases h; exact .inl rfl
      | cons i p =>
        rw [List.mem_cons]
        constructor
        · rintro (h | h)
          · injection h with h _; cases h
          · obtain ⟨j, r, c, e, hc, hu⟩ := (h3 _ _).mp h
            injection e with e1 e2
            subst e2
            rw [Nat.zero_add] at e1
            subst e1
            exact ⟨hfn, c, hc, hu⟩
        · rintro ⟨_, c, hc, hu⟩
          exact .inr ((h3 _ _).mpr ⟨i, p, c, by rw [Nat.zero_add], hc, hu⟩)
theorem traces_nodes {V : Type} {f : Tree → Bool} : ∀ {v : V} {ns : List Tree} {calls : List (V × Tree × Option V)}, Traces v ns calls → ∀ k : Nat,
    (∀ v m b, (v, m, b) ∈ calls → m ≠ .nil → b.isSome = f m) → (∀ (i : Nat) (c : Tree), ns[i]? = some c → ∀ p m, Under f c p m → m ≠ .nil) →
    ∃ l : List (List Nat × Tree), (calls.map (·.2.1)).filter (· ≠ .nil) = l.map Prod.snd ∧ (l.map Prod.fst).Pairwise (· < ·) ∧
      ∀ p m, (p, m) ∈ l ↔ ∃ (i : Nat) (q : List Nat) (c : Tree), p = (k + i) :: q ∧ ns[i]? = some c ∧ Under f c q m
  | _, _, _, .nil _, k, _, _ => ⟨[], rfl, .nil, by simp⟩
  | _, _, _, .cons (n := n) (ns := ns) (a := a) (b := b) h1 h2, k, hf, hn => by
    obtain ⟨l1, a1, a2, a3⟩ := trace_nodes (f := f) h1 (fun v m b hm => hf v m b (by simp [hm])) (hn 0 n rfl)
    obtain ⟨l2, b1, b2, b3⟩ := traces_nodes (f := f) h2 (k + 1) (fun v m b hm => hf v m b (by simp [hm]))
      (fun i c hi => hn (i + 1) c (by simpa using hi))
    refine ⟨l1.map (fun x => (k :: x.1, x.2)) ++ l2, ?_, ?_, fun p m => ?_⟩
    · rw [List.map_append, List.filter_append, a1, b1, List.map_append, List.map_map]; rfl
    · rw [List.map_append, List.pairwise_append]
      refine ⟨?_, b2, ?_⟩
      · rw [List.map_map, show (Prod.fst ∘ fun x : List Nat × Tree => (k :: x.1, x.2)) = (k :: ·) ∘ Prod.fst from rfl,
          ← List.map_map, List.pairwise_map]
        refine a2.imp fun h => ?_
        exact List.cons_lt_cons_iff.mpr (.inr ⟨rfl, h⟩)
      · intro x hx y hy
        obtain ⟨u, hu, rfl⟩ := List.mem_map.mp hx
        obtain ⟨w, _, rfl⟩ := List.mem_map.mp hu
        obtain ⟨⟨q, m⟩, hm, rfl⟩ := List.mem_map.mp hy
        obtain ⟨i, r, c, rfl, _⟩ := (b3 q m).mp hm
        exact List.cons_lt_cons_iff.mpr (.inl (by omega))
    · rw [List.mem_append, b3, List.mem_map]
      constructor
      · rintro (⟨⟨q, m'⟩, hm, he⟩ | ⟨i, q, c, rfl, hi, hu⟩)
        · injection he with e1 e2
          subst e1 e2
          exact ⟨0, q, n, rfl, rfl, (a3 _ _).mp hm⟩
        · exact ⟨i + 1, q, c, by rw [Nat.add_assoc, Nat.add_comm 1], by simpa using hi, hu⟩
      · rintro ⟨i, q, c, rfl, hi, hu⟩
        cases i with
        | zero =>
          cases hi
          exact .inl ⟨(q, m), (a3 _ _).mpr hu, rfl⟩
        | succ i => exact .inr ⟨i, q, c, by rw [Nat.add_assoc, Nat.add_comm 1], by simpa using hi, hu⟩
end

/-- The nodes for which the function is called: those at the addresses below which all nodes above got a yes, every address once and
in order (a node before its children, the children from left to right).  For trees without missing nodes and functions whose answer
depends on the node only. -/
theorem C124_visited (f : Tree → Bool) (n : Tree) (hn : ∀ p m, Under f n p m → m ≠ .nil) :
    ∃ (calls : List Tree) (l : List (List Nat × Tree)),
      inspect n (fun m s => (.ok (f m, s ++ [m]) : Except Empty (Bool × List Tree))) [] = .ok calls ∧
      calls.filter (· ≠ .nil) = l.map Prod.snd ∧ (l.map Prod.fst).Pairwise (· < ·) ∧ ∀ p m, (p, m) ∈ l ↔ Under f n p m := by
  have hans : ∀ (cs : List (Unit × Tree × Option Unit)) (s s' : List Tree),
      Answers (inspector fun m s => (.ok (f m, s ++ [m]) : Except Empty (Bool × List Tree))) cs s s' →
      s' = s ++ cs.map (·.2.1) ∧ ∀ v m b, (v, m, b) ∈ cs → b.isSome = f m := by
    intro cs
    induction cs with
    | nil => intro s s' h; cases h; simp
    | cons x cs ih =>
      intro s s' h
      obtain ⟨v, m, b⟩ := x
      obtain ⟨t, h1, h2⟩ := h
      simp only [inspector, Except.map] at h1
      injection h1 with h1
      injection h1 with h1 h3
      subst h1 h3
      obtain ⟨g1, g2⟩ := ih _ _ h2
      refine ⟨by rw [g1]; simp, fun v' m' b' hm => ?_⟩
      rcases List.mem_cons.mp hm with hm | hm
      · cases hm; cases f m <;> rfl
      · exact g2 _ _ _ hm
  cases hi : inspect n (fun m s => (.ok (f m, s ++ [m]) : Except Empty (Bool × List Tree))) [] with
  | error e => exact e.elim
  | ok calls =>
    obtain ⟨cs, h1, h2⟩ := (C124_calls _ _ _ _ _).mp hi
    obtain ⟨g1, g2⟩ := hans cs _ _ h2
    obtain ⟨l, k1, k2, k3⟩ := trace_nodes h1 (fun v m b hm _ => g2 v m b hm) hn
    refine ⟨calls, l, rfl, ?_, k2, k3⟩
    rw [g1, List.nil_append]
    exact k1

/-- No node is missing in the tree, but for the optional field. -/
def full : Tree → Bool
  | .nil => false
  | .rangeList x y => full x && (decide (y = .nil) || full y)
  | .binary x _ y => full x && full y
  | .inRelation x _ y => full x && full y
  | _ => true

theorem full_children {n c : Tree} (h : full n = true) (hc : c ∈ children n) : full c = true := by
  cases n with
  | rangeList x y =>
    have hc : c ∈ if y = .nil then [x] else [x, y] := hc
    simp only [full, Bool.and_eq_true, Bool.or_eq_true, decide_eq_true_eq] at h
    split at hc
    · rw [List.mem_singleton.mp hc]; exact h.1
    · rename_i hy
      rcases List.mem_cons.mp hc with rfl | hc
      · exact h.1
      · rw [List.mem_singleton.mp hc]; exact h.2.resolve_left hy
  | modulo o k => rw [List.mem_singleton.mp hc]; rfl
  | binary x op y =>
    simp only [full, Bool.and_eq_true] at h
    rcases List.mem_cons.mp hc with rfl | hc
    · exact h.1
    · rw [List.mem_singleton.mp hc]; exact h.2
  | inRelation x op y =>
    simp only [full, Bool.and_eq_true] at h
    rcases List.mem_cons.mp hc with rfl | hc
    · exact h.1
    · rw [List.mem_singleton.mp hc]; exact h.2
  | _ => simp [children] at hc

theorem under_full {f : Tree → Bool} : ∀ (p : List Nat) (n m : Tree), full n = true → Under f n p m → m ≠ .nil
  | [], n, m, h, hu => by cases hu; rintro rfl; cases h
  | i :: p, n, m, h, ⟨_, c, hc, hu⟩ => under_full p c m (full_children h (List.mem_of_getElem? hc)) hu

/-- The list of a relation is never empty. -/
def listed : Node → Bool
  | .rel _ _ y => !y.isEmpty
  | .and x y => listed x && listed y
  | .or x y => listed x && listed y

theorem full_list : ∀ its : List Item, its ≠ [] → full (listTree its) = true
  | [], h => absurd rfl h
  | it :: its, _ => by
    have : full (itemTree it) = true := by cases it <;> rfl
    by_cases he : its = []
    · subst he; simp [listTree, full, this]
    · simp [listTree, full, this, full_list its he]

/-- The hypothesis of `C124_visited` holds for the trees of all conditions. -/
theorem C124_conditions (f : Tree → Bool) (n : Node) (h : listed n = true) : ∀ p m, Under f (nodeTree n) p m → m ≠ .nil := by
  have : full (nodeTree n) = true := by
    induction n with
    | rel x ne y =>
      have hx : full (exprTree x) = true := by cases x <;> rfl
      have hy : y ≠ [] := by rintro rfl; cases h
      simp [nodeTree, full, hx, full_list y hy]
    | and x y hx hy =>
      simp only [listed, Bool.and_eq_true] at h
      simp [nodeTree, full, hx h.1, hy h.2]
    | or x y hx hy =>
      simp only [listed, Bool.and_eq_true] at h
      simp [nodeTree, full, hx h.1, hy h.2]
  exact fun p m => under_full p _ m this

theorem bind_ok {α β ε : Type} {x : Except ε α} {g : α → Except ε β} {b : β} (h : (x >>= g) = .ok b) :
    ∃ a, x = .ok a ∧ g a = .ok b := by
  cases x with
  | error e => cases h
  | ok a => exact ⟨a, rfl, h⟩

theorem rangeList_ne {k : Nat} {st : PState} {y : List Item} {st' : PState} (h : rangeList k st = .ok (y, st')) : y ≠ [] := by
  cases k with
  | zero => cases h
  | succ k =>
    obtain ⟨⟨x, t⟩, _, h⟩ := bind_ok h
    simp only [] at h
    split at h
    · obtain ⟨⟨xs, u⟩, _, h⟩ := bind_ok h
      cases h; simp
    · cases h; simp

theorem relation_listed {k : Nat} {st : PState} {n : Node} {st' : PState} (h : relation k st = .ok (n, st')) : listed n = true := by
  obtain ⟨⟨x, t⟩, _, h⟩ := bind_ok h
  simp only [] at h
  split at h
  · cases h
  · obtain ⟨u, _, h⟩ := bind_ok h
    obtain ⟨⟨y, w⟩, hy, h⟩ := bind_ok h
    cases h
    have := rangeList_ne hy
    cases y with
    | nil => exact absurd rfl this
    | cons a b => rfl

theorem andCondition_listed : ∀ (k : Nat) {st : PState} {n : Node} {st' : PState}, andCondition k st = .ok (n, st') → listed n = true
  | 0, _, _, _, h => by cases h
  | k + 1, st, n, st', h => by
    obtain ⟨⟨x, t⟩, hx, h⟩ := bind_ok h
    simp only [] at h
    split at h
    · obtain ⟨u, _, h⟩ := bind_ok h
      obtain ⟨⟨y, w⟩, hy, h⟩ := bind_ok h
      cases h
      simp [listed, relation_listed hx, andCondition_listed k hy]
    · cases h; exact relation_listed hx

theorem condition_listed : ∀ (k : Nat) {st : PState} {n : Node} {st' : PState}, condition k st = .ok (n, st') → listed n = true
  | 0, _, _, _, h => by cases h
  | k + 1, st, n, st', h => by
    obtain ⟨⟨x, t⟩, hx, h⟩ := bind_ok h
    simp only [] at h
    split at h
    · obtain ⟨u, _, h⟩ := bind_ok h
      obtain ⟨⟨y, w⟩, hy, h⟩ := bind_ok h
      cases h
      simp [listed, andCondition_listed k hx, condition_listed k hy]
    · cases h; exact andCondition_listed k hx

/-- What the parser returns is such a condition. -/
theorem C124_parsed {budget : Nat} {text : List Char} {rule : Rule} {n : Node} (h : parse budget text = .ok rule)
    (hn : rule.root = some n) : listed n = true := by
  obtain ⟨st, _, h⟩ := bind_ok h
  simp only [] at h
  split at h
  · obtain ⟨⟨x, t⟩, hx, h⟩ := bind_ok h
    obtain ⟨u, _, h⟩ := bind_ok h
    cases h
    cases hn
    exact condition_listed _ hx
  · obtain ⟨u, _, h⟩ := bind_ok h
    cases h
    cases hn

/-- `n % 10 = 1..3,5 and v = 0`. -/
def sample : Node := .and (.rel (.modulo ['n'] 10) false [.range 1 3, .value 5]) (.rel (.operand ['v']) false [.value 0])

example : listed sample = true ∧ parse 20 "n % 10 = 1..3,5 and v = 0".toList = .ok ⟨some sample, []⟩ ∧
    Under (fun _ => true) (nodeTree sample) [0, 1, 1, 0] (.value 5) := by
  refine ⟨rfl, by decide +kernel, rfl, _, rfl, rfl, _, rfl, rfl, _, rfl, rfl, _, rfl, rfl⟩

/-- The calls for the list of the first relation if 2 is looked for: the range is not left. -/
example : ∃ calls, inspect (listTree [.range 1 3, .value 5])
      (fun m s => (.ok (!decide (m = .range 1 3), s ++ [m]) : Except Empty (Bool × List Tree))) [] = .ok calls ∧
    calls = [.rangeList (.range 1 3) (.rangeList (.value 5) .nil), .range 1 3, .rangeList (.value 5) .nil, .value 5, .nil, .nil, .nil] :=
  ⟨_, rfl, by decide⟩

/-! ## The two uses -/

theorem inspect_item (x : F64) (it : Item) (s : Bool) :
    inspect (itemTree it) (inRelation x) s = (itemMatches x it).map (s || ·) := by
  rw [inspect_eq]
  cases it with
  | value v =>
    simp only [itemTree, inRelation, itemMatches]
    cases x.eqInt v <;> simp [Except.map, children, inspectAll]
  | range lo hi =>
    simp only [itemTree, inRelation]
    cases itemMatches x (.range lo hi) with
    | error e => rfl
    | ok b => cases b <;> simp [Except.map, children, inspectAll]

theorem listTree_ne {its : List Item} (h : its ≠ []) : listTree its ≠ .nil := by
  cases its with
  | nil => exact absurd rfl h
  | cons a b => simp [listTree]

theorem inspect_list (x : F64) : ∀ (its : List Item) (s : Bool),
    inspect (listTree its) (inRelation x) s = (anyItem x its).map (s || ·)
  | [], s => by
    rw [inspect_eq]
    simp [listTree, inRelation, anyItem, Except.map, children, inspectAll]
  | it :: its, s => by
    have ht := inspect_list x its
    rw [inspect_eq]
    simp only [listTree, inRelation, children, anyItem, bind, Except.bind]
    by_cases he : its = []
    · subst he
      rw [if_pos (by rfl)]
      simp only [inspectAll, inspect_item]
      cases itemMatches x it with
      | error e => rfl
      | ok a => simp [Except.map, anyItem]
    · rw [if_neg (listTree_ne he)]
      simp only [inspectAll, inspect_item]
      cases itemMatches x it with
      | error e => rfl
      | ok a =>
        simp only [Except.map, ht]
        cases anyItem x its with
        | error e => rfl
        | ok b => simp [Bool.or_assoc]

/-- The evaluation with `Inspect` and a captured variable gives what the short form of the model gives, for every condition and all
operands, failures included. -/
theorem C124_evaluation (n : Node) (ops : Operands) : evaluateTree (nodeTree n) ops = evaluateNode n ops := by
  induction n with
  | rel x ne y =>
    have hx : evaluateExpr (exprTree x) ops = evaluateExpression x ops := by cases x <;> rfl
    simp only [nodeTree, evaluateTree, evaluateNode, hx, inspect_list, bind, Except.bind]
    cases evaluateExpression x ops with
    | error e => rfl
    | ok v =>
      simp only []
      cases anyItem v y with
      | error e => rfl
      | ok b => cases ne <;> simp [Except.map]
  | and x y hx hy => simp only [nodeTree, evaluateTree, evaluateNode, hx, hy, if_true]
  | or x y hx hy => simp only [nodeTree, evaluateTree, evaluateNode, hx, hy, if_neg (by decide : ¬ Tok.or = Tok.and)]

/-- The generator collects the values and ranges of a list with `Inspect`, all of them and in order. -/
theorem C124_generator : ∀ (its : List Item) (vs rs : List (List Char)),
    inspect (listTree its) collect (vs, rs) = .ok (vs ++ Generator.singleValues its, rs ++ Generator.valueRanges its)
  | [], vs, rs => by
    rw [inspect_eq]
    simp [listTree, collect, children, inspectAll, Generator.singleValues, Generator.valueRanges]
  | it :: its, vs, rs => by
    have ht := C124_generator its
    rw [inspect_eq]
    simp only [listTree, collect, children]
    have hi : ∀ vs rs, inspect (itemTree it) collect (vs, rs) =
        .ok (vs ++ Generator.singleValues [it], rs ++ Generator.valueRanges [it]) := by
      intro vs rs
      rw [inspect_eq]
      cases it <;> simp [itemTree, collect, children, inspectAll, Generator.singleValues, Generator.valueRanges]
    by_cases he : its = []
    · subst he
      rw [if_pos (by rfl)]
      simp only [inspectAll, hi, collect]
    · rw [if_neg (listTree_ne he)]
      simp only [inspectAll, hi, ht, collect]
      cases it <;> simp [Generator.singleValues, Generator.valueRanges]

end Verif.Props.Walk
