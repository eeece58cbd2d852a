import Verif.Go.Bytes
/-!
# `path.Join`

`path.Clean` works on the elements between slashes; this is a standard library function, written from its
documentation.
-/
namespace Verif.Go

/-- One step of `path.Clean`: `stack` has the last element first. -/
def cleanStep (rooted : Bool) (stack : List Bytes) (e : Bytes) : List Bytes :=
  if e = [] ∨ e = b!"." then stack
  else if e = b!".." then
    match stack with
    | [] => if rooted then [] else [e]
    | x :: xs => if x = b!".." then e :: stack else xs
  else e :: stack

/-- `path.Clean`. -/
def cleanPath (p : Bytes) : Bytes :=
  let rooted := p.head? = some 0x2f
  let es := ((splitByte 0x2f p).foldl (cleanStep rooted) []).reverse
  let r := (if rooted then [0x2f] else []) ++ join [0x2f] es
  if r = [] then b!"." else r

/-- `path.Join`. -/
def joinPath (es : List Bytes) : Bytes :=
  let es := es.filter (· ≠ [])
  if es = [] then [] else cleanPath (join [0x2f] es)

/-- An element that `path.Join` leaves as it is. -/
def PlainElement (e : Bytes) : Prop := e ≠ [] ∧ 0x2f ∉ e ∧ e ≠ b!"." ∧ e ≠ b!".."

theorem splitByte_plain {c : UInt8} {e : Bytes} (h : c ∉ e) : splitByte c e = [e] := by
  induction e with
  | nil => rfl
  | cons x xs ih =>
    rw [List.mem_cons, not_or] at h
    rw [splitByte, if_neg (fun e => h.1 e.symm), ih h.2]

theorem splitByte_sep (c : UInt8) (a b : Bytes) : splitByte c (a ++ c :: b) = splitByte c a ++ splitByte c b := by
  induction a with
  | nil => simp [splitByte]
  | cons x xs ih =>
    rw [List.cons_append, splitByte, splitByte, ih]
    by_cases hx : x = c
    · rw [if_pos hx, if_pos hx]; rfl
    · rw [if_neg hx, if_neg hx]
      cases h : splitByte c xs with
      | nil =>
        cases xs with
        | nil => cases h
        | cons y ys =>
          rw [splitByte] at h
          split at h
          · cases h
          · split at h <;> cases h
      | cons y ys => rfl

theorem splitByte_joinSlash {es : List Bytes} (hn : es ≠ []) (h : ∀ e ∈ es, (0x2f : UInt8) ∉ e) : splitByte 0x2f (join [0x2f] es) = es := by
  induction es with
  | nil => exact absurd rfl hn
  | cons e es ih =>
    cases es with
    | nil => exact splitByte_plain (h e List.mem_cons_self)
    | cons e' es =>
      have ih := ih (by simp) fun x hx => h x (List.mem_cons_of_mem _ hx)
      have : join [0x2f] (e :: e' :: es) = e ++ 0x2f :: join [0x2f] (e' :: es) := by simp [join]
      rw [this, splitByte_sep, ih, splitByte_plain (h e List.mem_cons_self)]
      rfl

theorem foldl_plain (r : Bool) {es : List Bytes} : ∀ (st : List Bytes), (∀ e ∈ es, PlainElement e) →
    es.foldl (cleanStep r) st = es.reverse ++ st := by
  induction es with
  | nil => intro st _; rfl
  | cons e es ih =>
    intro st h
    have he := h e List.mem_cons_self
    rw [List.foldl_cons, ih _ fun x hx => h x (List.mem_cons_of_mem _ hx)]
    have : cleanStep r st e = e :: st := by
      unfold cleanStep
      rw [if_neg (by simp only [not_or]; exact ⟨he.1, he.2.2.1⟩), if_neg he.2.2.2]
    rw [this]
    simp

/-- Plain elements are joined with slashes, empty elements are left out. -/
theorem joinPath_plain {es : List Bytes} (h : ∀ e ∈ es, e = [] ∨ PlainElement e) :
    joinPath es = join [0x2f] (es.filter (· ≠ [])) := by
  have hp : ∀ e ∈ es.filter (· ≠ []), PlainElement e := by
    intro e he
    rw [List.mem_filter] at he
    rcases h e he.1 with h | h
    · simp [h] at he
    · exact h
  unfold joinPath
  generalize es.filter (· ≠ []) = fs at hp
  simp only
  cases fs with
  | nil => rfl
  | cons e fs =>
    rw [if_neg (by simp)]
    have he := hp e List.mem_cons_self
    have hhead : (join [0x2f] (e :: fs)).head? = e.head? := by
      cases e with
      | nil => exact absurd rfl he.1
      | cons x xs => cases fs <;> simp [join]
    have hr : ¬ ((join [0x2f] (e :: fs)).head? = some 0x2f) := by
      rw [hhead]
      cases e with
      | nil => exact absurd rfl he.1
      | cons x xs =>
        intro hx
        simp only [List.head?_cons, Option.some.injEq] at hx
        exact he.2.1 (by rw [hx]; exact List.mem_cons_self)
    unfold cleanPath
    simp only [hr, decide_false, if_false]
    rw [splitByte_joinSlash (by simp) fun x hx => (hp x hx).2.1, foldl_plain _ _ hp]
    simp only [List.append_nil, List.reverse_reverse, List.nil_append]
    rw [if_neg]
    intro h0
    rw [h0] at hhead
    cases e with
    | nil => exact he.1 rfl
    | cons x xs => cases hhead

example : joinPath [b!"de", [], b!"app.po"] = b!"de/app.po" ∧ joinPath [b!"a/../..", b!"b"] = b!"../b" ∧
    joinPath [b!"/x", b!"..", b!"y"] = b!"/y" := by decide

end Verif.Go
