import Verif.Proofs.Po.HangFile
import Verif.Props.PoParser
/-!
# C71: on which files the PO parser does not return

`Verif.Spec.PoHang` says which lines have a text that is decoded and never ends.
-/
namespace Verif.Props.PoHang
open Verif.Go Verif.Spec.PoString Verif.Spec.PoEntry Verif.Spec.PoHang Verif.Proofs.Po
open Verif.Model.Po hiding Field

/-- A file of these lines is read to its end: the result is a file, or the error that there is nothing in it. -/
def Accepted (u : Unicode) (ignore : Bool) (ls : List Bytes) : Prop :=
  (∃ f, parse u ignore (textOf ls) = .ok f) ∨ parse u ignore (textOf ls) = .error .empty

theorem accepted_iff {u : Unicode} {ignore : Bool} {ls : List Bytes} (h1 : ∀ l ∈ ls, OneLine l) (hs : Short ls) :
    Accepted u ignore ls ↔ ∃ st, run u ignore ⟨none, []⟩ ls = .ok st := by
  unfold Accepted
  rw [parse_run u ignore ⟨h1, .inl rfl⟩ hs]
  have hne := run_ne_empty u ignore ⟨none, []⟩ ls
  generalize run u ignore ⟨none, []⟩ ls = r at hne
  cases r with
  | ok st =>
    simp only [Res.bind]
    refine ⟨fun _ => ⟨st, rfl⟩, fun _ => ?_⟩
    rcases finish_cases st with ⟨_, _, h⟩ | ⟨f, h, _⟩
    · exact .inr h
    · exact .inl ⟨f, h⟩
  | error e =>
    simp only [Res.bind]
    refine ⟨fun h => ?_, fun ⟨_, h⟩ => nomatch h⟩
    rcases h with ⟨_, h⟩ | h
    · cases h
    · cases h; exact absurd rfl hne
  | eof => simp [Res.bind]
  | panic => simp [Res.bind]
  | hang => simp [Res.bind]

theorem takeWhile_all {α : Type} {p : α → Bool} : ∀ {l : List α} {x : α}, x ∈ l.takeWhile p → p x = true := by
  intro l
  induction l with
  | nil => intro x h; cases h
  | cons a l ih =>
    intro x h
    rw [List.takeWhile_cons] at h
    split at h
    · rcases List.mem_cons.1 h with rfl | h
      · assumption
      · exact ih h
    · cases h

/-- `Parse` does not return exactly on the files of the following form: lines `A` that are read to their end, lines
`P` of one message that are read to their end on their own, and a line with a text whose closing quote is escaped
where this text is decoded.  All these lines are shorter than the limit of the line reader; what follows does not
matter. -/
theorem C71_hangs_iff (u : Unicode) (ignore : Bool) (content : Bytes) (ls : List Bytes) (h : HasLines content ls) :
    parse u ignore content = .hang ↔
    ∃ A P l rest, ls = A ++ P ++ l :: rest ∧ Short (A ++ P ++ [l]) ∧ Accepted u ignore A ∧ Accepted u ignore P ∧
      NoBreak ignore P ∧ Stuck ignore (A ++ P) l := by
  have he : parse u ignore content = (run u ignore ⟨none, []⟩
      (ls.takeWhile fun l => decide (l.length < maxScanTokenSize))).bind finish := by
    unfold parse
    rw [parseLines_run]
    unfold scanLines run tokens
    rw [tokensFrom_dropCR, rawLines_text h]
  have hb : parse u ignore content = .hang ↔ run u ignore ⟨none, []⟩
      (ls.takeWhile fun l => decide (l.length < maxScanTokenSize)) = .hang := by
    rw [he]
    cases run u ignore ⟨none, []⟩ (ls.takeWhile fun l => decide (l.length < maxScanTokenSize)) with
    | ok st => simp only [Res.bind, reduceCtorEq, iff_false]; exact PoParser.finish_ne.1
    | _ => simp [Res.bind]
  have h1 := h.1
  rw [hb, run_hang_iff fun l hl => h1 l ((List.takeWhile_prefix _).subset hl)]
  constructor
  · rintro ⟨A, P, l, rest, e, hA, hP, hn, hs⟩
    have hshort : Short (A ++ P ++ [l]) := by
      intro x hx
      have : x ∈ ls.takeWhile fun l => decide (l.length < maxScanTokenSize) := by
        rw [e]
        simp only [List.mem_append, List.mem_cons, List.not_mem_nil, or_false] at hx ⊢
        rcases hx with hx | hx
        · exact .inl hx
        · exact .inr (.inl hx)
      exact of_decide_eq_true (takeWhile_all (p := fun l : Bytes => decide (l.length < maxScanTokenSize)) this)
    have hmem : ∀ x ∈ A ++ P, x ∈ ls := fun x hx => (List.takeWhile_prefix _).subset (by rw [e]; exact List.mem_append_left _ hx)
    have hd : ls = A ++ P ++ l :: (rest ++ ls.dropWhile fun l => decide (l.length < maxScanTokenSize)) := by
      conv => lhs; rw [← List.takeWhile_append_dropWhile (p := fun l : Bytes => decide (l.length < maxScanTokenSize)) (l := ls)]
      rw [e]; simp
    exact ⟨A, P, l, _, hd, hshort,
      (accepted_iff (fun x hx => h1 x (hmem x (by simp [hx]))) fun x hx => hshort x (by simp [hx])).2 hA,
      (accepted_iff (fun x hx => h1 x (hmem x (by simp [hx]))) fun x hx => hshort x (by simp [hx])).2 hP, hn, hs⟩
  · rintro ⟨A, P, l, rest, rfl, hshort, hA, hP, hn, hs⟩
    have hd : (A ++ P ++ l :: rest).takeWhile (fun l => decide (l.length < maxScanTokenSize)) =
        A ++ P ++ l :: rest.takeWhile fun l => decide (l.length < maxScanTokenSize) := by
      have e : A ++ P ++ l :: rest = (A ++ P ++ [l]) ++ rest := by simp
      rw [e, List.takeWhile_append_of_pos fun x hx => by simpa using hshort x hx]
      simp
    exact ⟨A, P, l, _, hd,
      (accepted_iff (fun x hx => h1 x (by simp [hx])) fun x hx => hshort x (by simp [hx])).1 hA,
      (accepted_iff (fun x hx => h1 x (by simp [hx])) fun x hx => hshort x (by simp [hx])).1 hP, hn, hs⟩

/-- A file that is not read to its end: a complete message, a message whose id goes on in a second line, and this
line ends with an escaped quote. -/
example (u : Unicode) : ∃ A P l rest, A.length = 3 ∧ P.length = 2 ∧ rest.length = 1 ∧
    HasLines (textOf (A ++ P ++ l :: rest)) (A ++ P ++ l :: rest) ∧ Short (A ++ P ++ [l]) ∧
    (∃ f, parse u false (textOf A) = .ok f) ∧ (∃ f, parse u false (textOf P) = .ok f) ∧ NoBreak false P ∧
    Stuck false (A ++ P) l := by
  refine ⟨[b!"msgid \"a\"", b!"msgstr \"A\"", b!""], [b!"msgctxt \"c\"", b!"msgid \"b\""], b!"  \"x\\\"", [b!"msgstr \"B\""],
    rfl, rfl, rfl, ⟨by decide, .inl rfl⟩, by decide, ⟨_, rfl⟩, ⟨_, rfl⟩, by decide, .inr (.inl ⟨⟨b!"x\\", by decide, by decide⟩,
      b!"msgid \"b\"", by decide, by decide, by decide⟩)⟩

/-- A line that is never stuck: two backslashes in front of the quote. -/
example : ¬ Stuck false [b!"msgid \"b\""] b!"\"x\\\\\"" := by
  intro h
  have key : ∀ {body : Bytes}, ¬ Open b!"\"x\\\\\"" body := by
    rintro body ⟨e, ho⟩
    have : body = b!"x\\\\" := by
      have := congrArg (fun s => (s.drop 1).dropLast) e
      simpa using this.symm
    subst this
    revert ho; decide
  have ht : trimSpace b!"\"x\\\\\"" = b!"\"x\\\\\"" := by decide
  unfold Stuck at h
  rw [ht] at h
  rcases h with h | ⟨⟨body, h⟩, _⟩ | ⟨_, ⟨gap, kw, rest, _, _, _, _, e⟩, _⟩ | ⟨_, ⟨gap, text, body, _, _, _, e⟩, _⟩
  · cases h with
    | field kw gap text body hk _ _ e =>
      simp only [List.mem_cons, List.not_mem_nil, or_false] at hk
      rcases hk with rfl | rfl | rfl <;> simp at e
    | str gap text body _ _ _ e => simp at e
    | plural gap ds gap' text body _ _ _ _ _ e => simp at e
  · exact key h
  · simp at e
  · simp at e

end Verif.Props.PoHang
