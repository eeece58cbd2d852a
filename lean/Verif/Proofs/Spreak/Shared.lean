import Verif.Model.Spreak.Shared
/-!
# Proofs about bundles in memory
-/
namespace Verif.Proofs.Spreak
open Verif.Go Verif.Model.Spreak

variable {L N V : Type} [DecidableEq L]

theorem appendAll_step {α : Type} (room : Nat → List α) (xs : List α) : ∀ {A : Arrays α} {s : Slice}, s.Ok A →
    Slice.Step A s (appendAll room A s xs).1 (appendAll room A s xs).2 := by
  induction xs with
  | nil => intro A s h; exact Slice.Step.refl h
  | cons x xs ih =>
    intro A s h
    have h1 := Slice.append_step room h x
    exact h1.trans (ih h1.1)

theorem appendAll_get {α : Type} (room : Nat → List α) (xs : List α) : ∀ {A : Arrays α} {s : Slice}, s.Ok A →
    (appendAll room A s xs).2.get (appendAll room A s xs).1 = s.get A ++ xs := by
  induction xs with
  | nil => intro A s h; simp [appendAll]
  | cons x xs ih =>
    intro A s h
    show (appendAll room _ _ xs).2.get (appendAll room _ _ xs).1 = _
    rw [ih (Slice.append_step room h x).1, Slice.append_get room h]
    simp

/-- All slices lie in their arrays. -/
structure Sound (m : Memory L) (c : Client) (b : Stored L N) : Prop where
  languages : b.languages.Ok m.tags
  domains : b.domains.Ok m.names
  tags : ∀ s ∈ c.tags, s.Ok m.tags
  names : ∀ s ∈ c.names, s.Ok m.names

/-- The client holds no part of the domains. -/
def DomainsApart (c : Client) (b : Stored L N) : Prop := ∀ s ∈ c.names, b.domains.Apart s

/-- The client holds no part of the languages. -/
def LanguagesApart (c : Client) (b : Stored L N) : Prop := ∀ s ∈ c.tags, b.languages.Apart s

theorem writeSlice_ok {α : Type} {A : Arrays α} {s t : Slice} (hs : s.Ok A) (ht : t.Ok A) (k : Nat) (x : α) :
    t.Ok (writeSlice A s k x) := by
  unfold writeSlice
  split
  · rename_i hk
    obtain ⟨h1, h2⟩ := hs
    exact ht.writeAt (by simp only [List.length_singleton]; omega)
  · exact ht

theorem writeSlice_get {α : Type} {A : Arrays α} {s t : Slice} (hs : s.Ok A) (ht : t.Ok A) (ha : t.Apart s) (k : Nat) (x : α) :
    t.get (writeSlice A s k x) = t.get A := by
  unfold writeSlice
  split
  · rename_i hk
    obtain ⟨h1, h2⟩ := hs
    refine Slice.get_writeAt_other ht (by simp only [List.length_singleton]; omega) ?_
    unfold Slice.Apart at ha
    simp only [List.length_singleton]
    omega
  · rfl

/-- The bundle is in order: its domains are its own. -/
structure Kept (m : Memory L) (c : Client) (b : Stored L N) : Prop where
  sound : Sound m c b
  apart : DomainsApart c b

theorem step_kept (room : Room L) {b : Stored L N} {m : Memory L} {c : Client} (h : Kept m c b) (s : Step L) :
    Kept (s.run room b m c).1 (s.run room b m c).2 b ∧
      b.domains.get (s.run room b m c).1.names = b.domains.get m.names ∧
      (LanguagesApart c b → LanguagesApart (s.run room b m c).2 b ∧
        b.languages.get (s.run room b m c).1.tags = b.languages.get m.tags) := by
  obtain ⟨⟨h1, h2, h3, h4⟩, h5⟩ := h
  have tagsCase : ∀ ts rm, Kept { m with tags := (makeSlice m.tags ts rm).1 } { c with tags := (makeSlice m.tags ts rm).2 :: c.tags } b ∧
      b.domains.get m.names = b.domains.get m.names ∧
      (LanguagesApart c b → LanguagesApart { c with tags := (makeSlice m.tags ts rm).2 :: c.tags } b ∧
        b.languages.get (makeSlice m.tags ts rm).1 = b.languages.get m.tags) := by
    intro ts rm
    refine ⟨⟨⟨h1.push _, h2, fun s hs => ?_, h4⟩, h5⟩, rfl, fun hl => ⟨fun s hs => ?_, Slice.get_push h1 _⟩⟩
    · rcases List.mem_cons.mp hs with rfl | hs
      · exact makeSlice_ok ..
      · exact (h3 s hs).push _
    · rcases List.mem_cons.mp hs with rfl | hs
      · exact (makeSlice_apart h1 ..).symm
      · exact hl s hs
  have namesCase : ∀ ns rm, Kept { m with names := (makeSlice m.names ns rm).1 } { c with names := (makeSlice m.names ns rm).2 :: c.names } b ∧
      b.domains.get (makeSlice m.names ns rm).1 = b.domains.get m.names ∧
      (LanguagesApart c b → LanguagesApart { c with names := (makeSlice m.names ns rm).2 :: c.names } b ∧
        b.languages.get m.tags = b.languages.get m.tags) := by
    intro ns rm
    refine ⟨⟨⟨h1, h2.push _, h3, fun s hs => ?_⟩, fun s hs => ?_⟩, Slice.get_push h2 _, fun hl => ⟨hl, rfl⟩⟩
    · rcases List.mem_cons.mp hs with rfl | hs
      · exact makeSlice_ok ..
      · exact (h4 s hs).push _
    · rcases List.mem_cons.mp hs with rfl | hs
      · exact (makeSlice_apart h2 ..).symm
      · exact h5 s hs
  cases s with
  | writeTag i k t =>
    simp only [Step.run]
    cases hi : c.tags[i]? with
    | none => exact ⟨⟨⟨h1, h2, h3, h4⟩, h5⟩, rfl, fun hl => ⟨hl, rfl⟩⟩
    | some s =>
      have hs := List.mem_of_getElem? hi
      exact ⟨⟨⟨writeSlice_ok (h3 s hs) h1 k t, h2, fun s' hs' => writeSlice_ok (h3 s hs) (h3 s' hs') k t, h4⟩, h5⟩, rfl,
        fun hl => ⟨hl, writeSlice_get (h3 s hs) h1 (hl s hs) k t⟩⟩
  | writeName i k n =>
    simp only [Step.run]
    cases hi : c.names[i]? with
    | none => exact ⟨⟨⟨h1, h2, h3, h4⟩, h5⟩, rfl, fun hl => ⟨hl, rfl⟩⟩
    | some s =>
      have hs := List.mem_of_getElem? hi
      exact ⟨⟨⟨h1, writeSlice_ok (h4 s hs) h2 k n, h3, fun s' hs' => writeSlice_ok (h4 s hs) (h4 s' hs') k n⟩, h5⟩,
        writeSlice_get (h4 s hs) h2 (h5 s hs) k n, fun hl => ⟨hl, rfl⟩⟩
  | newTags ts => exact tagsCase _ _
  | newNames ns => exact namesCase _ _
  | domains => exact namesCase _ _
  | supportedLanguages => exact tagsCase _ _
  | localizerDomains lang => exact namesCase _ _

theorem runSteps_kept (room : Room L) {b : Stored L N} (ss : List (Step L)) : ∀ {m : Memory L} {c : Client}, Kept m c b →
    Kept (runSteps room b m c ss).1 (runSteps room b m c ss).2 b ∧
      b.domains.get (runSteps room b m c ss).1.names = b.domains.get m.names ∧
      (LanguagesApart c b → LanguagesApart (runSteps room b m c ss).2 b ∧
        b.languages.get (runSteps room b m c ss).1.tags = b.languages.get m.tags) := by
  induction ss with
  | nil => intro m c h; exact ⟨h, rfl, fun hl => ⟨hl, rfl⟩⟩
  | cons s ss ih =>
    intro m c h
    obtain ⟨a1, a2, a3⟩ := step_kept room h s
    obtain ⟨b1, b2, b3⟩ := ih a1
    refine ⟨b1, b2.trans a2, fun hl => ?_⟩
    obtain ⟨c1, c2⟩ := b3 (a3 hl).1
    exact ⟨c1, c2.trans (a3 hl).2⟩

/-- After the creation: the slices hold what the bundle has, and are apart from every slice that was there before. -/
theorem store_spec (room : Room L) (free : List Bytes) (m : Memory L) (B : Bundle L N) (c : Client)
    (ht : ∀ s ∈ c.tags, s.Ok m.tags) (hn : ∀ s ∈ c.names, s.Ok m.names) :
    (store room free m B).2.view (store room free m B).1 = B ∧ Kept (store room free m B).1 c (store room free m B).2 ∧
      LanguagesApart c (store room free m B).2 := by
  have t1 := makeSlice_ok m.tags ([] : List L) []
  have n1 := makeSlice_ok m.names ([] : List Bytes) free
  have t2 := appendAll_step room.tags B.languages t1
  have n2 := appendAll_step room.names B.domains n1
  refine ⟨?_, ⟨⟨t2.1, n2.1, fun s hs => t2.2.1 s ((ht s hs).push _), fun s hs => n2.2.1 s ((hn s hs).push _)⟩, fun s hs => ?_⟩,
    fun s hs => ?_⟩
  · show ({ B with languages := _, domains := _ } : Bundle L N) = B
    simp only [store]
    rw [appendAll_get room.tags _ t1, appendAll_get room.names _ n1, makeSlice_get, makeSlice_get]
    rfl
  · exact ((n2.2.2 s ((hn s hs).push _) (makeSlice_apart (hn s hs) _ _).symm).2).symm
  · exact ((t2.2.2 s ((ht s hs).push _) (makeSlice_apart (ht s hs) _ _).symm).2).symm

/-- Nothing but the languages can differ, and there are as many. -/
theorem view_of_kept (room : Room L) {b : Stored L N} (ss : List (Step L)) {m : Memory L} {c : Client} (h : Kept m c b) :
    ∃ ls, ls.length = (b.view m).languages.length ∧
      b.view (runSteps room b m c ss).1 = { b.view m with languages := ls } := by
  obtain ⟨h1, h2, _⟩ := runSteps_kept room ss h
  refine ⟨b.languages.get (runSteps room b m c ss).1.tags, ?_, ?_⟩
  · show _ = (b.languages.get m.tags).length
    rw [Slice.get_length h1.sound.languages, Slice.get_length h.sound.languages]
  · simp only [Stored.view, h2]

theorem given_kept {b : Stored L N} {m : Memory L} {c : Client} (h : Kept m c b) (keep : Bool) : Kept m (c.given b keep) b := by
  cases keep with
  | false => exact h
  | true =>
    refine ⟨⟨h.sound.languages, h.sound.domains, fun s hs => ?_, h.sound.names⟩, h.apart⟩
    rcases List.mem_cons.mp hs with rfl | hs
    · exact h.sound.languages
    · exact h.sound.tags s hs

end Verif.Proofs.Spreak
