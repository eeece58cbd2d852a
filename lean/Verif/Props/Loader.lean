import Verif.Proofs.Spreak.Loader
/-!
# Loading files: C46, C47, C48, C72
-/
namespace Verif.Props.Loader
open Verif.Go Verif.Model.Spreak Verif.Spec.Loader Verif.Proofs.Spreak
open Verif.Model.Po (spaceEncodings trimSpace)
open Verif.Proofs.Po (Spaces)

variable {L C : Type}

/-! ## C46 -/

/-- The default resolver returns the first existing place: spelling by spelling, and for each spelling in the
documented order.  It reports `os.ErrNotExist` exactly if none exists. -/
theorem C46_resolve (r : DefaultResolver) (info : L → TagInfo) (fs : FileSystem) (ext : Bytes) (lang : L) (domain : Bytes) :
    r.resolver info fs ext lang domain =
      match (candidates r (expandLanguage (info lang)) domain ext).find? (fun p => (fs p).isSome) with
      | some p => .ok p
      | none => .error .notExist := resolveFrom_eq fs r domain ext _

/-- The places for a domain are literally those of the documentation. -/
theorem C46_documented (r : DefaultResolver) (domain locale ext : Bytes) (hs : r.search = true) (hd : domain ≠ []) :
    places r domain locale ext = (documented r.category domain locale ext).map joinPath := by
  unfold places
  simp only [hd, hs, if_true, if_false, List.take_append_drop]

/-- Without search there is exactly one place, and it needs a domain. -/
theorem C46_no_search (r : DefaultResolver) (domain locale ext : Bytes) (hs : r.search = false) :
    places r domain locale ext = if domain = [] then [] else [joinPath [locale, r.category, domain ++ ext]] := by
  unfold places
  rw [hs]
  split <;> simp [documented]

/-- For ordinary names the places are these paths. -/
theorem C46_plain_paths (r : DefaultResolver) (domain locale ext : Bytes) (hs : r.search = true)
    (hc : r.category = []) (hd : PlainElement domain) (hl : PlainElement locale) (hde : PlainElement (domain ++ ext))
    (hle : PlainElement (locale ++ ext)) :
    places r domain locale ext =
      [locale ++ b!"/" ++ domain ++ ext, locale ++ b!"/LC_MESSAGES/" ++ domain ++ ext, locale ++ b!"/" ++ domain ++ ext,
        domain ++ b!"/" ++ locale ++ ext, locale ++ ext, locale ++ ext, b!"LC_MESSAGES/" ++ locale ++ ext] := by
  have hm : PlainElement b!"LC_MESSAGES" := by refine ⟨?_, ?_, ?_, ?_⟩ <;> decide
  have h2 : ∀ a b, PlainElement a → PlainElement b → joinPath [a, b] = a ++ 0x2f :: b := by
    intro a b ha hb
    rw [joinPath_plain (by intro e he; right; simp at he; rcases he with rfl | rfl <;> assumption)]
    simp [ha.1, hb.1, join]
  have h1 : ∀ a, PlainElement a → joinPath [a] = a := by
    intro a ha
    rw [joinPath_plain (by intro e he; right; simp at he; rw [he]; exact ha)]
    simp [ha.1, join]
  have h0 : ∀ a b, PlainElement a → PlainElement b → joinPath [a, [], b] = a ++ 0x2f :: b := by
    intro a b ha hb
    rw [joinPath_plain (by
      intro e he; simp at he
      rcases he with rfl | rfl | rfl
      · exact .inr ha
      · exact .inl rfl
      · exact .inr hb)]
    simp [ha.1, hb.1, join]
  have h3 : joinPath [locale, b!"LC_MESSAGES", domain ++ ext] = locale ++ b!"/LC_MESSAGES/" ++ domain ++ ext := by
    rw [joinPath_plain (by intro e he; right; simp at he; rcases he with rfl | rfl | rfl <;> assumption)]
    have : domain ++ ext ≠ [] := hde.1
    simp only [ne_eq, List.filter_cons, hl.1, not_false_eq_true, decide_true, if_true, hm.1, this, List.filter_nil, join]
    simp
  rw [C46_documented r domain locale ext hs hd.1, hc]
  unfold documented
  simp only [List.map_cons, List.map_nil, joinPath_skip]
  rw [h0 _ _ hl hde, h3, h2 _ _ hl hde, h2 _ _ hd hle, h1 _ hle, h2 _ _ hm hle]
  simp

example : places {} b!"app" b!"de" b!".po" =
    [b!"de/app.po", b!"de/LC_MESSAGES/app.po", b!"de/app.po", b!"app/de.po", b!"de.po", b!"de.po", b!"LC_MESSAGES/de.po"] ∧
    places { search := false, category := b!"LC_MESSAGES" } b!"app" b!"de" b!".po" = [b!"de/LC_MESSAGES/app.po"] ∧
    PlainElement b!"app.po" := ⟨by decide, by decide, by refine ⟨?_, ?_, ?_, ?_⟩ <;> decide⟩

/-- A loader with the default resolver. -/
def loaderOf (fs : FileSystem) (r : DefaultResolver) (info : L → TagInfo) (ds : List (Bytes × Decoder L C)) : FsLoader L C :=
  ⟨some fs, some (r.resolver info), ds.map Prod.fst, ds.map Prod.snd⟩

/-- All places of a loader with the decoder that is responsible: first by extension, then by spelling, then by
pattern. -/
def searched (r : DefaultResolver) (info : L → TagInfo) (ds : List (Bytes × Decoder L C)) (lang : L) (domain : Bytes) :
    List (Decoder L C × Bytes) :=
  ds.flatMap fun d => (candidates r (expandLanguage (info lang)) domain d.1).map fun p => (d.2, p)

/-- `Load` decodes the first place that exists, with the decoder of its extension; what that gives, a catalog
or an error, is the result, and nothing else is tried.
Missing for the full property: that the place is a file (`C46_negation`). -/
theorem C46_first_existing_partial (fs : FileSystem) (r : DefaultResolver) (info : L → TagInfo)
    (ds : List (Bytes × Decoder L C)) (lang : L) (domain : Bytes)
    (hd : ∀ d ∈ ds, ∀ c, d.2 lang domain c ≠ .error .notExist) :
    (loaderOf fs r info ds).load lang domain =
      match (searched r info ds lang domain).find? (fun c => (fs c.2).isSome) with
      | none => .ok (.error .notFound)
      | some (d, p) => .ok (d lang domain ((fs p).bind Node.content)) :=
  loadFrom_eq (loaderOf fs r info ds) fs r info lang domain ds [] rfl hd

/-- If only files exist at the searched places: the first of them is read.  In other words, `Load` gives the
result of decoder `d` on content `c` for a split of the places at a file with that content before which nothing
exists. -/
theorem C46_first_file_partial (fs : FileSystem) (r : DefaultResolver) (info : L → TagInfo)
    (ds : List (Bytes × Decoder L C)) (lang : L) (domain : Bytes)
    (hd : ∀ d ∈ ds, ∀ c, d.2 lang domain c ≠ .error .notExist)
    (before after : List (Decoder L C × Bytes)) (d : Decoder L C) (p c : Bytes)
    (hs : searched r info ds lang domain = before ++ (d, p) :: after) (hp : fs p = some (.file c))
    (hb : ∀ x ∈ before, fs x.2 = none) :
    (loaderOf fs r info ds).load lang domain = .ok (d lang domain (some c)) := by
  rw [C46_first_existing_partial fs r info ds lang domain hd, hs, List.find?_append,
    List.find?_eq_none.2 (by intro x hx; rw [hb x hx]; simp), List.find?_cons_of_pos (by rw [hp]; rfl)]
  simp [hp, Node.content]

/-- `Load` reports `ErrNotFound` exactly if no place exists (for decoders that do not themselves report it). -/
theorem C46_not_found_iff (fs : FileSystem) (r : DefaultResolver) (info : L → TagInfo)
    (ds : List (Bytes × Decoder L C)) (lang : L) (domain : Bytes)
    (hd : ∀ d ∈ ds, ∀ c, d.2 lang domain c ≠ .error .notExist)
    (hf : ∀ d ∈ ds, ∀ c, d.2 lang domain c ≠ .error .notFound) :
    (loaderOf fs r info ds).load lang domain = .ok (.error .notFound) ↔
      ∀ d ∈ ds, ∀ locale ∈ expandLanguage (info lang), ∀ p ∈ places r domain locale d.1, fs p = none := by
  rw [C46_first_existing_partial fs r info ds lang domain hd]
  have hmem : ∀ x : Decoder L C × Bytes, x ∈ searched r info ds lang domain ↔
      ∃ d ∈ ds, ∃ locale ∈ expandLanguage (info lang), x.2 ∈ places r domain locale d.1 ∧ x.1 = d.2 := by
    intro x
    unfold searched candidates
    simp only [List.mem_flatMap, List.mem_map]
    constructor
    · rintro ⟨d, h1, p, ⟨l, h2, h3⟩, rfl⟩; exact ⟨d, h1, l, h2, h3, rfl⟩
    · rintro ⟨d, h1, l, h2, h3, h4⟩; exact ⟨d, h1, x.2, ⟨l, h2, h3⟩, by rw [← h4]⟩
  cases h : (searched r info ds lang domain).find? (fun c => (fs c.2).isSome) with
  | none =>
    rw [List.find?_eq_none] at h
    refine ⟨fun _ d h1 l h2 p h3 => ?_, fun _ => rfl⟩
    have := h (d.2, p) ((hmem _).2 ⟨d, h1, l, h2, h3, rfl⟩)
    simpa using this
  | some x =>
    obtain ⟨d, p⟩ := x
    obtain ⟨d', h1, l, h2, h3, h4⟩ := (hmem _).1 (List.mem_of_find?_eq_some h)
    refine ⟨fun h' => absurd (Except.ok.inj h') ?_, fun h' => ?_⟩
    · have h4 : d = d'.2 := h4
      rw [h4]; exact hf d' h1 _
    · have := List.find?_some h
      rw [h' d' h1 l h2 p h3] at this
      cases this

/-- A decoder that returns the content. -/
def echo : Decoder Unit Bytes := fun _ _ c => match c with | some c => .ok c | none => .error .other

def german : Unit → TagInfo := fun _ => ⟨b!"de-AT", some (b!"de", b!"deu"), some b!"AT", some b!"Latn"⟩

def demoFs : FileSystem := fun p =>
  if p = b!"de/app.mo" then some (.file b!"1") else if p = b!"de.mo" then some (.file b!"2")
  else if p = b!"de_AT/LC_MESSAGES/app.mo" then some (.file b!"3") else if p = b!"app/de_AT.mo" then some (.file b!"4") else none

/-- The most special spelling wins over the pattern. -/
example : (loaderOf demoFs {} german [(b!".po", echo), (b!".mo", echo)]).load () b!"app" = .ok (.ok b!"3") ∧
    (loaderOf demoFs {} german [(b!".po", echo), (b!".mo", echo)]).load () b!"" = .ok (.ok b!"2") ∧
    (loaderOf demoFs {} german [(b!".po", echo)]).load () b!"app" = .ok (.error .notFound) := by decide +kernel

example : ∀ d ∈ [(b!".po", echo), (b!".mo", echo)], ∀ c, d.2 () b!"app" c ≠ .error .notExist ∧ d.2 () b!"app" c ≠ .error .notFound := by
  intro d hd c
  simp at hd
  rcases hd with rfl | rfl <;> cases c <;> simp [echo]

/-- A directory is taken for a file: here `de.po` is a directory and `de.mo` is a file, and `Load` fails instead
of opening the file. -/
theorem C46_negation : ∃ fs : FileSystem, fs b!"de.mo" = some (.file b!"1") ∧ (∀ p c, fs p = some (.file c) → p = b!"de.mo") ∧
    (b!"de.mo" ∈ candidates {} (expandLanguage (german ())) b!"app" b!".mo") ∧
    (loaderOf fs {} german [(b!".po", echo), (b!".mo", echo)]).load () b!"app" = .ok (.error .other) := by
  refine ⟨fun p => if p = b!"de.po" then some .dir else if p = b!"de.mo" then some (.file b!"1") else none, by decide,
    ?_, by decide +kernel, by decide +kernel⟩
  intro p c h
  simp only at h
  split at h
  · cases h
  · split at h
    · assumption
    · cases h

/-! ## C47 -/

/-- The spellings are exactly these. -/
theorem C47_members (t : TagInfo) (s : Bytes) : s ∈ expandLanguage t ↔ s ∈ spellings t := by
  obtain ⟨l, h1, _, h3⟩ := expand_raw t
  rw [h1, mem_sortBy, h3]

/-- Each spelling is listed once, a longer one before a shorter one, spellings of the same length in
lexicographic order. -/
theorem C47_order (t : TagInfo) : (expandLanguage t).Pairwise Before := by
  obtain ⟨l, h1, h2, _⟩ := expand_raw t
  rw [h1]
  have hs : (sortBy longestFirst l).Pairwise (fun a b => longestFirst a b = true) := sortBy_sorted longestFirst_order l
  have hn : (sortBy longestFirst l).Nodup := (sortBy_perm longestFirst l).nodup_iff.2 h2
  have := hs.and hn
  exact this.imp fun h => longestFirst_before h.1 h.2

theorem C47_nodup (t : TagInfo) : (expandLanguage t).Nodup := by
  refine (C47_order t).imp ?_
  rintro a b (h | ⟨_, h⟩) rfl
  · omega
  · exact List.lt_irrefl a h

/-- There is no other list with these members in this order. -/
theorem C47_unique (t : TagInfo) (l : List Bytes) (hm : ∀ s, s ∈ l ↔ s ∈ spellings t) (ho : l.Pairwise Before) :
    l = expandLanguage t := by
  have asymm : ∀ a b : Bytes, Before a b → Before b a → False := by
    rintro a b (h | ⟨h1, h2⟩) (h' | ⟨h1', h2'⟩)
    · omega
    · omega
    · omega
    · exact List.lt_asymm h2 h2'
  have key : ∀ l m : List Bytes, l.Pairwise Before → m.Pairwise Before → (∀ s, s ∈ l ↔ s ∈ m) → l = m := by
    intro l
    induction l with
    | nil =>
      intro m _ _ h
      cases m with
      | nil => rfl
      | cons x m => exact absurd ((h x).2 List.mem_cons_self) (by simp)
    | cons a l ih =>
      intro m hl hm h
      cases m with
      | nil => exact absurd ((h a).1 List.mem_cons_self) (by simp)
      | cons b m =>
        rw [List.pairwise_cons] at hl hm
        have hab : a = b := by
          rcases List.mem_cons.1 ((h a).1 List.mem_cons_self) with e | h1
          · exact e
          · rcases List.mem_cons.1 ((h b).2 List.mem_cons_self) with e | h2
            · exact e.symm
            · exact (asymm _ _ (hl.1 b h2) (hm.1 a h1)).elim
        subst hab
        rw [ih m hl.2 hm.2]
        intro s
        constructor
        · intro hs
          rcases List.mem_cons.1 ((h s).1 (List.mem_cons_of_mem _ hs)) with rfl | h1
          · exact (asymm _ _ (hl.1 s hs) (hl.1 s hs)).elim
          · exact h1
        · intro hs
          rcases List.mem_cons.1 ((h s).2 (List.mem_cons_of_mem _ hs)) with rfl | h1
          · exact (asymm _ _ (hm.1 s hs) (hm.1 s hs)).elim
          · exact h1
  exact key _ _ ho (C47_order t) fun s => by rw [hm, C47_members]

/-- A spelling with region or script precedes the bare language. -/
theorem C47_special_before_base (t : TagInfo) (base iso3 x : Bytes) (hb : t.base = some (base, iso3))
    (hx : t.region = some x ∨ t.script = some x) (sep : Bytes) (hsep : sep = b!"_" ∨ sep = b!"-") :
    ∃ l1 l2 l3, expandLanguage t = l1 ++ (base ++ sep ++ x) :: l2 ++ base :: l3 := by
  have hm1 : base ++ sep ++ x ∈ expandLanguage t := by
    rw [C47_members, spellings, hb]
    simp only [List.mem_append, List.mem_flatMap]
    right
    refine ⟨x, ?_, ?_⟩
    · rcases hx with h | h <;> simp [h]
    · rcases hsep with rfl | rfl <;> simp
  have hm2 : base ∈ expandLanguage t := by
    rw [C47_members, spellings, hb]; simp
  have hlen : base.length < (base ++ sep ++ x).length := by rcases hsep with rfl | rfl <;> simp
  obtain ⟨l1, r, hr⟩ := List.append_of_mem hm1
  rw [hr, List.mem_append, List.mem_cons] at hm2
  have ho := C47_order t
  rw [hr, List.pairwise_append] at ho
  rcases hm2 with h | h | h
  · have := ho.2.2 base h _ List.mem_cons_self
    rcases this with h | ⟨h, _⟩ <;> omega
  · rw [← h] at hlen; omega
  · obtain ⟨l2, l3, rfl⟩ := List.append_of_mem h
    exact ⟨l1, l2, l3, by rw [hr]; simp⟩

example : expandLanguage (german ()) = [b!"de-Latn", b!"de_Latn", b!"de-AT", b!"de_AT", b!"deu", b!"de"] := by decide +kernel

/-! ## C48 -/

/-- A byte that starts an encoding, a modifier or a second language. -/
def Separator (c : UInt8) : Prop := c = 0x3a ∨ c = 0x40 ∨ c = 0x2e

/-- The name is the part before the first separator, without the white space around it. -/
theorem C48_name (s : Bytes) : ∃ a b rest, s = a ++ languageName s ++ b ++ rest ∧ Spaces a ∧ Spaces b ∧
    (∀ c ∈ a ++ languageName s ++ b, ¬ Separator c) ∧ (rest = [] ∨ ∃ c, rest.head? = some c ∧ Separator c) ∧
    (∀ e ∈ spaceEncodings, ¬ e <+: languageName s) ∧ ∀ e ∈ spaceEncodings, ¬ e <:+ languageName s := by
  obtain ⟨rest, h1, h2, h3⟩ := cuts_spec s
  obtain ⟨a, b, ha, hb, h4, h5, h6⟩ := trimSpace_spec (cutAt 0x2e (cutAt 0x40 (cutAt 0x3a s)))
  exact ⟨a, b, rest, by rw [languageName, ← h4, ← h1], ha, hb, by rw [languageName, ← h4]; exact h2, h3, h5, h6⟩

/-- A name without separators and surrounding white space is unchanged. -/
theorem C48_unchanged (s : Bytes) (h1 : ∀ c ∈ s, ¬ Separator c) (h2 : ∀ e ∈ spaceEncodings, ¬ e <+: s)
    (h3 : ∀ e ∈ spaceEncodings, ¬ e <:+ s) : languageName s = s := by
  have e1 := cutAt_id (c := 0x3a) (s := s) fun h => h1 _ h (.inl rfl)
  have e2 := cutAt_id (c := 0x40) (s := s) fun h => h1 _ h (.inr (.inl rfl))
  have e3 := cutAt_id (c := 0x2e) (s := s) fun h => h1 _ h (.inr (.inr rfl))
  rw [languageName, e1, e2, e3, trimSpace_id h2 h3]

/-- What follows a separator does not matter. -/
theorem C48_suffix (s t : Bytes) (c : UInt8) (hc : Separator c) : languageName (s ++ c :: t) = languageName s := by
  have key : ∀ (d : UInt8) (u v : Bytes), d ∈ u → cutAt d (u ++ v) = cutAt d u := by
    intro d u v hd
    have hi : indexByte? d (u ++ v) = indexByte? d u ∧ ∃ i, indexByte? d u = some i ∧ i ≤ u.length := by
      induction u with
      | nil => cases hd
      | cons x u ih =>
        rw [List.cons_append, indexByte?, indexByte?]
        by_cases hx : x = d
        · rw [if_pos hx, if_pos hx]; exact ⟨rfl, 0, rfl, Nat.zero_le _⟩
        · rw [if_neg hx, if_neg hx]
          have hm : d ∈ u := by
            rcases List.mem_cons.1 hd with h | h
            · exact absurd h.symm hx
            · exact h
          obtain ⟨h1, i, h2, h3⟩ := ih hm
          rw [h1, h2]
          exact ⟨rfl, i + 1, rfl, by simp; omega⟩
    obtain ⟨h1, i, h2, h3⟩ := hi
    unfold cutAt
    rw [h1, h2]
    simp only
    rw [List.take_append_of_le_length h3]
  have key2 : ∀ (d : UInt8) (u v : Bytes), d ∉ u → cutAt d (u ++ v) = u ++ cutAt d v := by
    intro d u v hd
    induction u with
    | nil => rfl
    | cons x u ih =>
      rw [List.mem_cons, not_or] at hd
      have ih := ih hd.2
      unfold cutAt at ih ⊢
      rw [List.cons_append, indexByte?, if_neg (fun e => hd.1 e.symm)]
      cases h : indexByte? d (u ++ v) with
      | none => rw [h] at ih; simp only [Option.map_none] at ih ⊢; rw [ih]; rfl
      | some i => rw [h] at ih; simp only [Option.map_some, List.take_succ_cons] at ih ⊢; rw [ih]; rfl
  have hself : ∀ (d : UInt8) (v : Bytes), cutAt d (d :: v) = [] := by intro d v; simp [cutAt, indexByte?]
  have step : ∀ (d : UInt8) (u v : Bytes), cutAt d (u ++ d :: v) = cutAt d u := by
    intro d u v
    by_cases hd : d ∈ u
    · exact key d u _ hd
    · rw [key2 d u _ hd, hself, cutAt_id hd, List.append_nil]
  have pres : ∀ (d : UInt8) (u v : Bytes), ∃ v', cutAt d (u ++ v) = cutAt d u ++ v' ∧ (d ∉ u → v' = cutAt d v) ∧ (d ∈ u → v' = []) := by
    intro d u v
    by_cases hd : d ∈ u
    · exact ⟨[], by rw [key d u _ hd, List.append_nil], fun h => absurd hd h, fun _ => rfl⟩
    · exact ⟨cutAt d v, by rw [key2 d u _ hd, cutAt_id hd], fun _ => rfl, fun h => absurd h hd⟩
  have ne : ∀ (d : UInt8) (v : Bytes), d ≠ c → cutAt d (c :: v) = c :: cutAt d v := by
    intro d v h
    exact key2 d [c] v (by simpa using h)
  unfold languageName
  congr 1
  rcases hc with rfl | rfl | rfl
  · rw [step]
  · obtain ⟨v, h1, h2, h3⟩ := pres 0x3a s (0x40 :: t)
    rw [h1]
    by_cases hd : (0x3a : UInt8) ∈ s
    · rw [h3 hd, List.append_nil]
    · rw [h2 hd, ne _ _ (by decide), step]
  · obtain ⟨v, h1, h2, h3⟩ := pres 0x3a s (0x2e :: t)
    rw [h1]
    by_cases hd : (0x3a : UInt8) ∈ s
    · rw [h3 hd, List.append_nil]
    · rw [h2 hd, ne _ _ (by decide)]
      obtain ⟨w, g1, g2, g3⟩ := pres 0x40 (cutAt 0x3a s) (0x2e :: cutAt 0x3a t)
      rw [g1]
      by_cases hd2 : (0x40 : UInt8) ∈ cutAt 0x3a s
      · rw [g3 hd2, List.append_nil]
      · rw [g2 hd2, ne _ _ (by decide), step]

/-- Normalising twice is normalising once. -/
theorem C48_idempotent (s : Bytes) : languageName (languageName s) = languageName s := by
  obtain ⟨a, b, rest, _, _, _, h1, _, h2, h3⟩ := C48_name s
  exact C48_unchanged _ (fun c hc => h1 c (by simp [hc])) h2 h3

example : languageName b!"de_DE.UTF-8" = b!"de_DE" ∧ languageName b!"de@euro" = b!"de" ∧ languageName b!" de :en" = b!"de" ∧
    languageName b!"zh-Hans" = b!"zh-Hans" := by decide +kernel

example : Separator 0x2e ∧ (∀ c ∈ b!"de_DE", ¬ Separator c) ∧ (∀ e ∈ spaceEncodings, ¬ e <+: b!"de_DE") ∧
    ∀ e ∈ spaceEncodings, ¬ e <:+ b!"de_DE" := by
  refine ⟨.inr (.inr rfl), ?_, by decide, by decide⟩
  intro c hc hs
  revert c
  unfold Separator
  decide

/-! ## C72 -/

def isFs : FsOption L C → Bool | .fs (some _) => true | _ => false
def isResolver : FsOption L C → Bool | .resolver (some _) => true | _ => false
def decoderOf : FsOption L C → Option (Bytes × Decoder L C) | .decoder e d => some (e, d) | _ => none

/-- An option that is refused after others: nil, or a file system or resolver if that is already set. -/
def Refuses (before : List (FsOption L C)) : FsOption L C → Prop
  | .nil => True
  | .fs _ => before.any isFs = true
  | .resolver _ => before.any isResolver = true
  | .decoder _ _ => False

/-- A nil option, or a file system or resolver option after one that has set it. -/
def Refused (opts : List (FsOption L C)) : Prop :=
  ∃ before o after, opts = before ++ o :: after ∧
    Refuses before o

theorem applyAll_spec (opts : List (FsOption L C)) : ∀ (l : FsLoader L C) (pre : List (FsOption L C)),
    l.fsys.isSome = pre.any isFs → l.resolver.isSome = pre.any isResolver →
    match l.applyAll opts with
    | none => ∃ before o after, opts = before ++ o :: after ∧
        Refuses (pre ++ before) o
    | some l' => (∀ before o after, opts = before ++ o :: after →
          ¬ Refuses (pre ++ before) o) ∧
        l'.fsys.isSome = (pre ++ opts).any isFs ∧ l'.resolver.isSome = (pre ++ opts).any isResolver ∧
        l'.extensions = l.extensions ++ (opts.filterMap decoderOf).map Prod.fst ∧
        l'.decoder = l.decoder ++ (opts.filterMap decoderOf).map Prod.snd := by
  induction opts with
  | nil =>
    intro l pre h1 h2
    rw [FsLoader.applyAll]
    exact ⟨fun before o after h => by simp at h, by simp [h1], by simp [h2], by simp, by simp⟩
  | cons o os ih =>
    intro l pre h1 h2
    have shift : ∀ (l1 : FsLoader L C), l1.fsys.isSome = (pre ++ [o]).any isFs → l1.resolver.isSome = (pre ++ [o]).any isResolver →
        ¬ Refuses pre o →
        l1.extensions = l.extensions ++ ((decoderOf o).toList).map Prod.fst →
        l1.decoder = l.decoder ++ ((decoderOf o).toList).map Prod.snd →
        match l1.applyAll os with
        | none => ∃ before o' after, o :: os = before ++ o' :: after ∧
            Refuses (pre ++ before) o'
        | some l' => (∀ before o' after, o :: os = before ++ o' :: after →
              ¬ Refuses (pre ++ before) o') ∧
            l'.fsys.isSome = (pre ++ o :: os).any isFs ∧ l'.resolver.isSome = (pre ++ o :: os).any isResolver ∧
            l'.extensions = l.extensions ++ ((o :: os).filterMap decoderOf).map Prod.fst ∧
            l'.decoder = l.decoder ++ ((o :: os).filterMap decoderOf).map Prod.snd := by
      intro l1 g1 g2 g3 g4 g5
      have := ih l1 (pre ++ [o]) g1 g2
      have e0 : ∀ x : List (FsOption L C), pre ++ [o] ++ x = pre ++ o :: x := fun x => by simp
      have e1 : ((decoderOf o).toList ++ os.filterMap decoderOf) = (o :: os).filterMap decoderOf := by
        rw [List.filterMap_cons]
        cases decoderOf o <;> rfl
      cases ha : l1.applyAll os with
      | none =>
        rw [ha] at this
        obtain ⟨before, o', after, h3, h4⟩ := this
        refine ⟨o :: before, o', after, by rw [h3]; rfl, ?_⟩
        rw [e0] at h4; exact h4
      | some l' =>
        rw [ha] at this
        obtain ⟨k1, k2, k3, k4, k5⟩ := this
        refine ⟨?_, by rw [k2, e0], by rw [k3, e0], by rw [k4, g4, List.append_assoc, ← List.map_append, e1],
          by rw [k5, g5, List.append_assoc, ← List.map_append, e1]⟩
        intro before o' after h
        cases before with
        | nil =>
          simp only [List.nil_append, List.cons.injEq] at h
          obtain ⟨rfl, _⟩ := h
          rw [List.append_nil]; exact g3
        | cons b before =>
          simp only [List.cons_append, List.cons.injEq] at h
          obtain ⟨rfl, h⟩ := h
          have := k1 before o' after h
          rw [e0] at this
          exact this
    cases o with
    | nil => rw [FsLoader.applyAll]; exact ⟨[], .nil, os, rfl, trivial⟩
    | fs f =>
      rw [FsLoader.applyAll]
      by_cases h : l.fsys.isSome = true
      · rw [if_pos h]; exact ⟨[], .fs f, os, rfl, by rw [List.append_nil, Refuses, ← h1]; exact h⟩
      · rw [if_neg h]
        have hf : pre.any isFs = false := by rw [← h1]; simpa using h
        refine shift _ ?_ ?_ ?_ (by simp [decoderOf]) (by simp [decoderOf])
        · rw [List.any_append, hf]; cases f <;> rfl
        · rw [List.any_append, ← h2]; simp [isResolver]
        · rw [Refuses, hf]; simp
    | resolver f =>
      rw [FsLoader.applyAll]
      by_cases h : l.resolver.isSome = true
      · rw [if_pos h]; exact ⟨[], .resolver f, os, rfl, by rw [List.append_nil, Refuses, ← h2]; exact h⟩
      · rw [if_neg h]
        have hf : pre.any isResolver = false := by rw [← h2]; simpa using h
        refine shift _ ?_ ?_ ?_ (by simp [decoderOf]) (by simp [decoderOf])
        · rw [List.any_append, ← h1]; simp [isFs]
        · rw [List.any_append, hf]; cases f <;> rfl
        · rw [Refuses, hf]; simp
    | decoder e d =>
      rw [FsLoader.applyAll]
      refine shift _ ?_ ?_ (by simp [Refuses]) (by simp [decoderOf, FsLoader.addDecoder]) (by simp [decoderOf, FsLoader.addDecoder])
      · rw [List.any_append, FsLoader.addDecoder, h1]; simp [isFs]
      · rw [List.any_append, FsLoader.addDecoder, h2]; simp [isResolver]

/-- The decoders in use: those of the options in their order, without any the three standard ones. -/
def decoders (po mo json : Decoder L C) (opts : List (FsOption L C)) : List (Bytes × Decoder L C) :=
  if opts.filterMap decoderOf = [] then [(b!".po", po), (b!".mo", mo), (b!".json", json)] else opts.filterMap decoderOf

/-- A loader is created exactly if there is a file system and no option is refused.  Then extension and decoder
always belong together. -/
theorem C72_created (info : L → TagInfo) (po mo json : Decoder L C) (opts : List (FsOption L C)) :
    match newFilesystemLoader info po mo json opts with
    | none => Refused opts ∨ opts.any isFs = false
    | some l => ¬ Refused opts ∧ opts.any isFs = true ∧ l.fsys.isSome = true ∧ l.resolver.isSome = true ∧
        l.extensions = (decoders po mo json opts).map Prod.fst ∧ l.decoder = (decoders po mo json opts).map Prod.snd := by
  have h := applyAll_spec opts (⟨none, none, [], []⟩ : FsLoader L C) [] rfl rfl
  unfold newFilesystemLoader
  cases ha : FsLoader.applyAll (⟨none, none, [], []⟩ : FsLoader L C) opts with
  | none =>
    rw [ha] at h
    obtain ⟨b, o, a, h1, h2⟩ := h
    exact .inl ⟨b, o, a, h1, h2⟩
  | some l =>
    rw [ha] at h
    obtain ⟨h1, h2, h3, h4, h5⟩ := h
    simp only [List.nil_append] at h2 h3 h4 h5
    have hr : ¬ Refused opts := by
      rintro ⟨b, o, a, g1, g2⟩
      exact h1 b o a g1 g2
    have hdec : l.decoder = [] ↔ opts.filterMap decoderOf = [] := by rw [h5]; simp
    simp only
    have hsame : ∀ l' : FsLoader L C, l' = (if l.decoder = [] then ((l.addDecoder b!".po" po).addDecoder b!".mo" mo).addDecoder b!".json" json else l) →
        l'.fsys = l.fsys ∧ l'.resolver = l.resolver ∧ l'.extensions = (decoders po mo json opts).map Prod.fst ∧
          l'.decoder = (decoders po mo json opts).map Prod.snd := by
      rintro l' rfl
      unfold decoders
      by_cases hd : l.decoder = []
      · rw [if_pos hd, if_pos (hdec.1 hd)]
        have he : l.extensions = [] := by rw [h4, hdec.1 hd]; rfl
        simp [FsLoader.addDecoder, hd, he]
      · rw [if_neg hd, if_neg (fun h => hd (hdec.2 h))]
        exact ⟨rfl, rfl, h4, h5⟩
    generalize hl : (if l.decoder = [] then ((l.addDecoder b!".po" po).addDecoder b!".mo" mo).addDecoder b!".json" json else l) = l'
    obtain ⟨g1, g2, g3, g4⟩ := hsame l' hl.symm
    rw [g1]
    by_cases hf : l.fsys.isNone = true
    · rw [if_pos hf]
      right
      rw [← h2]
      simpa using hf
    · rw [if_neg hf]
      have hfs : l.fsys.isSome = true := by
        cases hx : l.fsys with
        | none => rw [hx] at hf; exact absurd rfl hf
        | some _ => rfl
      by_cases hx : l'.resolver.isNone = true
      · rw [if_pos hx]
        exact ⟨hr, by rw [← h2]; exact hfs, hfs, rfl, g3, g4⟩
      · rw [if_neg hx]
        refine ⟨hr, by rw [← h2]; exact hfs, by rw [g1]; exact hfs, ?_, g3, g4⟩
        cases hy : l'.resolver with
        | none => rw [hy] at hx; exact absurd rfl hx
        | some _ => rfl

/-- A created loader never panics, for any resolver. -/
theorem C72_load_no_panic (info : L → TagInfo) (po mo json : Decoder L C) (opts : List (FsOption L C)) (l : FsLoader L C)
    (h : newFilesystemLoader info po mo json opts = some l) (lang : L) (domain : Bytes) :
    ∃ r, l.load lang domain = .ok r := by
  have hc := C72_created info po mo json opts
  rw [h] at hc
  obtain ⟨_, _, h1, h2, h3, h4⟩ := hc
  obtain ⟨fs, h1⟩ := Option.isSome_iff_exists.1 h1
  obtain ⟨r, h2⟩ := Option.isSome_iff_exists.1 h2
  unfold FsLoader.load
  rw [h1, h2]
  simp only
  have key : ∀ (ds : List (Bytes × Decoder L C)) (done : List (Decoder L C)), l.decoder = done ++ ds.map Prod.snd →
      ∃ x, l.loadFrom fs r lang domain done.length (ds.map Prod.fst) = .ok x := by
    intro ds
    induction ds with
    | nil => intro done _; exact ⟨_, rfl⟩
    | cons d ds ih =>
      intro done hd
      have ih := ih (done ++ [d.2]) (by rw [hd]; simp)
      rw [List.length_append] at ih
      rw [List.map_cons, FsLoader.loadFrom]
      have hi : l.decoder[done.length]? = some d.2 := by rw [hd]; simp
      have : ∃ y, l.loadFromFile fs r lang domain d.1 done.length = .ok y := by
        unfold FsLoader.loadFromFile
        cases r fs d.1 lang domain with
        | error e => exact ⟨_, rfl⟩
        | ok p =>
          simp only
          cases fs p with
          | none => exact ⟨_, rfl⟩
          | some n => simp only [hi]; exact ⟨_, rfl⟩
      obtain ⟨y, hy⟩ := this
      rw [hy]
      cases y with
      | ok c => exact ⟨_, rfl⟩
      | error e =>
        cases e with
        | notExist => exact ih
        | notFound => exact ⟨_, rfl⟩
        | other => exact ⟨_, rfl⟩
  have := key (decoders po mo json opts) [] (by rw [h4]; rfl)
  rw [h3]
  exact this

example : (newFilesystemLoader german echo echo echo [.fs (some demoFs)]).isSome = true ∧
    (newFilesystemLoader german echo echo echo []).isNone = true ∧
    (newFilesystemLoader german echo echo echo [.fs (some demoFs), .fs none]).isNone = true ∧
    (newFilesystemLoader german echo echo echo [.fs none, .fs (some demoFs)]).isSome = true := ⟨rfl, rfl, rfl, rfl⟩

end Verif.Props.Loader
