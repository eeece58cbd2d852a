import Verif.Proofs.Mo
import Verif.Props.Gettext
/-!
# MO files: C17, C18
-/
namespace Verif.Props.Mo
open Verif.Go Verif.Spec.Mo Verif.Proofs.Mo
open Verif.Model.Mo (Order parse moDecode)
open Verif.Model.Po (Message File Header Unicode)
open Verif.Model.Catalog
open Verif.Proofs.Catalog (Consistent)

/-! ## C17 -/

/-- A header, a message with context and a message with plural forms. -/
def demo : List Entry :=
  [⟨none, [], none, [b!"Language: de\n"]⟩, ⟨some b!"ctx", b!"a", none, [b!"A"]⟩,
    ⟨none, b!"%d day", some b!"%d days", [b!"%d Tag", b!"%d Tage"]⟩]

theorem demo_wf : (∀ e ∈ demo, e.WF) ∧ ((demo.filter fun e => e.id ≠ []).map Entry.key).Nodup := by
  refine ⟨?_, by decide⟩
  intro e he
  simp only [demo, List.mem_cons, List.not_mem_nil, or_false] at he
  rcases he with rfl | rfl | rfl
  · exact ⟨by decide, nofun, fun _ => ⟨by decide, nofun⟩, fun _ => ⟨_, rfl⟩, fun h => absurd rfl h⟩
  · exact ⟨by decide, fun c hc => by cases hc; decide, nofun, fun _ => ⟨_, rfl⟩, fun h => absurd rfl h⟩
  · exact ⟨by decide, nofun, fun _ => ⟨by decide, fun p hp => by cases hp; decide⟩, nofun, fun _ => ⟨by decide, by decide⟩⟩

/-- For every image, in both byte orders and with every layout: the file is accepted, and the messages found
are exactly those of the entries with a non-empty id, with context, id, plural id and all translations.
Missing for the full property: entries with an empty id other than the header (`C17_negation`). -/
theorem C17_exact_partial (u : Unicode) (bo : Order) (data : Bytes) (es : List Entry) (h : Image bo data es)
    (hw : ∀ e ∈ es, e.WF) (hk : ((es.filter fun e => e.id ≠ []).map Entry.key).Nodup) :
    ∃ f, parse u data = some f ∧ ∀ c i m,
      f.getMessage c i = some m ↔ ∃ e ∈ es, e.id ≠ [] ∧ e.key = (c, i) ∧ m = e.message := by
  refine ⟨_, parse_image h, fun c i m => ?_⟩
  rw [load_messages u hw hk]
  · have : File.new.getMessage c i = none := rfl
    rw [this]; simp
  · intro e _ _; rfl

/-- Every list of entries has an image in either byte order, unless offsets do not fit into 32 bits. -/
theorem C17_images_exist (bo : Order) (es : List Entry) (h : (write bo es).length < 256 ^ 4) :
    Image bo (write bo es) es := write_image bo es h

/-- Thus: what has been written is read back. -/
theorem C17_round_trip_partial (u : Unicode) (bo : Order) (es : List Entry) (h : (write bo es).length < 256 ^ 4)
    (hw : ∀ e ∈ es, e.WF) (hk : ((es.filter fun e => e.id ≠ []).map Entry.key).Nodup) :
    ∃ f, parse u (write bo es) = some f ∧ ∀ c i m,
      f.getMessage c i = some m ↔ ∃ e ∈ es, e.id ≠ [] ∧ e.key = (c, i) ∧ m = e.message :=
  C17_exact_partial u bo _ es (write_image bo es h) hw hk

example : (write .little demo).length < 256 ^ 4 ∧ (write .big demo).length < 256 ^ 4 := by decide +kernel

example : demo.map Entry.message = [{ Message.new with str := [(0, b!"Language: de\n")] },
    { Message.new with context := b!"ctx", id := b!"a", str := [(0, b!"A")] },
    { Message.new with id := b!"%d day", idPlural := b!"%d days", str := [(0, b!"%d Tag"), (1, b!"%d Tage")] }] := rfl

example (u : Unicode) : ∃ f, parse u (write .big demo) = some f ∧
    f.getMessage [] b!"%d day" =
      some { Message.new with id := b!"%d day", idPlural := b!"%d days", str := [(0, b!"%d Tag"), (1, b!"%d Tage")] } := by
  obtain ⟨f, h1, h2⟩ := C17_round_trip_partial u .big demo (by decide +kernel) demo_wf.1 demo_wf.2
  exact ⟨f, h1, (h2 _ _ _).2 ⟨_, by simp [demo]; exact .inr (.inr rfl), by decide, rfl, rfl⟩⟩

/-- The header consists of the fields of the header entry's text. -/
theorem C17_header (u : Unicode) (bo : Order) (data : Bytes) (es : List Entry) (h : Image bo data es) (e : Entry)
    (he : es.filter (fun e => e.isHeader) = [e]) :
    ∃ f, parse u data = some f ∧
      f.header = some ((headerFields e.rawStr).foldl (fun h f => h.set u f.1 f.2) {}) := by
  refine ⟨_, parse_image h, ?_⟩
  rw [load_header]
  have : (es.map fun e => (e.rawId, e.rawStr)).filter (fun t => t.1 = []) = [(e.rawId, e.rawStr)] := by
    rw [List.filter_map]
    have hc : ((fun t : Bytes × Bytes => decide (t.1 = [])) ∘ fun e : Entry => (e.rawId, e.rawStr)) =
        fun e : Entry => decide e.isHeader := by
      funext x; exact decide_eq_decide.2 rawId_nil
    rw [hc, he]
    rfl
  rw [this]
  exact congrArg some (parseMessageHeader_eq u e.rawStr)

example : demo.filter (fun e => e.isHeader) = [⟨none, [], none, [b!"Language: de\n"]⟩] ∧
    headerFields b!"Language: de\nno colon\nPlural-Forms: nplurals=2; plural=n != 1;\nX-Time: 12:30\n" =
      [(b!"Language", b!"de"), (b!"Plural-Forms", b!"nplurals=2; plural=n != 1;"), (b!"X-Time", b!"12:30")] := ⟨rfl, by decide +kernel⟩

/-- A catalog decoded from an image serves exactly the non-empty translations of its entries. -/
theorem C17_catalog (u : Unicode) (lang : Tag) (domain : Bytes) (useCLDR : Bool) (bo : Order) (data : Bytes) (es : List Entry)
    (h : Image bo data es) (hw : ∀ e ∈ es, e.WF) (hk : ((es.filter fun e => e.id ≠ []).map Entry.key).Nodup)
    (c : GettextCatalog) (hd : moDecode u lang domain useCLDR data = .catalog c) (ctx id text : Bytes) :
    c.lookup ctx id = (text, none) ↔
      id ≠ [] ∧ text ≠ [] ∧ ∃ e ∈ es, e.key = (ctx, id) ∧ e.strs.head? = some text := by
  have hp := parse_image (u := u) h
  obtain ⟨f, h1, h2⟩ := C17_exact_partial u bo data es h hw hk
  rw [h1] at hp
  have hc : Consistent f.messages := by
    rw [Option.some.inj hp]; exact load_consistent u _ Verif.Proofs.Catalog.Consistent.nil
  unfold moDecode at hd
  simp only [h1] at hd
  cases hb : buildGettextCatalog u f lang domain useCLDR with
  | error e => rw [hb] at hd; cases hd
  | ok r =>
    rw [hb] at hd
    cases r with
    | none => cases hd
    | some c' =>
      cases hd
      rw [Verif.Props.Gettext.C20_lookup u f lang domain useCLDR c hc hb]
      have hstr : ∀ e : Entry, e.message.str.get? 0 = e.strs.head? := by
        intro e
        show (numbered 0 e.strs).get? 0 = _
        cases e.strs <;> rfl
      constructor
      · rintro ⟨h3, h4, m, h5, _, h6⟩
        obtain ⟨e, he, _, hk, rfl⟩ := (h2 ctx id m).1 h5
        exact ⟨h3, h4, e, he, hk, by rw [← hstr]; exact h6⟩
      · rintro ⟨h3, h4, e, he, hk, h5⟩
        refine ⟨h3, h4, e.message, (h2 ctx id _).2 ⟨e, he, ?_, hk, rfl⟩, rfl, by rw [hstr]; exact h5⟩
        have : e.id = id := (Prod.mk.inj hk).2
        rw [this]; exact h3

/-- Decoding never panics, whatever the data are. -/
theorem C17_no_panic (u : Unicode) (lang : Tag) (domain : Bytes) (useCLDR : Bool) (data : Bytes) :
    moDecode u lang domain useCLDR data ≠ .panic := by
  unfold moDecode
  cases hp : parse u data with
  | none => nofun
  | some f =>
    obtain ⟨_, _, _, _, _, _, _, _, _, _, _, _, _, hf⟩ := parse_iff.1 hp
    have hc : Consistent f.messages := by rw [hf]; exact load_consistent u _ Verif.Proofs.Catalog.Consistent.nil
    obtain ⟨r, hr, _⟩ := Verif.Props.Gettext.C20_exactly_non_fuzzy u f lang domain useCLDR hc
    simp only [hr]
    cases r <;> nofun

example (u : Unicode) (lang : Tag) (domain : Bytes) : ∃ c, moDecode u lang domain true (write .big demo) = .catalog c := by
  unfold moDecode
  rw [parse_image (write_image .big demo (by decide +kernel))]
  exact ⟨_, rfl⟩

/-- An entry with a context and an empty id is a message, but the parser drops it. -/
theorem C17_negation (u : Unicode) : ∃ (es : List Entry) (f : File), (∀ e ∈ es, e.WF ∧ ¬ e.isHeader) ∧
    Image .little (write .little es) es ∧ parse u (write .little es) = some f ∧ es ≠ [] ∧
    ∀ c i, f.getMessage c i = none := by
  refine ⟨[⟨some b!"ctx", [], none, [b!"A"]⟩], File.new, ?_, write_image _ _ (by decide), ?_, by simp, fun _ _ => rfl⟩
  · intro e he
    simp only [List.mem_singleton] at he
    subst he
    exact ⟨⟨by decide, fun c hc => by cases hc; decide, nofun, fun _ => ⟨_, rfl⟩, fun h => absurd rfl h⟩, by decide⟩
  · rw [parse_image (write_image .little _ (by decide))]
    rfl

/-! ## C18 -/

/-- Exactly the following files are accepted: a header of 28 bytes with the magic number in one of the byte
orders and revision numbers 0 or 1, both tables inside the file, every string starting inside the file.
Missing for the full property: that strings also end inside the file (`C18_negation`). -/
theorem C18_accepted_iff_partial (u : Unicode) (data : Bytes) : (∃ f, parse u data = some f) ↔
    ∃ (bo : Order) (n o t : Nat) (ids strs : List (Nat × Nat)), HeadAt bo data n o t ∧ ids.length = n ∧ strs.length = n ∧
      (∀ i r, ids[i]? = some r →
        NumAt bo data (o + 8 * i) 4 r.1 ∧ NumAt bo data (o + 8 * i + 4) 4 r.2 ∧ r.2 < data.length) ∧
      (∀ i r, strs[i]? = some r →
        NumAt bo data (t + 8 * i) 4 r.1 ∧ NumAt bo data (t + 8 * i + 4) 4 r.2 ∧ r.2 < data.length) := by
  constructor
  · rintro ⟨f, hf⟩
    obtain ⟨bo, n, o, t, ids, strs, h1, h2, h3, h4, h5, h6, h7, _⟩ := parse_iff.1 hf
    exact ⟨bo, n, o, t, ids, strs, h1, h2, h3, fun i r h => ⟨(h4 i r h).1, (h4 i r h).2, h6 r (List.mem_of_getElem? h)⟩,
      fun i r h => ⟨(h5 i r h).1, (h5 i r h).2, h7 r (List.mem_of_getElem? h)⟩⟩
  · rintro ⟨bo, n, o, t, ids, strs, h1, h2, h3, h4, h5⟩
    refine ⟨_, parse_iff.2 ⟨bo, n, o, t, ids, strs, h1, h2, h3, fun i r h => ⟨(h4 i r h).1, (h4 i r h).2.1⟩,
      fun i r h => ⟨(h5 i r h).1, (h5 i r h).2.1⟩, ?_, ?_, rfl⟩⟩
    · intro r hr
      obtain ⟨i, hi⟩ := List.getElem?_of_mem hr
      exact (h4 i r hi).2.2
    · intro r hr
      obtain ⟨i, hi⟩ := List.getElem?_of_mem hr
      exact (h5 i r hi).2.2

theorem parse_none_of {u : Unicode} {data : Bytes} (h : ∀ f, parse u data = some f → False) : parse u data = none := by
  cases hp : parse u data with
  | none => rfl
  | some f => exact (h f hp).elim

/-- Without one of the two magic numbers at the beginning the file is rejected. -/
theorem C18_magic (u : Unicode) (data : Bytes) (h1 : data.take 4 ≠ [0xde, 0x12, 0x04, 0x95])
    (h2 : data.take 4 ≠ [0x95, 0x04, 0x12, 0xde]) : parse u data = none := by
  refine parse_none_of fun f hf => ?_
  obtain ⟨bo, n, o, t, ids, strs, hh, _⟩ := parse_iff.1 hf
  obtain ⟨pre, post, hd, hp⟩ := hh.1.2
  rw [List.length_eq_zero_iff.1 hp, List.nil_append] at hd
  cases bo with
  | little => exact h1 (by rw [hd]; rfl)
  | big => exact h2 (by rw [hd]; rfl)

example : b!"msgid \"a\"\n".take 4 ≠ [0xde, 0x12, 0x04, 0x95] ∧ b!"msgid \"a\"\n".take 4 ≠ [0x95, 0x04, 0x12, 0xde] := by decide

/-- A file shorter than the header is rejected. -/
theorem C18_short (u : Unicode) (data : Bytes) (h : data.length < 28) : parse u data = none := by
  refine parse_none_of fun f hf => ?_
  obtain ⟨bo, n, o, t, ids, strs, hh, _⟩ := parse_iff.1 hf
  obtain ⟨_, _, _, _, _, _, _, x, hx⟩ := hh
  have := (hasAt_iff.1 hx.2).1
  rw [bytesOf_length] at this
  omega

example : ((write .little demo).take 27).length < 28 := by decide

/-- The byte order of an accepted file is the one of its magic number. -/
theorem order_unique {data : Bytes} {bo bo' : Order} (h : NumAt bo data 0 4 0x950412de) (h' : NumAt bo' data 0 4 0x950412de) :
    bo = bo' := by
  have := order_iff.2 h
  rw [order_iff.2 h'] at this
  exact (Option.some.inj this).symm

/-- An unknown revision is rejected. -/
theorem C18_version (u : Unicode) (bo : Order) (data : Bytes) (a b : Nat) (hm : NumAt bo data 0 4 0x950412de)
    (ha : NumAt bo data 4 2 a) (hb : NumAt bo data 6 2 b) (h : 2 ≤ a ∨ 2 ≤ b) : parse u data = none := by
  refine parse_none_of fun f hf => ?_
  obtain ⟨bo', n, o, t, ids, strs, hh, _⟩ := parse_iff.1 hf
  obtain ⟨h0, ⟨x, hx, hx1⟩, ⟨y, hy, hy1⟩, _⟩ := hh
  cases order_unique hm h0
  have := numAt_unique ha hx
  have := numAt_unique hb hy
  omega

example : NumAt .big ([0x95, 0x04, 0x12, 0xde, 0, 2, 0, 0] ++ List.replicate 20 0) 0 4 0x950412de ∧
    NumAt .big ([0x95, 0x04, 0x12, 0xde, 0, 2, 0, 0] ++ List.replicate 20 0) 4 2 2 ∧
    NumAt .big ([0x95, 0x04, 0x12, 0xde, 0, 2, 0, 0] ++ List.replicate 20 0) 6 2 0 :=
  ⟨readUint_iff.1 rfl, readUint_iff.1 rfl, readUint_iff.1 rfl⟩

/-- A table that reaches beyond the end of the file is rejected. -/
theorem C18_table (u : Unicode) (bo : Order) (data : Bytes) (n o t : Nat) (hh : HeadAt bo data n o t) (hn : 0 < n)
    (h : data.length < o + 8 * n ∨ data.length < t + 8 * n) : parse u data = none := by
  refine parse_none_of fun f hf => ?_
  obtain ⟨bo', n', o', t', ids, strs, hh', h2, h3, h4, h5, _⟩ := parse_iff.1 hf
  obtain ⟨a1, _, _, a2, a3, a4, _⟩ := hh
  obtain ⟨b1, _, _, b2, b3, b4, _⟩ := hh'
  cases order_unique a1 b1
  cases numAt_unique a2 b2
  cases numAt_unique a3 b3
  cases numAt_unique a4 b4
  have key : ∀ (p : Nat) (rs : List (Nat × Nat)), rs.length = n → RowsAt bo data p rs → p + 8 * n ≤ data.length := by
    intro p rs hl hr
    have hg : rs[n - 1]? = some rs[n - 1] := List.getElem?_eq_getElem (by omega)
    have := (hasAt_iff.1 (hr _ _ hg).2.2).1
    rw [bytesOf_length] at this
    omega
  have := key o ids h2 h4
  have := key t strs h3 h5
  omega

/-- A string that starts beyond the end of the file is rejected.
Missing for the full property: strings that only end there (`C18_negation`). -/
theorem C18_string_start_partial (u : Unicode) (bo : Order) (data : Bytes) (n o t i off : Nat) (hh : HeadAt bo data n o t)
    (hi : i < n) (ho : NumAt bo data (o + 8 * i + 4) 4 off ∨ NumAt bo data (t + 8 * i + 4) 4 off)
    (h : data.length ≤ off) : parse u data = none := by
  refine parse_none_of fun f hf => ?_
  obtain ⟨bo', n', o', t', ids, strs, hh', h2, h3, h4, h5, h6, h7, _⟩ := parse_iff.1 hf
  obtain ⟨a1, _, _, a2, a3, a4, _⟩ := hh
  obtain ⟨b1, _, _, b2, b3, b4, _⟩ := hh'
  cases order_unique a1 b1
  cases numAt_unique a2 b2
  cases numAt_unique a3 b3
  cases numAt_unique a4 b4
  have key : ∀ (p : Nat) (rs : List (Nat × Nat)), rs.length = n → RowsAt bo data p rs → (∀ r ∈ rs, r.2 < data.length) →
      NumAt bo data (p + 8 * i + 4) 4 off → False := by
    intro p rs hl hr hb ho
    have hg : rs[i]? = some rs[i] := List.getElem?_eq_getElem (by omega)
    have e := numAt_unique (hr _ _ hg).2 ho
    have := hb _ (List.mem_of_getElem? hg)
    omega
  rcases ho with ho | ho
  · exact key o ids h2 h4 h6 ho
  · exact key t strs h3 h5 h7 ho

/-- One message whose id is at offset 44 and whose translation is described by the arguments. -/
def oneMessage (len off : UInt8) : Bytes :=
  [0xde, 0x12, 0x04, 0x95, 0, 0, 0, 0, 1, 0, 0, 0, 28, 0, 0, 0, 36, 0, 0, 0, 0, 0, 0, 0, 0, 0, 0, 0,
    1, 0, 0, 0, 44, 0, 0, 0, len, 0, 0, 0, off, 0, 0, 0, 0x61, 0, 0x41, 0]

example : HeadAt .little (oneMessage 1 46) 1 28 36 :=
  ⟨readUint_iff.1 rfl, ⟨0, readUint_iff.1 rfl, by decide⟩, ⟨0, readUint_iff.1 rfl, by decide⟩, readUint_iff.1 rfl,
    readUint_iff.1 rfl, readUint_iff.1 rfl, ⟨0, readUint_iff.1 rfl⟩, ⟨0, readUint_iff.1 rfl⟩⟩

example : NumAt .little (oneMessage 1 48) (36 + 8 * 0 + 4) 4 48 ∧ (oneMessage 1 48).length ≤ 48 :=
  ⟨readUint_iff.1 rfl, by decide⟩

/-- A translation of length 9 of which only two bytes are inside the file: the file is accepted, and the
translation is completed with zero bytes. -/
theorem C18_negation (u : Unicode) : ∃ (data : Bytes) (f : File) (m : Message), parse u data = some f ∧
    HeadAt .little data 1 28 36 ∧ NumAt .little data 36 4 9 ∧ NumAt .little data 40 4 46 ∧ data.length = 48 ∧
    f.getMessage [] b!"a" = some m ∧ m.str = [(0, [0x41, 0, 0, 0, 0, 0, 0, 0, 0])] := by
  have h : ∃ f m, parse u (oneMessage 9 46) = some f ∧ f.getMessage [] b!"a" = some m ∧
      m.str = [(0, [0x41, 0, 0, 0, 0, 0, 0, 0, 0])] := ⟨_, _, rfl, rfl, rfl⟩
  obtain ⟨f, m, h1, h2, h3⟩ := h
  exact ⟨_, f, m, h1, ⟨readUint_iff.1 rfl, ⟨0, readUint_iff.1 rfl, by decide⟩, ⟨0, readUint_iff.1 rfl, by decide⟩,
    readUint_iff.1 rfl, readUint_iff.1 rfl, readUint_iff.1 rfl, ⟨0, readUint_iff.1 rfl⟩, ⟨0, readUint_iff.1 rfl⟩⟩,
    readUint_iff.1 rfl, readUint_iff.1 rfl, rfl, h2, h3⟩

/-- Every message of an accepted file comes from a row of the tables: id and translation are the bytes that
the row points to, completed with zero bytes if the file is too short. -/
theorem C18_nothing_invented (u : Unicode) (data : Bytes) (f : File) (hf : parse u data = some f) :
    ∃ rows : List (Bytes × Bytes), f = load u .new rows ∧ ∀ r ∈ rows, ∃ p q k l, p < data.length ∧ q < data.length ∧
      HasAt (data ++ List.replicate k 0) p r.1 ∧ HasAt (data ++ List.replicate l 0) q r.2 := by
  obtain ⟨bo, n, o, t, ids, strs, h1, h2, h3, h4, h5, h6, h7, hf⟩ := parse_iff.1 hf
  have key : ∀ x : Nat × Nat, x.2 < data.length → ∃ k, HasAt (data ++ List.replicate k 0) x.2 (padded data x) := by
    intro x hx
    refine ⟨x.1 - (data.length - x.2), hasAt_iff.2 ?_⟩
    have hl : (padded data x).length = x.1 := by simp [padded]; omega
    rw [hl]
    refine ⟨by simp; omega, ?_⟩
    rw [List.drop_append_of_le_length (by omega), padded]
    rcases Nat.le_total x.1 (data.length - x.2) with hle | hle
    · have : x.1 - (data.length - x.2) = 0 := by omega
      rw [this]; simp
    · rw [List.take_append, List.length_drop, List.take_of_length_le (l := data.drop x.2) (by simp; omega)]
      congr 1
      rw [List.take_of_length_le (by simp)]
  refine ⟨_, hf, fun r hr => ?_⟩
  obtain ⟨a, b⟩ := r
  have := List.of_mem_zip hr
  obtain ⟨x, hx, rfl⟩ := List.mem_map.1 this.1
  obtain ⟨y, hy, rfl⟩ := List.mem_map.1 this.2
  obtain ⟨k, hk⟩ := key x (h6 x hx)
  obtain ⟨l, hl⟩ := key y (h7 y hy)
  exact ⟨x.2, y.2, k, l, h6 x hx, h7 y hy, hk, hl⟩

end Verif.Props.Mo
