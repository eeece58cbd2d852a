import Verif.Props.Mo
import Verif.Props.PoFile
import Verif.Props.PoParser
import Verif.Spec.Compile
/-!
# The formats PO and MO (C95)
-/
namespace Verif.Props.Formats
open Verif.Go Verif.Spec.Compile Verif.Proofs.Po
open Verif.Model.Po (Message File Header Unicode trimSpace headerLoop)
open Verif.Model.Mo (Order moDecode)
open Verif.Model.Catalog
open Verif.Proofs.Catalog (Consistent)
open Verif.Spec.PoEntry (Block HasLines Short BlankLine blockLines flagsOf textOf Field Str)
open Verif.Spec.Mo (Image numbered write)

/-! ## Headers -/

theorem headerLoop_eq (u : Unicode) {ls : List Bytes} : ∀ {h : Header}, (∀ l ∈ ls, HeaderLine l) →
    headerLoop u h ls = some (Verif.Model.Mo.headerLines u h ls) := by
  induction ls with
  | nil => intro h _; rfl
  | cons l ls ih =>
    intro h hl
    have hi := fun h => ih (h := h) (fun x hx => hl x (List.mem_cons_of_mem _ hx))
    rw [headerLoop, Verif.Model.Mo.headerLines]
    cases hx : indexByte? 0x3a l with
    | none =>
      simp only []
      rw [if_pos]
      · exact hi _
      · rcases hl l List.mem_cons_self with h | h
        · exact h
        · obtain ⟨a, b, rfl, ha⟩ := List.eq_append_cons_of_mem h
          rw [Verif.Proofs.Mo.indexByte_at ha] at hx
          cases hx
    | some i => exact hi _

theorem choosePlural_comment (u : Unicode) (h : Header) (c : Option Verif.Model.Po.Comment) (lang : Tag) (useCLDR : Bool) :
    choosePlural u (some { h with comment := c }) lang useCLDR = choosePlural u (some h) lang useCLDR := by
  have : Header.get u { h with comment := c } poCLDRHeader = h.get u poCLDRHeader := by
    unfold Header.get
    cases Verif.Model.Po.fieldOf u poCLDRHeader with
    | none => rfl
    | some f => cases f <;> rfl
  unfold choosePlural
  simp only [this]

/-! ## Texts -/

theorem forms_numbered (fs : List (Bytes × Field)) : ∀ i : Nat, fs.map (fun p => digitsValue p.1) = List.range' i fs.length →
    fs.map (fun p => ((digitsValue p.1 : Int), p.2.value)) = numbered i (fs.map fun p => p.2.value) := by
  induction fs with
  | nil => intro i _; rfl
  | cons p fs ih =>
    intro i h
    rw [List.map_cons, List.length_cons, List.range'_succ] at h
    obtain ⟨h1, h2⟩ := List.cons.inj h
    rw [List.map_cons, List.map_cons, numbered, ih (i + 1) h2, h1]

theorem str_value {e : Spec.PoEntry.Entry} (h : Plain e) : e.str.value = numbered 0 (strsOf e.str) := by
  cases hs : e.str with
  | single f => rfl
  | plural fs =>
    refine forms_numbered fs 0 ?_
    rw [h.forms fs hs, List.range_eq_range']

theorem get_numbered (ss : List Bytes) : ∀ (i : Nat) (k : Int) (t : Bytes), (numbered i ss).get? k = some t → t ∈ ss := by
  induction ss with
  | nil => intro i k t h; cases h
  | cons s ss ih =>
    intro i k t h
    rw [numbered, GoMap.get?] at h
    split at h
    · cases h; exact List.mem_cons_self
    · exact List.mem_cons_of_mem _ (ih _ _ _ h)

theorem fuzzy_message (e : Spec.PoEntry.Entry) : isFuzzy (e.message true) = true ↔ Fuzzy e := by
  show decide (b!"fuzzy" ∈ flagsOf e.comments) = true ↔ _
  rw [decide_eq_true_iff]
  exact Iff.rfl

/-! ## The file that each parser returns -/

theorem parseHeader_fields (u : Unicode) {e : Spec.PoEntry.Entry} (hp : Plain e) (hf : Fields e) (hi : e.id.value = []) :
    Verif.Model.Po.parseHeader u (e.message true) =
      some { Verif.Model.Mo.parseMessageHeader u (compiled e).rawStr with comment := (e.message true).comment } := by
  obtain ⟨_, f, hs⟩ := hp.header hi
  have h1 : Verif.Model.Po.strAt (e.message true).str 0 = f.value := by
    show Verif.Model.Po.strAt e.str.value 0 = _
    rw [hs]; rfl
  have h2 : (compiled e).rawStr = f.value := by
    show join [0x00] (strsOf e.str) = _
    rw [hs]; rfl
  unfold Verif.Model.Po.parseHeader
  rw [h1, h2, headerLoop_eq u]
  · rfl
  · exact hf hi _ (by rw [hs]; exact List.mem_singleton.2 rfl)

theorem po_side (u : Unicode) {bs : List Block} (hr : Regular bs) (hF : ∀ b ∈ bs, Fields b.2) {tail : List Bytes} {content : Bytes}
    (ht : ∀ l ∈ tail, BlankLine l) (h : HasLines content (blockLines bs ++ tail)) (hs : Short (blockLines bs ++ tail)) :
    ∃ f, Verif.Model.Po.parse u true content = .ok f ∧ Consistent f.messages ∧
      (∀ c i m, f.getMessage c i = some m ↔
        ∃ b ∈ bs, b.2.id.value ≠ [] ∧ (compiled b.2).key = (c, i) ∧ m = b.2.message true) ∧
      ((∀ b ∈ bs, b.2.id.value ≠ []) → f.header = some {}) ∧
      ∀ b ∈ bs, b.2.id.value = [] → f.header =
        some { Verif.Model.Mo.parseMessageHeader u (compiled b.2).rawStr with comment := (b.2.message true).comment } := by
  have hstr : ∀ b ∈ bs, b.2.id.value = [] → b.2.str.value ≠ [] := by
    intro b hb hi
    obtain ⟨_, f, hf⟩ := (hr.plain b hb).header hi
    rw [hf]
    exact fun h => by cases h
  have e1 : proper (bs.map fun b => b.2.message true) =
      (bs.filter fun b => b.2.id.value ≠ []).map fun b => b.2.message true := by
    unfold proper; rw [List.filter_map]; rfl
  have e2 : heads (bs.map fun b => b.2.message true) = (bs.filter fun b => b.2.id.value = []).map fun b => b.2.message true := by
    unfold heads
    rw [List.filter_map]
    congr 1
    refine List.filter_congr fun b hb => ?_
    show decide (b.2.id.value = [] ∧ b.2.str.value ≠ []) = decide (b.2.id.value = [])
    exact decide_eq_decide.2 ⟨fun h => h.1, fun h => ⟨h, hstr b hb h⟩⟩
  have hkey : ∀ b ∈ bs, b.2.id.value = [] → (compiled b.2).key = ([], []) := by
    intro b hb hi
    obtain ⟨⟨h1, _, _⟩, _⟩ := (hr.plain b hb).header hi
    show ((compiled b.2).context.getD [], (compiled b.2).id) = _
    rw [h1]
    exact congrArg _ hi
  have hone : ∀ l : List Block, (∀ b ∈ l, b ∈ bs) → (l.map fun b => (compiled b.2).key).Nodup →
      (∀ b ∈ l, b.2.id.value = []) → l = [] ∨ ∃ b, l = [b] := by
    intro l hl hn hi
    match l with
    | [] => exact .inl rfl
    | [b] => exact .inr ⟨b, rfl⟩
    | b :: c :: l =>
      rw [List.map_cons, List.map_cons, List.nodup_cons] at hn
      refine absurd (List.mem_cons.2 (.inl ?_)) hn.1
      rw [hkey b (hl b List.mem_cons_self) (hi b List.mem_cons_self),
        hkey c (hl c (List.mem_cons_of_mem _ List.mem_cons_self)) (hi c (List.mem_cons_of_mem _ List.mem_cons_self))]
  have hh := hone (bs.filter fun b => b.2.id.value = []) (fun b hb => (List.mem_filter.1 hb).1)
    (hr.keys.sublist (List.filter_sublist.map _)) (fun b hb => by simpa using (List.mem_filter.1 hb).2)
  have hkeys : ((proper (bs.map fun b => b.2.message true)).map keyOf).Nodup := by
    rw [e1, List.map_map]
    exact hr.keys.sublist (List.filter_sublist.map _)
  obtain ⟨st, hst, s1, s2⟩ := storeAll_succeeds u (st := ⟨none, []⟩) (ms := bs.map fun b => b.2.message true)
    (fun m _ => rfl) hkeys (by
      rw [e2]
      rcases hh with hh | ⟨b, hh⟩
      · rw [hh]; exact .inl rfl
      · rw [hh]; exact .inr ⟨rfl, rfl⟩)
  obtain ⟨g1, _, _, _, g5⟩ := storeAll_ok hst
  have hp : Verif.Model.Po.parse u true content = Verif.Model.Po.finish st := by
    rw [parse_run u true h hs, run_blocks u true ht hr.wf (fun b hb => .inl (hr.apart b hb)), blockMessages_apart hr.apart, hst]
    rfl
  have hhead : ∀ b ∈ bs, b.2.id.value = [] → st.header =
      some { Verif.Model.Mo.parseMessageHeader u (compiled b.2).rawStr with comment := (b.2.message true).comment } := by
    intro b hb hi
    rw [← parseHeader_fields u (hr.plain b hb) (hF b hb) hi]
    refine s1 _ ?_ rfl
    rw [e2]
    rcases hh with hh | ⟨c, hh⟩
    · have : b ∈ bs.filter fun b => b.2.id.value = [] := List.mem_filter.2 ⟨hb, by simpa using hi⟩
      rw [hh] at this
      cases this
    · have : b ∈ [c] := by rw [← hh]; exact List.mem_filter.2 ⟨hb, by simpa using hi⟩
      rw [hh, List.mem_singleton.1 this]
      rfl
  rcases finish_cases st with ⟨hh0, hm, _⟩ | ⟨f, hf, hm, hfh⟩
  · exfalso
    obtain ⟨b, hb⟩ := List.exists_mem_of_ne_nil _ hr.some
    by_cases hi : b.2.id.value = []
    · rw [hhead b hb hi] at hh0
      cases hh0
    · have := (g5.1 hm).2
      rw [e1, List.map_eq_nil_iff, List.filter_eq_nil_iff] at this
      exact this b hb (by simpa using hi)
  · have hpf : Verif.Model.Po.parse u true content = .ok f := by rw [hp, hf]
    obtain ⟨_, hc, _⟩ := parse_ok hpf
    refine ⟨f, hpf, hc, fun c i m => ?_, fun hno => ?_, fun b hb hi => ?_⟩
    · rw [getMessage_find hm, g1, e1]
      constructor
      · rintro (h | ⟨h, hk⟩)
        · cases h
        · obtain ⟨b, hb, rfl⟩ := List.mem_map.1 h
          obtain ⟨hb, hn⟩ := List.mem_filter.1 hb
          exact ⟨b, hb, by simpa using hn, hk, rfl⟩
      · rintro ⟨b, hb, hn, hk, rfl⟩
        exact .inr ⟨List.mem_map.2 ⟨b, List.mem_filter.2 ⟨hb, by simpa using hn⟩, rfl⟩, hk⟩
    · rw [hfh, s2]
      · rfl
      · rw [e2, List.map_eq_nil_iff, List.filter_eq_nil_iff]
        intro b hb
        simpa using hno b hb
    · rw [hfh, hhead b hb hi]
      rfl

theorem block_of_key {bs : List Block} (hr : Regular bs) {b c : Block} (hb : b ∈ bs) (hc : c ∈ bs)
    (h : (compiled b.2).key = (compiled c.2).key) : b = c := by
  have := hr.keys
  clear hr
  induction bs with
  | nil => cases hb
  | cons x bs ih =>
    rw [List.map_cons, List.nodup_cons] at this
    rcases List.mem_cons.1 hb with hb | hb <;> rcases List.mem_cons.1 hc with hc | hc
    · rw [hb, hc]
    · rw [← hb] at this
      exact absurd (List.mem_map.2 ⟨c, hc, h.symm⟩) this.1
    · rw [← hc] at this
      exact absurd (List.mem_map.2 ⟨b, hb, h⟩) this.1
    · exact ih hb hc this.2

theorem mo_side (u : Unicode) {bs : List Block} (hr : Regular bs) {es : List Spec.Mo.Entry} (hc : Compiled bs es)
    {bo : Order} {data : Bytes} (hi : Image bo data es) :
    ∃ f, Verif.Model.Mo.parse u data = some f ∧ Consistent f.messages ∧
      (∀ c i m, f.getMessage c i = some m ↔ ∃ e ∈ es, e.id ≠ [] ∧ e.key = (c, i) ∧ m = e.message) ∧
      ((∀ b ∈ bs, b.2.id.value ≠ []) → f.header = some {}) ∧
      ∀ b ∈ bs, b.2.id.value = [] → f.header = some (Verif.Model.Mo.parseMessageHeader u (compiled b.2).rawStr) := by
  have hw : ∀ e ∈ es, e.WF := by
    intro e he
    obtain ⟨b, hb, rfl, _⟩ := hc.source e he
    exact (hr.plain b hb).texts
  have hinj : ∀ e ∈ es, ∀ e' ∈ es, e.key = e'.key → e = e' := by
    intro e he e' he' hk
    obtain ⟨b, hb, rfl, _⟩ := hc.source e he
    obtain ⟨c, hcb, rfl, _⟩ := hc.source e' he'
    rw [block_of_key hr hb hcb hk]
  have hk : ∀ l : List Spec.Mo.Entry, (∀ e ∈ l, e ∈ es) → l.Nodup → (l.map Spec.Mo.Entry.key).Nodup := by
    intro l
    induction l with
    | nil => intro _ _; exact List.nodup_nil
    | cons e l ih =>
      intro hl hn
      rw [List.nodup_cons] at hn
      rw [List.map_cons, List.nodup_cons]
      refine ⟨fun hm => ?_, ih (fun x hx => hl x (List.mem_cons_of_mem _ hx)) hn.2⟩
      obtain ⟨e', he', hke⟩ := List.mem_map.1 hm
      rw [hinj e' (hl e' (List.mem_cons_of_mem _ he')) e (hl e List.mem_cons_self) hke] at he'
      exact hn.1 he'
  have hkf : ((es.filter fun e => e.id ≠ []).map Spec.Mo.Entry.key).Nodup :=
    hk _ (fun e he => (List.mem_filter.1 he).1) (hc.once.sublist List.filter_sublist)
  obtain ⟨f, hf, hg⟩ := Verif.Props.Mo.C17_exact_partial u bo data es hi hw hkf
  have hpi := Verif.Proofs.Mo.parse_image (u := u) hi
  rw [hf] at hpi
  have hfe := Option.some.inj hpi
  refine ⟨f, hf, by rw [hfe]; exact Verif.Proofs.Mo.load_consistent u _ Verif.Proofs.Catalog.Consistent.nil, hg,
    fun hno => ?_, fun b hb hid => ?_⟩
  · rw [hfe, Verif.Proofs.Mo.load_header]
    have : (es.map fun e => (e.rawId, e.rawStr)).filter (fun t => t.1 = []) = [] := by
      rw [List.filter_eq_nil_iff]
      intro t ht
      obtain ⟨e, he, rfl⟩ := List.mem_map.1 ht
      obtain ⟨b, hb, rfl, _⟩ := hc.source e he
      have : ¬ (compiled b.2).isHeader := fun h => hno b hb h.2.1
      simpa [Verif.Proofs.Mo.rawId_nil] using this
    rw [this]
    rfl
  · have hall : ∀ e ∈ es, e.isHeader → e = compiled b.2 := by
      intro e he hh
      refine hinj e he _ (hc.header b hb hid) ?_
      obtain ⟨⟨h1, _, _⟩, _⟩ := (hr.plain b hb).header hid
      show (e.context.getD [], e.id) = ((compiled b.2).context.getD [], (compiled b.2).id)
      rw [h1, hh.1, hh.2.1]
      exact congrArg _ hid.symm
    have hmem := hc.header b hb hid
    have hfil : es.filter (fun e => e.isHeader) = [compiled b.2] := by
      have hn := hc.once.sublist (List.filter_sublist (p := fun e : Spec.Mo.Entry => decide e.isHeader) (l := es))
      have hm : compiled b.2 ∈ es.filter (fun e => e.isHeader) :=
        List.mem_filter.2 ⟨hmem, by simpa using ((hr.plain b hb).header hid).1⟩
      have ha : ∀ e ∈ es.filter (fun e => e.isHeader), e = compiled b.2 := fun e he =>
        hall e (List.mem_filter.1 he).1 (by simpa using (List.mem_filter.1 he).2)
      generalize es.filter (fun e => e.isHeader) = l at hn hm ha
      match l, hn, hm, ha with
      | [x], _, hm, _ => rw [List.mem_singleton.1 hm]
      | x :: y :: l, hn, _, ha =>
        rw [List.nodup_cons] at hn
        refine absurd (List.mem_cons.2 (.inl ?_)) hn.1
        rw [ha x List.mem_cons_self, ha y (List.mem_cons_of_mem _ List.mem_cons_self)]
    obtain ⟨f', hf', hh'⟩ := Verif.Props.Mo.C17_header u bo data es hi _ hfil
    rw [hf] at hf'
    cases hf'
    rw [hh', Verif.Proofs.Mo.parseMessageHeader_eq]

/-! ## Catalogs of files with the same texts -/

/-- The texts that a file provides for a catalog. -/
def Offers (f : File) (ctx id : Bytes) (k : Int) (text : Bytes) : Prop :=
  ∃ m, f.getMessage ctx id = some m ∧ isFuzzy m = false ∧ m.str.get? k = some text

theorem sameAnswer_of {ε : Type} {id : Bytes} {r s : Bytes × Option ε}
    (hr : r.2 ≠ none → r.1 = id) (hs : s.2 ≠ none → s.1 = id) (h : ∀ t, r = (t, none) ↔ s = (t, none)) : SameAnswer r s := by
  obtain ⟨r1, r2⟩ := r
  obtain ⟨s1, s2⟩ := s
  cases r2 with
  | none =>
    have := (h r1).1 rfl
    cases this
    exact ⟨rfl, Iff.rfl⟩
  | some e =>
    cases s2 with
    | none =>
      have := (h s1).2 rfl
      cases this
    | some d =>
      refine ⟨(hr (fun h => nomatch h)).trans (hs (fun h => nomatch h)).symm, ?_⟩
      simp

theorem lookup_err (c : GettextCatalog) (ctx id : Bytes) (h : (c.lookup ctx id).2 ≠ none) : (c.lookup ctx id).1 = id := by
  have := Verif.Props.Gettext.C19_lookup c ctx id
  unfold Verif.Props.Gettext.GoodAnswer at this
  cases he : (c.lookup ctx id).2 with
  | none => exact absurd he h
  | some e => rw [he] at this; exact this.1

theorem lookupPlural_err (c : GettextCatalog) (ctx id : Bytes) (n : Num) (h : (c.lookupPlural ctx id n).2 ≠ none) :
    (c.lookupPlural ctx id n).1 = id := by
  rcases Verif.Props.Gettext.C19_lookup_plural c ctx id n with ⟨k, _, this⟩ | ⟨_, h'⟩
  · unfold Verif.Props.Gettext.GoodAnswer at this
    cases he : (c.lookupPlural ctx id n).2 with
    | none => exact absurd he h
    | some e => rw [he] at this; exact this.1
  · rw [h']

/-- Catalogs with the same answers. -/
def Agree (c d : GettextCatalog) : Prop :=
  ∀ ctx id, SameAnswer (c.lookup ctx id) (d.lookup ctx id) ∧
    ∀ n, SameAnswer (c.lookupPlural ctx id n) (d.lookupPlural ctx id n)

theorem build_cases (u : Unicode) (f : File) (lang : Tag) (domain : Bytes) (useCLDR : Bool) (hc : Consistent f.messages) :
    (choosePlural u f.header lang useCLDR = none ∧ buildGettextCatalog u f lang domain useCLDR = .ok none) ∨
    ∃ c pf, choosePlural u f.header lang useCLDR = some pf ∧ c.pluralFunc = pf ∧
      buildGettextCatalog u f lang domain useCLDR = .ok (some c) := by
  obtain ⟨look, h1, _⟩ := Verif.Proofs.Catalog.buildLookup_ok hc
  unfold buildGettextCatalog
  simp only [h1, bind, Except.bind]
  cases choosePlural u f.header lang useCLDR with
  | none => exact .inl ⟨rfl, rfl⟩
  | some pf => exact .inr ⟨_, pf, rfl, rfl, rfl⟩

theorem build_agree (u : Unicode) {f g : File} (lang : Tag) (domain domain' : Bytes) (useCLDR : Bool)
    (hf : Consistent f.messages) (hg : Consistent g.messages)
    (hh : choosePlural u f.header lang useCLDR = choosePlural u g.header lang useCLDR)
    (ho : ∀ ctx id k text, id ≠ [] → text ≠ [] → (Offers f ctx id k text ↔ Offers g ctx id k text)) :
    (buildGettextCatalog u f lang domain useCLDR = .ok none ∧ buildGettextCatalog u g lang domain' useCLDR = .ok none) ∨
    ∃ c d, buildGettextCatalog u f lang domain useCLDR = .ok (some c) ∧
      buildGettextCatalog u g lang domain' useCLDR = .ok (some d) ∧ Agree c d := by
  rcases build_cases u f lang domain useCLDR hf with ⟨h1, h2⟩ | ⟨c, pf, h1, h2, h3⟩ <;>
    rcases build_cases u g lang domain' useCLDR hg with ⟨k1, k2⟩ | ⟨d, pg, k1, k2, k3⟩
  · exact .inl ⟨h2, k2⟩
  · rw [hh, k1] at h1; cases h1
  · rw [hh, k1] at h1; cases h1
  · rw [hh, k1] at h1
    cases h1
    refine .inr ⟨c, d, h3, k3, fun ctx id => ⟨?_, fun n => ?_⟩⟩
    · refine sameAnswer_of (lookup_err c ctx id) (lookup_err d ctx id) fun t => ?_
      rw [Verif.Props.Gettext.C20_lookup u f lang domain useCLDR c hf h3,
        Verif.Props.Gettext.C20_lookup u g lang domain' useCLDR d hg k3]
      exact ⟨fun ⟨a, b, h⟩ => ⟨a, b, (ho ctx id 0 t a b).1 h⟩, fun ⟨a, b, h⟩ => ⟨a, b, (ho ctx id 0 t a b).2 h⟩⟩
    · refine sameAnswer_of (lookupPlural_err c ctx id n) (lookupPlural_err d ctx id n) fun t => ?_
      rw [Verif.Props.Gettext.C20_lookup_plural u f lang domain useCLDR c hf h3,
        Verif.Props.Gettext.C20_lookup_plural u g lang domain' useCLDR d hg k3, h2, k2]
      constructor
      · rintro ⟨a, b, k, m, hk, hm⟩
        obtain ⟨m', hm'⟩ := (ho ctx id k t a b).1 ⟨m, hm⟩
        exact ⟨a, b, k, m', hk, hm'⟩
      · rintro ⟨a, b, k, m, hk, hm⟩
        obtain ⟨m', hm'⟩ := (ho ctx id k t a b).2 ⟨m, hm⟩
        exact ⟨a, b, k, m', hk, hm'⟩

/-! ## C95 -/

/-- A PO file and the MO file compiled from it: both decoders reject the file (the plural rule cannot be read), or both
return a catalog, and the two catalogs give the same answer to every lookup.
Missing for the full property: headers with a line that is no field (`C95_header_negation`), messages with a context and
an empty id (`C95_context_negation`), and entries that are not separated by blank lines. -/
theorem C95_same_partial (u : Unicode) (lang : Tag) (domain domain' : Bytes) (useCLDR : Bool) (bs : List Block)
    (tail : List Bytes) (content data : Bytes) (bo : Order) (es : List Spec.Mo.Entry) (hr : Regular bs)
    (hF : ∀ b ∈ bs, Fields b.2) (ht : ∀ l ∈ tail, BlankLine l) (h : HasLines content (blockLines bs ++ tail))
    (hs : Short (blockLines bs ++ tail)) (hc : Compiled bs es) (hi : Image bo data es) :
    (poDecode u lang domain useCLDR content = .error ∧ moDecode u lang domain' useCLDR data = .error) ∨
    ∃ c d, poDecode u lang domain useCLDR content = .catalog c ∧ moDecode u lang domain' useCLDR data = .catalog d ∧
      Agree c d := by
  obtain ⟨f, f1, f2, f3, f4, f5⟩ := po_side u hr hF ht h hs
  obtain ⟨g, g1, g2, g3, g4, g5⟩ := mo_side u hr hc hi
  have hh : choosePlural u f.header lang useCLDR = choosePlural u g.header lang useCLDR := by
    by_cases hx : ∃ b ∈ bs, b.2.id.value = []
    · obtain ⟨b, hb, hid⟩ := hx
      rw [f5 b hb hid, g5 b hb hid, choosePlural_comment]
    · have hno : ∀ b ∈ bs, b.2.id.value ≠ [] := fun b hb hid => hx ⟨b, hb, hid⟩
      rw [f4 hno, g4 hno]
  have ho : ∀ ctx id k text, id ≠ [] → text ≠ [] → (Offers f ctx id k text ↔ Offers g ctx id k text) := by
    intro ctx id k text hid htx
    constructor
    · rintro ⟨m, hm, hfz, hst⟩
      obtain ⟨b, hb, hbi, hk, rfl⟩ := (f3 ctx id m).1 hm
      have hst : b.2.str.value.get? k = some text := hst
      rw [str_value (hr.plain b hb)] at hst
      have hnf : ¬ Fuzzy b.2 := by
        rw [← fuzzy_message, hfz]; exact Bool.false_ne_true
      exact ⟨_, (g3 ctx id _).2 ⟨_, hc.translated b hb hnf ⟨text, get_numbered _ _ _ _ hst, htx⟩, hbi, hk, rfl⟩, rfl, hst⟩
    · rintro ⟨m, hm, _, hst⟩
      obtain ⟨e, he, hei, hk, rfl⟩ := (g3 ctx id m).1 hm
      obtain ⟨b, hb, rfl, hq⟩ := hc.source e he
      have hbi : b.2.id.value ≠ [] := hei
      refine ⟨_, (f3 ctx id _).2 ⟨b, hb, hbi, hk, rfl⟩, ?_, ?_⟩
      · rw [Bool.eq_false_iff]
        exact fun hf => (hq.resolve_left hbi) ((fuzzy_message b.2).1 hf)
      · show b.2.str.value.get? k = some text
        rw [str_value (hr.plain b hb)]
        exact hst
  unfold poDecode moDecode
  rw [f1, g1]
  simp only []
  rcases build_agree u lang domain domain' useCLDR f2 g2 hh ho with ⟨h1, h2⟩ | ⟨c, d, h1, h2, h3⟩
  · rw [h1, h2]; exact .inl ⟨rfl, rfl⟩
  · rw [h1, h2]; exact .inr ⟨c, d, rfl, rfl, h3⟩

/-! ### Cases -/

theorem means_line : ∀ {cs : List Char}, (∀ c ∈ cs, c ≠ '"' ∧ c ≠ '\\' ∧ c ≠ '\n') →
    Spec.PoEntry.Means (cs ++ ['\\', 'n']) (cs ++ ['\n'])
  | [], _ => .escape (by decide) .nil
  | c :: _, h => .plain (h c List.mem_cons_self).1 (h c List.mem_cons_self).2.1 (h c List.mem_cons_self).2.2
      (means_line fun x hx => h x (List.mem_cons_of_mem _ hx))

/-- A header with the given lines. -/
def headerOf (lines : List (List Char)) : Spec.PoEntry.Entry :=
  ⟨[], none, ⟨[], ⟨[], [], [], []⟩, []⟩, none,
    .single ⟨[], ⟨[], [], [], []⟩, lines.map fun l => ⟨[], l ++ ['\\', 'n'], [], l ++ ['\n']⟩⟩⟩

/-- A text on one line. -/
def text (cs : List Char) : Field := ⟨[], ⟨[], cs, [], cs⟩, []⟩

def Unescaped (cs : List Char) : Prop := ∀ c ∈ cs, c ≠ '"' ∧ c ≠ '\\' ∧ c ≠ '\n'

instance (cs : List Char) : Decidable (Unescaped cs) := by unfold Unescaped; infer_instance

theorem blank_nil : Spec.PoEntry.Blank [] := fun _ h => by cases h

theorem text_wf {cs : List Char} (h : Unescaped cs) : (text cs).WF :=
  ⟨blank_nil, ⟨blank_nil, blank_nil, PoParser.means_plain h⟩, nofun⟩

theorem headerOf_wf {ls : List (List Char)} (h : ∀ l ∈ ls, Unescaped l) : (headerOf ls).WF := by
  refine ⟨nofun, nofun, text_wf (by decide), nofun, blank_nil, ⟨blank_nil, blank_nil, .nil⟩, fun q hq => ?_⟩
  obtain ⟨l, hl, rfl⟩ := List.mem_map.1 hq
  exact ⟨blank_nil, blank_nil, means_line (h l hl)⟩

/-- `msgid "..."`, `msgid_plural "..."`, `msgstr[0] "..."`, `msgstr[1] "..."` -/
def pluralOf (id plural one other : List Char) : Spec.PoEntry.Entry :=
  ⟨[], none, text id, some (text plural), .plural [(b!"0", text one), (b!"1", text other)]⟩

theorem pluralOf_wf {a b c d : List Char} (ha : Unescaped a) (hb : Unescaped b) (hc : Unescaped c) (hd : Unescaped d) :
    (pluralOf a b c d).WF := by
  refine ⟨nofun, nofun, text_wf ha, fun f hf => ?_, fun p hp => ?_, ?_, fun h => absurd rfl h, fun h => absurd rfl h, trivial⟩
  · cases hf; exact text_wf hb
  · simp only [List.mem_cons, List.not_mem_nil, or_false] at hp
    rcases hp with rfl | rfl
    · exact ⟨(by decide : Spec.PoEntry.IndexOk b!"0"), text_wf hc⟩
    · exact ⟨(by decide : Spec.PoEntry.IndexOk b!"1"), text_wf hd⟩
  · exact (by decide : [digitsValue b!"0", digitsValue b!"1"].Nodup)

/-- An entry with a context and a flag. -/
def flagged (flags : Bytes) (ctx id str : List Char) : Spec.PoEntry.Entry :=
  ⟨[.flags [] flags], some (text ctx), text id, none, .single (text str)⟩

theorem flagged_wf {flags : Bytes} {a b c : List Char} (hf : Spec.PoEntry.OneLine flags) (ha : Unescaped a) (hb : Unescaped b)
    (hc : Unescaped c) : (flagged flags a b c).WF := by
  refine ⟨fun x hx => ?_, fun f hf => ?_, text_wf hb, nofun, text_wf hc⟩
  · rw [List.mem_singleton.1 hx]; exact ⟨blank_nil, hf⟩
  · cases hf; exact text_wf ha

theorem pluralOf_plain {a b c d : List Char} (h0 : (text a).value ≠ []) (h : (compiled (pluralOf a b c d)).WF) :
    Plain (pluralOf a b c d) :=
  ⟨h, fun fs hf => by cases hf; rfl, fun h => absurd h h0⟩

theorem flagged_plain {flags : Bytes} {a b c : List Char} (h0 : (text b).value ≠ []) (h : (compiled (flagged flags a b c)).WF) :
    Plain (flagged flags a b c) := ⟨h, (fun _ hf => nomatch hf), fun h => absurd h h0⟩

theorem headerOf_plain (ls : List (List Char)) : Plain (headerOf ls) := by
  refine ⟨⟨List.not_mem_nil, nofun, fun _ => ⟨List.not_mem_nil, nofun⟩, fun _ => ⟨_, rfl⟩, fun h => absurd rfl h⟩,
    (fun _ hf => nomatch hf), fun _ => ⟨⟨rfl, rfl, rfl⟩, _, rfl⟩⟩

/-- A header, an entry with plural, a fuzzy one and an untranslated one. -/
def demoBlocks : List Block :=
  [([], headerOf [c!"Language: de", c!"Plural-Forms: nplurals=2; plural=n != 1;"]),
   ([[]], pluralOf c!"%d day" c!"%d days" c!"%d Tag" c!"%d Tage"),
   ([[]], flagged b!" fuzzy, c-format" c!"menu" c!"Open" c!"Auf"),
   ([b!" "], flagged b!" c-format" c!"menu" c!"Close" c!"")]

/-- The header and the translated entry. -/
def demoEntries : List Spec.Mo.Entry :=
  [⟨none, b!"%d day", some b!"%d days", [b!"%d Tag", b!"%d Tage"]⟩,
   ⟨none, [], none, [b!"Language: de\nPlural-Forms: nplurals=2; plural=n != 1;\n"]⟩]

theorem demo_regular : Regular demoBlocks := by
  refine ⟨fun h => (nomatch h), ?_, ?_, by decide +kernel, ?_⟩
  · intro b hb
    simp only [demoBlocks, List.mem_cons, List.not_mem_nil, or_false] at hb
    rcases hb with rfl | rfl | rfl | rfl
    · exact ⟨by decide, headerOf_wf (by decide)⟩
    · exact ⟨by decide, pluralOf_wf (by decide) (by decide) (by decide) (by decide)⟩
    · exact ⟨by decide, flagged_wf (by decide) (by decide) (by decide) (by decide)⟩
    · exact ⟨by decide, flagged_wf (by decide) (by decide) (by decide) (by decide)⟩
  · intro b hb
    simp only [demoBlocks, List.tail_cons, List.mem_cons, List.not_mem_nil, or_false] at hb
    rcases hb with rfl | rfl | rfl <;> exact fun h => nomatch h
  · intro b hb
    simp only [demoBlocks, List.mem_cons, List.not_mem_nil, or_false] at hb
    rcases hb with rfl | rfl | rfl | rfl
    · exact headerOf_plain _
    · refine pluralOf_plain (by decide) ⟨by decide, nofun, fun _ => ⟨by decide, fun p hp => ?_⟩, (fun h => nomatch h), fun _ => ⟨by decide, by decide⟩⟩
      cases hp; decide
    all_goals
      refine flagged_plain (by decide) ⟨by decide, fun c hc => ?_, (fun h => nomatch h), fun _ => ⟨_, rfl⟩, fun h => absurd rfl h⟩
      cases hc; decide

theorem demo_compiled : Compiled demoBlocks demoEntries := by
  refine ⟨by simp [demoEntries], fun e he => ?_, fun b hb hi => ?_, fun b hb hf ht => ?_⟩
  · simp only [demoEntries, List.mem_cons, List.not_mem_nil, or_false] at he
    rcases he with rfl | rfl
    · exact ⟨_, List.mem_cons_of_mem _ List.mem_cons_self, rfl, .inr (by unfold Fuzzy; decide)⟩
    · exact ⟨_, List.mem_cons_self, rfl, .inl rfl⟩
  · simp only [demoBlocks, List.mem_cons, List.not_mem_nil, or_false] at hb
    rcases hb with rfl | rfl | rfl | rfl
    · exact List.mem_cons_of_mem _ List.mem_cons_self
    all_goals exact absurd hi (by decide)
  · simp only [demoBlocks, List.mem_cons, List.not_mem_nil, or_false] at hb
    rcases hb with rfl | rfl | rfl | rfl
    · exact List.mem_cons_of_mem _ List.mem_cons_self
    · exact List.mem_cons_self
    · exact absurd (by decide +kernel : b!"fuzzy" ∈ flagsOf [.flags [] b!" fuzzy, c-format"]) hf
    · obtain ⟨s, hs, hn⟩ := ht
      exact absurd (List.mem_singleton.1 hs) hn

example : Regular demoBlocks ∧ (∀ b ∈ demoBlocks, Fields b.2) ∧ (∀ l ∈ [([] : Bytes)], BlankLine l) ∧
    HasLines (textOf (blockLines demoBlocks ++ [[]])) (blockLines demoBlocks ++ [[]]) ∧ Short (blockLines demoBlocks ++ [[]]) ∧
    Compiled demoBlocks demoEntries ∧ Image .big (write .big demoEntries) demoEntries := by
  refine ⟨demo_regular, fun b hb hi => ?_, by decide, ⟨by decide +kernel, .inl rfl⟩, by decide +kernel, demo_compiled,
    Verif.Proofs.Mo.write_image .big _ (by decide +kernel)⟩
  simp only [demoBlocks, List.mem_cons, List.not_mem_nil, or_false] at hb
  rcases hb with rfl | rfl | rfl | rfl
  · intro s hs
    rw [List.mem_singleton.1 hs]
    unfold HeaderLine
    decide +kernel
  all_goals exact absurd hi (by decide)

/-- The number 5. -/
def five : Num := ⟨some ⟨F64.ofInt 5, 5, 0, 0, 0, 0, 0⟩, some 5⟩

/-- A header with a line that is no field. -/
def looseBlocks : List Block :=
  [([], headerOf [c!"Plural-Forms: nplurals=2; plural=n == 1;", c!"see you"]),
   ([[]], pluralOf c!"%d day" c!"%d days" c!"%d Tage" c!"%d Tag")]

def looseEntries : List Spec.Mo.Entry := looseBlocks.map fun b => compiled b.2

theorem loose_regular : Regular looseBlocks := by
  refine ⟨fun h => (nomatch h), ?_, ?_, by decide +kernel, ?_⟩
  · intro b hb
    simp only [looseBlocks, List.mem_cons, List.not_mem_nil, or_false] at hb
    rcases hb with rfl | rfl
    · exact ⟨by decide, headerOf_wf (by decide)⟩
    · exact ⟨by decide, pluralOf_wf (by decide) (by decide) (by decide) (by decide)⟩
  · intro b hb
    simp only [looseBlocks, List.tail_cons, List.mem_cons, List.not_mem_nil, or_false] at hb
    subst hb
    exact fun h => nomatch h
  · intro b hb
    simp only [looseBlocks, List.mem_cons, List.not_mem_nil, or_false] at hb
    rcases hb with rfl | rfl
    · exact headerOf_plain _
    · refine pluralOf_plain (by decide) ⟨by decide, nofun, fun _ => ⟨by decide, fun p hp => ?_⟩, (fun h => nomatch h), fun _ => ⟨by decide, by decide⟩⟩
      cases hp; decide

theorem loose_compiled : Compiled looseBlocks looseEntries := by
  refine ⟨by simp [looseEntries, looseBlocks, compiled, headerOf, pluralOf], fun e he => ?_, fun b hb _ => List.mem_map.2 ⟨b, hb, rfl⟩,
    fun b hb _ _ => List.mem_map.2 ⟨b, hb, rfl⟩⟩
  obtain ⟨b, hb, rfl⟩ := List.mem_map.1 he
  refine ⟨b, hb, rfl, .inr ?_⟩
  simp only [looseBlocks, List.mem_cons, List.not_mem_nil, or_false] at hb
  rcases hb with rfl | rfl <;> exact List.not_mem_nil

/-- With a line in the header that is no field, the PO decoder forgets the whole header, also the plural rule; the MO
decoder skips the line.  The two catalogs of the same messages answer differently: 5 days are "%d Tag" for one. -/
theorem C95_header_negation : ∃ (bs : List Block) (es : List Spec.Mo.Entry) (content data : Bytes) (c d : GettextCatalog),
    Regular bs ∧ Compiled bs es ∧ HasLines content (blockLines bs) ∧ Short (blockLines bs) ∧ Image .little data es ∧
    poDecode PoFile.ascii [("en", none)] [] false content = .catalog c ∧
    moDecode PoFile.ascii [("en", none)] [] false data = .catalog d ∧
    c.lookupPlural [] b!"%d day" five = (b!"%d Tag", none) ∧ d.lookupPlural [] b!"%d day" five = (b!"%d Tage", none) := by
  have hi : Image .little (write .little looseEntries) looseEntries := Verif.Proofs.Mo.write_image .little _ (by decide +kernel)
  have h1 : ∃ c, poDecode PoFile.ascii [("en", none)] [] false (textOf (blockLines looseBlocks)) = .catalog c ∧
      c.lookupPlural [] b!"%d day" five = (b!"%d Tag", none) := ⟨_, rfl, rfl⟩
  have h2 : ∃ d, moDecode PoFile.ascii [("en", none)] [] false (write .little looseEntries) = .catalog d ∧
      d.lookupPlural [] b!"%d day" five = (b!"%d Tage", none) := by
    unfold moDecode
    rw [Verif.Proofs.Mo.parse_image hi]
    exact ⟨_, rfl, rfl⟩
  obtain ⟨c, c1, c2⟩ := h1
  obtain ⟨d, d1, d2⟩ := h2
  exact ⟨looseBlocks, looseEntries, _, _, c, d, loose_regular, loose_compiled, ⟨by decide +kernel, .inl rfl⟩, by decide +kernel, hi,
    c1, d1, c2, d2⟩

/-- A header and a message with a context and an empty id. -/
def twoBlocks : List Block := [([], headerOf []), ([[]], flagged [] c!"menu" [] c!"A")]

def twoEntries : List Spec.Mo.Entry := twoBlocks.map fun b => compiled b.2

/-- A header and a message with a context and an empty id: the PO decoder takes both for headers and rejects the file; the
MO decoder returns a catalog. -/
theorem C95_context_negation (u : Unicode) (lang : Tag) : ∃ (bs : List Block) (es : List Spec.Mo.Entry) (content data : Bytes)
    (d : GettextCatalog), (∀ b ∈ bs, b.WF ∧ (compiled b.2).WF) ∧ (bs.map fun b => (compiled b.2).key).Nodup ∧ Compiled bs es ∧
    HasLines content (blockLines bs) ∧ Short (blockLines bs) ∧ Image .little data es ∧
    poDecode u lang [] true content = .error ∧ moDecode u lang [] true data = .catalog d := by
  have hi : Image .little (write .little twoEntries) twoEntries := Verif.Proofs.Mo.write_image .little _ (by decide +kernel)
  have h1 : poDecode u lang [] true (textOf (blockLines twoBlocks)) = .error := rfl
  have h2 : ∃ d, moDecode u lang [] true (write .little twoEntries) = .catalog d := by
    unfold moDecode
    rw [Verif.Proofs.Mo.parse_image hi]
    exact ⟨_, rfl⟩
  obtain ⟨d, hd⟩ := h2
  refine ⟨twoBlocks, twoEntries, _, _, d, fun b hb => ?_, by decide +kernel, ⟨?_, fun e he => ?_,
    fun b hb _ => List.mem_map.2 ⟨b, hb, rfl⟩, fun b hb _ _ => List.mem_map.2 ⟨b, hb, rfl⟩⟩, ⟨by decide +kernel, .inl rfl⟩,
    by decide +kernel, hi, h1, hd⟩
  · simp only [twoBlocks, List.mem_cons, List.not_mem_nil, or_false] at hb
    rcases hb with rfl | rfl
    · exact ⟨⟨by decide, headerOf_wf (by decide)⟩, (headerOf_plain []).texts⟩
    · refine ⟨⟨by decide, flagged_wf (by decide) (by decide) (by decide) (by decide)⟩, by decide, fun c hc => ?_, (fun h => nomatch h),
        fun _ => ⟨_, rfl⟩, fun h => absurd rfl h⟩
      cases hc; decide
  · simp [twoEntries, twoBlocks, compiled, headerOf, flagged]
  · obtain ⟨b, hb, rfl⟩ := List.mem_map.1 he
    refine ⟨b, hb, rfl, .inl ?_⟩
    simp only [twoBlocks, List.mem_cons, List.not_mem_nil, or_false] at hb
    rcases hb with rfl | rfl <;> rfl

end Verif.Props.Formats
