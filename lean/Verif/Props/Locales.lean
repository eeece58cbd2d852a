import Verif.Proofs.Humanize.Apart
import Verif.Props.Collection
import Verif.Model.Catalog.Decoder
import Verif.Props.Gettext
import Verif.Props.Numbers
import Verif.Props.PoFile
import Verif.Props.PoPlural
/-!
# The locales that come with the humanizer: C92, C93, C94
-/
namespace Verif.Props.Locales
open Verif.Go Verif.Model.Humanize Verif.Spec.DateFormat Verif.Spec.Locales Verif.Proofs.Humanize Verif.Proofs.Go
open Verif.Props.Numbers (showEnv showLoc)

/-! ## C92 -/

/-- The kinds of formats. -/
def kinds : List Kind := [.date, .time, .dateTime, .yearMonth, .monthDay, .shortDate, .shortDatetime]

theorem kinds_all (k : Kind) : k ∈ kinds := by cases k <;> decide

/-- The formats of the package, as a collection completes them. -/
def formatsOf (s : Shipped) : FormatData := (s.format.getD fallbackFormat).setDefaults

theorem formatsOf_complete {L : Type} (tag : Bytes → L) (fs : Bytes → Option Bytes) (s : Shipped) :
    (s.localeData tag fs).complete.format = some (formatsOf s) := rfl

/-- The formats that do not say what they are for. -/
def ambiguous : List (Bytes × Kind) :=
  [(b!"vi", .dateTime), (b!"hi", .time), (b!"hi", .dateTime), (b!"hi", .shortDatetime), (b!"hy", .date), (b!"hy", .dateTime)]

theorem formats_table : (shipped.all fun s => kinds.all fun k => ambiguous.contains (s.dir, k) ||
    apartB s.texts (formatOf (formatsOf s) k) k) = true := by decide +kernel

/-- C92 for all formats but six (Vietnamese date and time; Hindi times; Armenian dates): for every locale that comes with the
humanizer and each of its formats, two times that are shown with the same text agree on what the format is for.  Missing:
the six formats, for which it is false (`C92_vietnamese_negation`, `C92_hindi_negation`,
`C92_hindi_dates_negation`, `C92_armenian_negation`), and years that are not written with four digits. -/
theorem C92_shipped_formats_partial {L : Type} (tag : Bytes → L) (fs : Bytes → Option Bytes) (s : Shipped) (hs : s ∈ shipped)
    (k : Kind) (hk : (s.dir, k) ∉ ambiguous) (env : Env) (he : Serves env s.texts) (f : FormatData)
    (hf : (s.localeData tag fs).complete.format = some f) (t u : Time) (ht : 0 ≤ t.year ∧ t.year ≤ 9999)
    (hu : 0 ≤ u.year ∧ u.year ≤ 9999) :
    ∃ a b : Bytes, formatTime env f t k.keyword = .ok a ∧ formatTime env f u k.keyword = .ok b ∧ (a = b → k.Agree t u) := by
  rw [formatsOf_complete] at hf
  injection hf with hf
  subst hf
  have h := List.all_eq_true.mp (List.all_eq_true.mp formats_table s hs) k (kinds_all k)
  rw [Bool.or_eq_true] at h
  rcases h with h | h
  · exact absurd (List.contains_iff_mem.mp h) hk
  · rw [formatTime_kind, formatTime_kind]
    exact apart he h ht hu

/-- A localizer that has the texts. -/
def textLoc (x : Texts) : Loc :=
  { showLoc with
    get := fun m =>
      ((monthNames.zip x.months ++ (monthNames.map fun n => lowerFirst (n.take 3)).zip x.short ++ dayNames.zip x.days ++
        [(b!"a.m.", x.am), (b!"p.m.", x.pm), (b!"AM", x.bigAm), (b!"PM", x.bigPm), (b!"midnight", x.midnight),
          (b!"noon", x.noon)]).lookup m).getD m
    pGet := fun c m => if c = b!"alt. month" then ((monthNames.zip x.alternative).lookup m).getD m
      else ((apNames.zip x.abbreviated).lookup m).getD m }

/-- An environment with the texts. -/
def textEnv (x : Texts) : Env := { showEnv with loc := textLoc x }

/-- The texts of the localizer are complete. -/
def servesB (x : Texts) : Bool :=
  x.months == monthNames.map (textLoc x).get && x.alternative == monthNames.map ((textLoc x).pGet b!"alt. month") &&
  x.abbreviated == apNames.map ((textLoc x).pGet b!"abbrev. month") &&
  x.short == (monthNames.map fun n => (textLoc x).get (lowerFirst (n.take 3))) &&
  (x.short.all fun s => !(runes s).isEmpty && utf8 (runes s) == s) && x.short.length == 12 &&
  x.days == dayNames.map (textLoc x).get && x.am == (textLoc x).get b!"a.m." && x.pm == (textLoc x).get b!"p.m." &&
  x.bigAm == (textLoc x).get b!"AM" && x.bigPm == (textLoc x).get b!"PM" && x.midnight == (textLoc x).get b!"midnight" &&
  x.noon == (textLoc x).get b!"noon"

theorem serves_text {x : Texts} (h : servesB x = true) : Serves (textEnv x) x := by
  simp only [servesB, Bool.and_eq_true, beq_iff_eq] at h
  obtain ⟨⟨⟨⟨⟨⟨⟨⟨⟨⟨⟨⟨h1, h2⟩, h3⟩, h4⟩, h5⟩, h6⟩, h7⟩, h8⟩, h9⟩, h10⟩, h11⟩, h12⟩, h13⟩ := h
  refine ⟨h1, h2, h3, ?_, h6, h7, h8, h9, h10, h11, h12, h13⟩
  intro i name text hn ht
  have hm := List.all_eq_true.mp h5 text (List.mem_of_getElem? ht)
  rw [h4, List.getElem?_map, hn] at ht
  injection ht with ht
  rw [Bool.and_eq_true, beq_iff_eq] at hm
  obtain ⟨a, b⟩ := hm
  cases hr : runes text with
  | nil => rw [hr] at a; cases a
  | cons r rest =>
    rw [hr] at b
    refine ⟨r, rest, ?_, b.symm⟩
    rw [b]
    exact ht

theorem served_table : (shipped.all fun s => servesB s.texts) = true := by decide +kernel

/-- For each of the locales there is an environment that serves its texts. -/
theorem C92_served (s : Shipped) (hs : s ∈ shipped) : Serves (textEnv s.texts) s.texts :=
  serves_text (List.all_eq_true.mp served_table s hs)

/-- German is one of the locales; 1 January 1970 in its format; two times of that day. -/
example : loc_de ∈ shipped ∧ (∀ k, (loc_de.dir, k) ∉ ambiguous) ∧ (⟨0, 0, utc⟩ : Time).year = 1970 ∧
    formatTime (textEnv loc_de.texts) (formatsOf loc_de) ⟨0, 0, utc⟩ Kind.date.keyword = .ok b!"1. Januar 1970" ∧
    formatTime (textEnv loc_de.texts) (formatsOf loc_de) ⟨60, 0, utc⟩ Kind.date.keyword = .ok b!"1. Januar 1970" ∧
    formatTime (textEnv loc_de.texts) (formatsOf loc_de) ⟨86400, 0, utc⟩ Kind.date.keyword = .ok b!"2. Januar 1970" := by
  refine ⟨?_, ?_, by decide +kernel, by decide +kernel, by decide +kernel, by decide +kernel⟩
  · unfold shipped
    simp only [List.mem_cons, true_or, or_true]
  · intro k
    cases k <;> decide

theorem same_text {env : Env} {x : Texts} (he : Serves env x) {f : Bytes} (hf : Reads (runes f) (pieces (runes f)) []) {t u : Time}
    (h : ∀ c, Piece.letter c ∈ pieces (runes f) → value env t c = value env u c) :
    ∃ a : Bytes, dateFormat env t f = .ok a ∧ dateFormat env u f = .ok a := by
  refine ⟨_, dateFormat_output he hf t, ?_⟩
  rw [dateFormat_output he hf u, output_congr _ h]

/-- The letters of a format. -/
def letters (ps : List Piece) : List Char := ps.filterMap fun | .letter c => some c | _ => none

theorem mem_letters {ps : List Piece} {c : Char} (h : Piece.letter c ∈ ps) : c ∈ letters ps :=
  List.mem_filterMap.mpr ⟨_, h, rfl⟩

/-- C92 fails for Vietnamese: the format for date and time has no letter for the hour. -/
theorem C92_vietnamese_negation (env : Env) (he : Serves env loc_vi.texts) (t u : Time)
    (h : t.year = u.year ∧ t.month = u.month ∧ t.day = u.day ∧ t.minute = u.minute) :
    ∃ a : Bytes, formatTime env (formatsOf loc_vi) t Kind.dateTime.keyword = .ok a ∧
      formatTime env (formatsOf loc_vi) u Kind.dateTime.keyword = .ok a := by
  rw [formatTime_kind, formatTime_kind]
  refine same_text he (by decide +kernel) fun c hc => ?_
  have e : letters (pieces (runes (formatOf (formatsOf loc_vi) .dateTime))) = ['i', 'd', 'n', 'Y'] := by decide +kernel
  have hm := mem_letters hc
  rw [e] at hm
  obtain ⟨h1, h2, h3, h4⟩ := h
  simp only [List.mem_cons, List.not_mem_nil, or_false] at hm
  rcases hm with rfl | rfl | rfl | rfl
  · show pad0 2 t.minute = pad0 2 u.minute; rw [h4]
  · show pad0 2 t.day = pad0 2 u.day; rw [h3]
  · show itoa t.month = itoa u.month; rw [h2]
  · show pad0 4 t.year = pad0 4 u.year; rw [h1]

/-- Three and four o'clock. -/
example : loc_vi ∈ shipped ∧ (⟨10800, 0, utc⟩ : Time).hour = 3 ∧ (⟨14400, 0, utc⟩ : Time).hour = 4 ∧
    (⟨10800, 0, utc⟩ : Time).minute = (⟨14400, 0, utc⟩ : Time).minute ∧
    (⟨10800, 0, utc⟩ : Time).day = (⟨14400, 0, utc⟩ : Time).day ∧
    formatTime (textEnv loc_vi.texts) (formatsOf loc_vi) ⟨10800, 0, utc⟩ Kind.dateTime.keyword =
      .ok b!":00 Ngày 01 tháng 1 năm 1970" := by
  refine ⟨?_, by decide +kernel, by decide +kernel, by decide +kernel, by decide +kernel, by decide +kernel⟩
  unfold shipped
  simp only [List.mem_cons, true_or, or_true]

/-- C92 fails for Hindi: the words for the two halves of the day are the same, so the format for times does not tell
them apart. -/
theorem C92_hindi_negation (env : Env) (he : Serves env loc_hi.texts) (t u : Time)
    (h : u.hour = t.hour + 12 ∧ t.minute = u.minute) :
    ∃ a : Bytes, formatTime env (formatsOf loc_hi) t Kind.time.keyword = .ok a ∧
      formatTime env (formatsOf loc_hi) u Kind.time.keyword = .ok a := by
  rw [formatTime_kind, formatTime_kind]
  refine same_text he (by decide +kernel) fun c hc => ?_
  have e : letters (pieces (runes (formatOf (formatsOf loc_hi) .time))) = ['g', 'i', 'A'] := by decide +kernel
  have hm := mem_letters hc
  rw [e] at hm
  obtain ⟨h1, h2⟩ := h
  simp only [List.mem_cons, List.not_mem_nil, or_false] at hm
  rcases hm with rfl | rfl | rfl
  · have hd : dial t = dial u := by unfold dial; rw [h1]; have : (t.hour + 12) % 12 = t.hour % 12 := by omega
                                    rw [this]
    show itoa (dial t) = itoa (dial u)
    rw [hd]
  · show pad0 2 t.minute = pad0 2 u.minute; rw [h2]
  · have e1 : loc_hi.texts.bigAm = loc_hi.texts.bigPm := rfl
    rw [he.bigAm, he.bigPm] at e1
    show letter_A env t = letter_A env u
    unfold letter_A
    rw [e1]
    split <;> split <;> rfl

example : (⟨54000, 0, utc⟩ : Time).hour = (⟨10800, 0, utc⟩ : Time).hour + 12 ∧
    (⟨54000, 0, utc⟩ : Time).minute = (⟨10800, 0, utc⟩ : Time).minute := by
  refine ⟨by decide +kernel, by decide +kernel⟩

theorem hindi_letters (k : Kind) (hk : k = .dateTime ∨ k = .shortDatetime) :
    Reads (runes (formatOf (formatsOf loc_hi) k)) (pieces (runes (formatOf (formatsOf loc_hi) k))) [] ∧
    ∀ c ∈ letters (pieces (runes (formatOf (formatsOf loc_hi) k))), c ∈ ['j', 'd', 'm', 'F', 'N', 'Y', 'P'] := by
  rcases hk with rfl | rfl <;> decide +kernel

/-- C92 fails for the other two Hindi formats with a time of day, except on the hour. -/
theorem C92_hindi_dates_negation (env : Env) (he : Serves env loc_hi.texts) (k : Kind) (hk : k = .dateTime ∨ k = .shortDatetime)
    (t u : Time) (h : t.year = u.year ∧ t.month = u.month ∧ t.day = u.day ∧ u.hour = t.hour + 12 ∧ t.minute = u.minute)
    (hm : t.minute ≠ 0) :
    ∃ a : Bytes, formatTime env (formatsOf loc_hi) t k.keyword = .ok a ∧
      formatTime env (formatsOf loc_hi) u k.keyword = .ok a := by
  rw [formatTime_kind, formatTime_kind]
  refine same_text he (hindi_letters k hk).1 fun c hc => ?_
  have hm' := (hindi_letters k hk).2 c (mem_letters hc)
  obtain ⟨h1, h2, h3, h4, h5⟩ := h
  simp only [List.mem_cons, List.not_mem_nil, or_false] at hm'
  rcases hm' with rfl | rfl | rfl | rfl | rfl | rfl | rfl
  · show itoa t.day = itoa u.day; rw [h3]
  · show pad0 2 t.day = pad0 2 u.day; rw [h3]
  · show pad0 2 t.month = pad0 2 u.month; rw [h2]
  · show env.loc.get (nameOf months t.month) = env.loc.get (nameOf months u.month); rw [h2]
  · show env.loc.pGet _ (nameOf monthsAp t.month) = env.loc.pGet _ (nameOf monthsAp u.month); rw [h2]
  · show pad0 4 t.year = pad0 4 u.year; rw [h1]
  · rw [letter_P_eq, letter_P_eq, if_neg (fun h => hm h.1), if_neg (fun h => hm h.1), if_neg (fun h => hm (h5.trans h.1)),
      if_neg (fun h => hm (h5.trans h.1))]
    unfold clockText
    have e1 : loc_hi.texts.am = loc_hi.texts.pm := rfl
    rw [he.am, he.pm] at e1
    have ea : value env t 'a' = value env u 'a' := by
      show letter_a env t = letter_a env u
      unfold letter_a
      rw [e1]
      split <;> split <;> rfl
    have eg : value env t 'g' = value env u 'g' := by
      have hd : dial t = dial u := by
        unfold dial
        rw [h4]
        have : (t.hour + 12) % 12 = t.hour % 12 := by omega
        rw [this]
      show itoa (dial t) = itoa (dial u)
      rw [hd]
    have ei : value env t 'i' = value env u 'i' := by show pad0 2 t.minute = pad0 2 u.minute; rw [h5]
    rw [ea, eg, ei, h5]

/-- 03:01 and 15:01. -/
example : (⟨54060, 0, utc⟩ : Time).hour = (⟨10860, 0, utc⟩ : Time).hour + 12 ∧ (⟨10860, 0, utc⟩ : Time).minute = 1 ∧
    (⟨54060, 0, utc⟩ : Time).day = (⟨10860, 0, utc⟩ : Time).day := by
  refine ⟨by decide +kernel, by decide +kernel, by decide +kernel⟩

theorem armenian_letters (k : Kind) (hk : k = .date ∨ k = .dateTime) :
    Reads (runes (formatOf (formatsOf loc_hy) k)) (pieces (runes (formatOf (formatsOf loc_hy) k))) [] ∧
    ∀ c ∈ letters (pieces (runes (formatOf (formatsOf loc_hy) k))), c ∈ ['N', 'j', 'Y', 'P'] := by
  rcases hk with rfl | rfl <;> decide +kernel

/-- C92 fails for Armenian: March and April have the same abbreviation, which the formats for dates and for dates with a
time of day use. -/
theorem C92_armenian_negation (env : Env) (he : Serves env loc_hy.texts) (k : Kind) (hk : k = .date ∨ k = .dateTime) (t u : Time)
    (h : t.year = u.year ∧ t.month = 3 ∧ u.month = 4 ∧ t.day = u.day ∧ t.hour = u.hour ∧ t.minute = u.minute) :
    ∃ a : Bytes, formatTime env (formatsOf loc_hy) t k.keyword = .ok a ∧
      formatTime env (formatsOf loc_hy) u k.keyword = .ok a := by
  rw [formatTime_kind, formatTime_kind]
  refine same_text he (armenian_letters k hk).1 fun c hc => ?_
  have hm := (armenian_letters k hk).2 c (mem_letters hc)
  obtain ⟨h1, h2, h3, h4, h5, h6⟩ := h
  simp only [List.mem_cons, List.not_mem_nil, or_false] at hm
  rcases hm with rfl | rfl | rfl | rfl
  · have a := (name_value he t (c := 'N') (by decide)).1
    have b := (name_value he u (c := 'N') (by decide)).1
    have i1 : nameIndex t 'N' = 2 := by show (t.month - 1).toNat = 2; rw [h2]; rfl
    have i2 : nameIndex u 'N' = 3 := by show (u.month - 1).toNat = 3; rw [h3]; rfl
    rw [i1] at a
    rw [i2] at b
    have e : (nameTable loc_hy.texts 'N')[2]? = (nameTable loc_hy.texts 'N')[3]? := by decide +kernel
    rw [e, b] at a
    exact (Option.some.inj a).symm
  · show itoa t.day = itoa u.day; rw [h4]
  · show pad0 4 t.year = pad0 4 u.year; rw [h1]
  · have ed : dial t = dial u := by unfold dial; rw [h5]
    have eg : value env t 'g' = value env u 'g' := by show itoa (dial t) = itoa (dial u); rw [ed]
    have ei : value env t 'i' = value env u 'i' := by show pad0 2 t.minute = pad0 2 u.minute; rw [h6]
    have ea : value env t 'a' = value env u 'a' := by show letter_a env t = letter_a env u; unfold letter_a; rw [h5]
    rw [letter_P_eq, letter_P_eq]
    unfold clockText
    rw [ea, eg, ei, h5, h6]

/-- 1 March and 1 April 1970. -/
example : (⟨5097600, 0, utc⟩ : Time).month = 3 ∧ (⟨5097600, 0, utc⟩ : Time).day = 1 ∧
    (⟨7776000, 0, utc⟩ : Time).month = 4 ∧ (⟨7776000, 0, utc⟩ : Time).day = 1 ∧
    formatTime (textEnv loc_hy.texts) (formatsOf loc_hy) ⟨7776000, 0, utc⟩ Kind.date.keyword = .ok b!"Մարտ 1, 1970" := by
  refine ⟨by decide +kernel, by decide +kernel, by decide +kernel, by decide +kernel, by decide +kernel⟩

/-! ## C93 -/

/-- The language tag for the name of a directory: a hyphen before the first capital letter. -/
def tagOf : Bytes → Bytes
  | [] => []
  | b :: r => if 65 ≤ b ∧ b ≤ 90 then b!"-" ++ b :: r else b :: tagOf r

example : tagOf b!"ptBR" = b!"pt-BR" ∧ tagOf b!"zhHans" = b!"zh-Hans" ∧ tagOf b!"de" = b!"de" := by decide

theorem tags_table : (shipped.all fun s => s.dir == b!"lt" || s.lang == tagOf s.dir) = true := by decide +kernel

theorem dirs_nodup : (shipped.map Shipped.dir).Nodup := by decide +kernel

/-- C93 for all packages but one: a package registers the language of its directory.  Missing: Lithuanian
(`C93_negation`). -/
theorem C93_own_language_partial (s : Shipped) (hs : s ∈ shipped) (h : s.dir ≠ b!"lt") : s.lang = tagOf s.dir := by
  have := List.all_eq_true.mp tags_table s hs
  rw [Bool.or_eq_true, beq_iff_eq, beq_iff_eq] at this
  exact this.resolve_left h

/-- The Lithuanian package registers Latvian. -/
theorem C93_negation : loc_lt ∈ shipped ∧ loc_lv ∈ shipped ∧ loc_lt.dir = b!"lt" ∧ loc_lt.lang = b!"lv" ∧ loc_lv.lang = b!"lv" ∧
    loc_lt.lang ≠ tagOf loc_lt.dir := by
  refine ⟨?_, ?_, by decide, by decide, by decide, by decide⟩ <;>
  · unfold shipped
    simp only [List.mem_cons, true_or, or_true]

section Collections
open Verif.Model.Spreak Verif.Props.Collection Verif.Proofs.Spreak

variable {L N V : Type} [DecidableEq L]

/-- Different directories stand for different languages. -/
def TagsApart (tag : Bytes → L) : Prop :=
  ∀ s ∈ shipped, ∀ s' ∈ shipped, tag (tagOf s.dir) = tag (tagOf s'.dir) → s.dir = s'.dir

theorem dir_inj {s s' : Shipped} (h : s ∈ shipped) (h' : s' ∈ shipped) (e : s.dir = s'.dir) : s = s' :=
  List.inj_on_of_nodup_map dirs_nodup h h' e

/-- Every package registers the language of some directory. -/
theorem lang_dir (s : Shipped) (hs : s ∈ shipped) :
    ∃ s' ∈ shipped, s.lang = tagOf s'.dir ∧ s'.dir ≠ b!"lt" ∧ (s = s' ∨ s.dir = b!"lt" ∧ s'.dir = b!"lv") := by
  by_cases h : s.dir = b!"lt"
  · have e : s = loc_lt := dir_inj hs C93_negation.1 h
    subst e
    exact ⟨loc_lv, C93_negation.2.1, by decide, by decide, Or.inr ⟨rfl, rfl⟩⟩
  · exact ⟨s, hs, C93_own_language_partial s hs h, h, Or.inl rfl⟩

theorem last_unique {ds : List (LocaleData L)} {d : LocaleData L} (hd : d ∈ ds) (h : ∀ d' ∈ ds, d'.lang = d.lang → d' = d) :
    lastOf ds d.lang = some d := by
  unfold lastOf
  have hm : d ∈ ds.filter fun x => decide (x.lang = d.lang) := List.mem_filter.mpr ⟨hd, by simp⟩
  cases hg : (ds.filter fun x => decide (x.lang = d.lang)).getLast? with
  | none => rw [List.getLast?_eq_none_iff] at hg; rw [hg] at hm; cases hm
  | some x =>
    have := List.mem_filter.mp (List.mem_of_getLast? hg)
    rw [h x this.1 (by simpa using this.2)]

/-- C93 for collections: whichever packages a collection consists of, in whichever order, a humanizer for the language of a
directory uses the formats and the texts of the package in it.  Missing: Lithuanian (`C93_collection_negation`), Latvian in a
collection that has the Lithuanian package as well, English texts (English is the source language). -/
theorem C93_collection_partial (w : World L N V) {order : Order L N} (ho : Perms order)
    {range : GoMap L (LocaleData L) → GoMap L (LocaleData L)} (hr : ∀ m, (range m).Perm m)
    {decode : L → Bytes → Bytes → Except (Err L) (Option (Catalog L N))} (hdec : DecoderErrors decode) {en : L} (hen : en ≠ w.und)
    {tag : Bytes → L} (ht : TagsApart tag) (files : Shipped → Bytes → Option Bytes) (ds : List Shipped) (hds : ∀ s ∈ ds, s ∈ shipped)
    (c : Collection L N)
    (hc : newCollection w order range decode en (ds.map fun s => some (s.localeData tag (files s))) = .ok (.ok c))
    (s : Shipped) (hs : s ∈ ds) (hlt : s.dir ≠ b!"lt") (hlv : s.dir = b!"lv" → loc_lt ∉ ds) :
    humanizerFormat c.formats (tag (tagOf s.dir)) = formatsOf s ∧
    (tag (tagOf s.dir) ≠ en → tag (tagOf s.dir) ≠ w.und → ∀ content, files s b!"django.po" = some content →
      ∃ k, decode (tag (tagOf s.dir)) b!"django" content = .ok k ∧
        c.bundle.locales.get? (tag (tagOf s.dir)) = some ⟨tag (tagOf s.dir), [(b!"django", k)], false⟩) := by
  have e : (ds.map fun s => some (s.localeData tag (files s))) = (ds.map fun s => s.localeData tag (files s)).map some := by
    simp [List.map_map, Function.comp_def]
  rw [e] at hc
  have hl : s.lang = tagOf s.dir := C93_own_language_partial s (hds s hs) hlt
  have last : lastOf (ds.map fun s => s.localeData tag (files s)) (tag (tagOf s.dir)) = some (s.localeData tag (files s)) := by
    have := last_unique (ds := ds.map fun s => s.localeData tag (files s)) (d := s.localeData tag (files s))
      (List.mem_map_of_mem hs) ?_
    · rw [← hl]; exact this
    · intro d' hd' hd
      obtain ⟨s', hs', rfl⟩ := List.mem_map.mp hd'
      have hd : tag s'.lang = tag s.lang := hd
      obtain ⟨s'', h1, h2, h3, h4⟩ := lang_dir s' (hds s' hs')
      rw [h2, hl] at hd
      have hdir := ht s'' h1 s (hds s hs) hd
      have hss := dir_inj h1 (hds s hs) hdir
      subst hss
      rcases h4 with rfl | ⟨h4, h5⟩
      · rfl
      · have := dir_inj (hds s' hs') C93_negation.1 h4
        subst this
        exact absurd hs' (hlv h5)
  rcases new_cases w ho hr hdec hen (ds.map fun s => s.localeData tag (files s)) with ⟨c', h1, h2, -, -, -, -, h7, h8⟩ | ⟨⟨e', h1⟩, -⟩
  · rw [hc] at h1
    injection h1 with h1
    injection h1 with h1
    subst h1
    refine ⟨?_, ?_⟩
    · rw [h8, last]
      rfl
    · intro n1 n2 content hf
      have hcat : catalogOf decode (ds.map fun s => s.localeData tag (files s)) (tag (tagOf s.dir)) =
          some (decode (tag (tagOf s.dir)) b!"django" content) := by
        unfold catalogOf
        rw [last]
        show (files s b!"django.po").map _ = _
        rw [hf]
        rfl
      cases hk : decode (tag (tagOf s.dir)) b!"django" content with
      | error e =>
        rw [hk] at hcat
        exact absurd hcat (h2 _ n2 n1 e)
      | ok k =>
        refine ⟨k, rfl, ?_⟩
        rw [h7, if_neg n1, if_neg n2, hcat, hk]
  · rw [hc] at h1
    injection h1 with h1
    cases h1

/-- In no collection that consists of packages of the module a humanizer for Lithuanian has Lithuanian formats or texts. -/
theorem C93_collection_negation (w : World L N V) {order : Order L N} (ho : Perms order)
    {range : GoMap L (LocaleData L) → GoMap L (LocaleData L)} (hr : ∀ m, (range m).Perm m)
    {decode : L → Bytes → Bytes → Except (Err L) (Option (Catalog L N))} (hdec : DecoderErrors decode) {en : L} (hen : en ≠ w.und)
    {tag : Bytes → L} (ht : TagsApart tag) (files : Shipped → Bytes → Option Bytes) (ds : List Shipped) (hds : ∀ s ∈ ds, s ∈ shipped)
    (c : Collection L N)
    (hc : newCollection w order range decode en (ds.map fun s => some (s.localeData tag (files s))) = .ok (.ok c)) :
    humanizerFormat c.formats (tag b!"lt") = fallbackFormat ∧
    (tag b!"lt" ≠ en → tag b!"lt" ∉ c.bundle.languages ∧ c.bundle.locales.get? (tag b!"lt") = none) := by
  have e : (ds.map fun s => some (s.localeData tag (files s))) = (ds.map fun s => s.localeData tag (files s)).map some := by
    simp [List.map_map, Function.comp_def]
  rw [e] at hc
  have last : lastOf (ds.map fun s => s.localeData tag (files s)) (tag b!"lt") = none := by
    unfold lastOf
    rw [List.getLast?_eq_none_iff, List.filter_eq_nil_iff]
    intro d hd
    obtain ⟨s', hs', rfl⟩ := List.mem_map.mp hd
    intro hl
    have hl : tag s'.lang = tag b!"lt" := of_decide_eq_true hl
    obtain ⟨s'', h1, h2, h3, -⟩ := lang_dir s' (hds s' hs')
    rw [h2] at hl
    exact h3 (ht s'' h1 loc_lt C93_negation.1 hl)
  have hcat : catalogOf decode (ds.map fun s => s.localeData tag (files s)) (tag b!"lt") = none := by
    unfold catalogOf
    rw [last]
    rfl
  rcases new_cases w ho hr hdec hen (ds.map fun s => s.localeData tag (files s)) with ⟨c', h1, -, -, -, -, h6, h7, h8⟩ | ⟨⟨e', h1⟩, -⟩
  · rw [hc] at h1
    injection h1 with h1
    injection h1 with h1
    subst h1
    refine ⟨by rw [h8, last], fun hne => ⟨?_, ?_⟩⟩
    · rw [h6, hcat]
      rintro (h | ⟨-, k, h⟩)
      · exact hne h
      · cases h
    · rw [h7, if_neg hne, hcat]
      split <;> rfl
  · rw [hc] at h1
    injection h1 with h1
    cases h1

/-- The identity keeps the languages apart. -/
example : TagsApart (id : Bytes → Bytes) := by
  have h : (shipped.all fun s => shipped.all fun s' => tagOf s.dir != tagOf s'.dir || s.dir == s'.dir) = true := by decide +kernel
  intro s hs s' hs' e
  have := List.all_eq_true.mp (List.all_eq_true.mp h s hs) s' hs'
  rw [Bool.or_eq_true, bne_iff_ne, beq_iff_eq] at this
  exact this.resolve_left fun hne => hne e

/-- Numbers as languages. -/
def demoTag (b : Bytes) : Nat := 5 + shipped.findIdx fun s => tagOf s.dir == b

/-- A collection of three packages: Latvian has the formats of its package because it comes last, and Lithuanian is not
supported. -/
example : ∃ c, newCollection Verif.Props.Localizer.demoWorld Verif.Props.Bundle.ident id demoDecode 1
      ([loc_de, loc_lt, loc_lv].map fun s => some (s.localeData demoTag (file b!"good"))) = .ok (.ok c) ∧
    c.bundle.languages = [1, demoTag b!"de", demoTag b!"lv"] ∧ demoTag b!"lt" ∉ c.bundle.languages ∧
    (humanizerFormat c.formats (demoTag b!"lv")).dateFormat = b!"j. F Y" :=
  ⟨_, rfl, by decide +kernel, by decide +kernel, by decide +kernel⟩

end Collections

/-! ## C94 -/

section Plurals
open Verif.Model.PoPlural
open Verif.Props.PoPlural (C29_in_range)

/-- The value of the node is not negative and less than the bound, whatever the number. -/
def boundB (k : Int) : Node → Bool
  | .value v => decide (0 ≤ v) && decide (v < k)
  | .operand => false
  | .question _ t f => boundB k t && boundB k f
  | .binary _ op _ => op != .rem && decide (2 ≤ k)

theorem truth_range (b : Bool) : 0 ≤ truth b ∧ truth b < 2 := by cases b <;> decide

theorem bound {k : Int} : ∀ {x : Node}, boundB k x = true → ∀ n, 0 ≤ evaluate x n ∧ evaluate x n < k
  | .value v, h, n => by
    simp only [boundB, Bool.and_eq_true, decide_eq_true_eq] at h
    exact h
  | .operand, h, _ => by cases h
  | .question c t f, h, n => by
    simp only [boundB, Bool.and_eq_true] at h
    simp only [evaluate]
    split
    · exact bound h.1 n
    · exact bound h.2 n
  | .binary x op y, h, n => by
    simp only [boundB, Bool.and_eq_true, decide_eq_true_eq] at h
    obtain ⟨h1, h2⟩ := h
    cases op with
    | rem => cases h1
    | _ =>
      simp only [evaluate]
      refine ⟨(truth_range _).1, Int.lt_of_lt_of_le (truth_range _).2 h2⟩

/-- The header is accepted with so many forms, and the rule is built in or has only such values. -/
def headerB (text : List Char) (k : Int) : Bool :=
  match astParse text with
  | .ok f =>
    match getBuiltInForRawRule (compileToString f) with
    | some r => decide (r.nPlurals = k)
    | none => decide (f.nPlurals = k) && boundB k f.root
  | .error _ => false

theorem header {text : List Char} {k : Int} (h : headerB text k = true) :
    ∃ r, parseRule text = .ok r ∧ r.nPlurals = k ∧ ∀ n : Int, 0 ≤ r.form n ∧ r.form n < k := by
  unfold headerB at h
  unfold parseRule
  cases hp : astParse text with
  | error e => rw [hp] at h; cases h
  | ok f =>
    rw [hp] at h
    simp only [] at h
    cases hb : getBuiltInForRawRule (compileToString f) with
    | some r =>
      rw [hb] at h
      have h : r.nPlurals = k := of_decide_eq_true h
      refine ⟨r, ?_, h, fun n => ?_⟩
      · show (match getBuiltInForRawRule (compileToString f) with
          | some r => Except.ok r
          | none => .ok ⟨f.nPlurals, generateFormFunc f⟩) = _
        rw [hb]
      · rw [← h]; exact C29_in_range (.inl ⟨_, hb⟩) n
    | none =>
      rw [hb] at h
      simp only [Bool.and_eq_true, decide_eq_true_eq] at h
      refine ⟨⟨f.nPlurals, generateFormFunc f⟩, ?_, h.1, fun n => bound h.2 n⟩
      show (match getBuiltInForRawRule (compileToString f) with
        | some r => Except.ok r
        | none => .ok ⟨f.nPlurals, generateFormFunc f⟩) = _
      rw [hb]

/-- The number after `nplurals=`. -/
def declared (text : List Char) : Int := (((text.drop 9).headD '0').toNat : Int) - 48

theorem headers_table : (shipped.all fun s => "nplurals=".toList.isPrefixOf s.pluralForms && headerB s.pluralForms (declared s.pluralForms)) =
    true := by decide +kernel

theorem forms_table : (shipped.all fun s => s.dir == b!"he" || s.forms.all fun v =>
    decide (declared s.pluralForms ≤ v.length) && (v.take (declared s.pluralForms).toNat).all id) = true := by decide +kernel

/-- The plural rule in the catalog of every locale is accepted, and chooses for every number one of the forms that the header
declares. -/
theorem C94_rules (s : Shipped) (hs : s ∈ shipped) :
    ∃ r, parseRule s.pluralForms = .ok r ∧ r.nPlurals = declared s.pluralForms ∧
      ∀ n : Int, 0 ≤ r.form n ∧ r.form n < r.nPlurals := by
  have h := List.all_eq_true.mp headers_table s hs
  rw [Bool.and_eq_true] at h
  obtain ⟨r, h1, h2, h3⟩ := header h.2
  exact ⟨r, h1, h2, fun n => by rw [h2]; exact h3 n⟩

/-- C94 for all locales but Hebrew: for every number, every plural message that is translated at all has a text for the
form that the rule chooses.  Missing: Hebrew (`C94_negation`). -/
theorem C94_complete_partial (s : Shipped) (hs : s ∈ shipped) (h : s.dir ≠ b!"he") :
    ∃ r, parseRule s.pluralForms = .ok r ∧ ∀ n : Int, ∀ v ∈ s.forms, v[(r.form n).toNat]? = some true := by
  obtain ⟨r, h1, h2, h3⟩ := C94_rules s hs
  refine ⟨r, h1, fun n v hv => ?_⟩
  have hf := List.all_eq_true.mp forms_table s hs
  rw [Bool.or_eq_true, beq_iff_eq] at hf
  have hf := List.all_eq_true.mp (hf.resolve_left h) v hv
  rw [Bool.and_eq_true, decide_eq_true_eq] at hf
  obtain ⟨g1, g2⟩ := hf
  obtain ⟨a, b⟩ := h3 n
  rw [h2] at b
  have hlt : (r.form n).toNat < v.length := by omega
  rw [List.getElem?_eq_getElem hlt]
  have hm : v[(r.form n).toNat] ∈ v.take (declared s.pluralForms).toNat := by
    have hlt' : (r.form n).toNat < (v.take (declared s.pluralForms).toNat).length := by
      rw [List.length_take]; omega
    have := List.getElem_mem hlt'
    rwa [List.getElem_take] at this
  have := List.all_eq_true.mp g2 _ hm
  rw [id] at this
  rw [this]

example : loc_cy ∈ shipped ∧ loc_cy.dir ≠ b!"he" ∧ loc_cy.forms = [[true, true, true, true]] := by
  refine ⟨?_, by decide, by decide⟩
  unfold shipped
  simp only [List.mem_cons, true_or, or_true]

/-- The tree of the Hebrew rule. -/
def hebrewRoot : Node :=
  .question (.binary (.binary .operand .eq (.value 1)) .and (.binary (.binary .operand .rem (.value 1)) .eq (.value 0))) (.value 0)
  (.question (.binary (.binary .operand .eq (.value 2)) .and (.binary (.binary .operand .rem (.value 1)) .eq (.value 0))) (.value 1)
  (.question (.binary (.binary (.binary (.binary .operand .rem (.value 10)) .eq (.value 0)) .and
    (.binary (.binary .operand .rem (.value 1)) .eq (.value 0))) .and (.binary .operand .gt (.value 10))) (.value 2) (.value 3)))

theorem hebrew_parsed : astParse loc_he.pluralForms = .ok ⟨4, hebrewRoot⟩ := by decide +kernel

theorem hebrew_own : (getBuiltInForRawRule (compileToString ⟨4, hebrewRoot⟩)).isNone = true := by decide +kernel

theorem hebrew_value (n : Int) (h : 3 ≤ n) (h' : n % 10 ≠ 0) : evaluate hebrewRoot n = 3 := by
  have e : n.tmod 10 = n % 10 := Int.tmod_eq_emod_of_nonneg (by omega)
  have h1 : (n == 1) = false := by simp; omega
  have h2 : (n == 2) = false := by simp; omega
  have h3 : ¬ n = 1 := by omega
  have h4 : ¬ n = 2 := by omega
  simp [hebrewRoot, evaluate, truth, e, h', h3, h4]

/-- C94 fails for Hebrew: the rule chooses the last of the four forms for most numbers, and there are messages that have
only three. -/
theorem C94_negation : loc_he ∈ shipped ∧ ∃ r, parseRule loc_he.pluralForms = .ok r ∧ ∃ v ∈ loc_he.forms,
    ∀ n : Int, 3 ≤ n → n % 10 ≠ 0 → v[(r.form n).toNat]? = none := by
  refine ⟨?_, ⟨4, generateFormFunc ⟨4, hebrewRoot⟩⟩, ?_, [true, true, true], by decide, ?_⟩
  · unfold shipped
    simp only [List.mem_cons, true_or, or_true]
  · unfold parseRule
    rw [hebrew_parsed]
    show (match getBuiltInForRawRule (compileToString ⟨4, hebrewRoot⟩) with
      | some r => Except.ok r
      | none => .ok ⟨4, generateFormFunc ⟨4, hebrewRoot⟩⟩) = _
    cases h : getBuiltInForRawRule (compileToString ⟨4, hebrewRoot⟩) with
    | none => rfl
    | some r =>
      have := hebrew_own
      rw [h] at this
      cases this
  · intro n h1 h2
    show ([true, true, true] : List Bool)[(evaluate hebrewRoot n).toNat]? = none
    rw [hebrew_value n h1 h2]
    rfl

/-- /repo/humanize/locale/he/django.po:12-30: the header and the first message. -/
def hebrewFile : Bytes := t!"msgid \"\"\nmsgstr \"\"\n\"Project-Id-Version: django\\n\"\n\"Report-Msgid-Bugs-To: \\n\"\n\"POT-Creation-Date: 2025-03-19 11:30-0500\\n\"\n\"PO-Revision-Date: 2025-04-01 15:04-0500\\n\"\n\"Last-Translator: Meir Kriheli <mkriheli@gmail.com>, 2011-2015,2017,2019-2020,2023,2025\\n\"\n\"Language-Team: Hebrew (http://app.transifex.com/django/django/language/he/)\\n\"\n\"Language: he\\n\"\n\"MIME-Version: 1.0\\n\"\n\"Content-Type: text/plain; charset=UTF-8\\n\"\n\"Content-Transfer-Encoding: 8bit\\n\"\n\"Plural-Forms: nplurals=4; plural=(n == 1 && n % 1 == 0) ? 0 : (n == 2 && n % 1 == 0) ? 1: (n % 10 == 0 && n % 1 == 0 && n > 10) ? 2 : 3;\\n\"\n\nmsgid \"%[1]d byte\"\nmsgid_plural \"%[1]d bytes\"\nmsgstr[0] \"בית %[1]d \"\nmsgstr[1] \"%[1]d בתים\"\nmsgstr[2] \"%[1]d בתים\"\n"

open Verif.Model.Catalog in
/-- The decoder, on the beginning of the Hebrew file: the number of bytes has a translation for 1 and for 20, none for 3. -/
theorem C94_hebrew_file_negation :
    ∃ c, poDecode Verif.Props.PoFile.ascii [("he", none)] b!"django" false hebrewFile = .catalog c ∧
      c.lookupPlural [] b!"%[1]d byte" ⟨none, some 1⟩ = (b!"בית %[1]d ", none) ∧
      c.lookupPlural [] b!"%[1]d byte" ⟨none, some 20⟩ = (b!"%[1]d בתים", none) ∧
      ∃ e, c.lookupPlural [] b!"%[1]d byte" ⟨none, some 3⟩ = (b!"%[1]d byte", some e) := by
  have h : (match poDecode Verif.Props.PoFile.ascii [("he", none)] b!"django" false hebrewFile with
      | .catalog c => decide (c.lookupPlural [] b!"%[1]d byte" ⟨none, some 1⟩ = (b!"בית %[1]d ", none) ∧
          c.lookupPlural [] b!"%[1]d byte" ⟨none, some 20⟩ = (b!"%[1]d בתים", none) ∧
          (c.lookupPlural [] b!"%[1]d byte" ⟨none, some 3⟩).1 = b!"%[1]d byte" ∧
          (c.lookupPlural [] b!"%[1]d byte" ⟨none, some 3⟩).2.isSome = true)
      | _ => false) = true := by decide +kernel
  cases hd : poDecode Verif.Props.PoFile.ascii [("he", none)] b!"django" false hebrewFile with
  | catalog c =>
    rw [hd] at h
    obtain ⟨h1, h2, h3, h4⟩ := of_decide_eq_true h
    obtain ⟨e, he⟩ := Option.isSome_iff_exists.mp h4
    exact ⟨c, rfl, h1, h2, e, Prod.ext h3 he⟩
  | _ => rw [hd] at h; cases h

end Plurals

end Verif.Props.Locales
