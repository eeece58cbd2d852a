import Verif.Spec.Mo
import Verif.Proofs.Po.File
import Verif.Proofs.Po.FileRead
import Verif.Proofs.Catalog.Gettext
/-!
# Reading MO files
-/
namespace Verif.Proofs.Mo
open Verif.Go Verif.Model.Mo Verif.Spec.Mo
open Verif.Model.Po (Message File Header Unicode trimSpace)
open Verif.Proofs.Po (splitByte_none)
open Verif.Proofs.Catalog (consistent_addAll Consistent)

/-! ## Numbers -/

theorem digits_length (k : Nat) : ∀ v, (digits k v).length = k := by
  induction k with
  | zero => intro v; rfl
  | succ k ih => intro v; rw [digits, List.length_cons, ih]

theorem bytesOf_length (bo : Order) (k v : Nat) : (bytesOf bo k v).length = k := by
  cases bo <;> simp [bytesOf, digits_length]

theorem toNat_ofNat (n : Nat) : (UInt8.ofNat (n % 256)).toNat = n % 256 := by
  simp

/-- The value of bytes, the lowest first. -/
def low (bs : Bytes) : Nat := bs.foldr (fun b n => b.toNat + 256 * n) 0

theorem low_cons (b : UInt8) (bs : Bytes) : low (b :: bs) = b.toNat + 256 * low bs := rfl

theorem low_digits (k : Nat) : ∀ v, v < 256 ^ k → low (digits k v) = v := by
  induction k with
  | zero => intro v h; simp at h; subst h; rfl
  | succ k ih =>
    intro v h
    rw [digits, low_cons, toNat_ofNat, ih]
    · omega
    · rw [Nat.pow_succ] at h; omega

theorem digits_low (bs : Bytes) : digits bs.length (low bs) = bs := by
  induction bs with
  | nil => rfl
  | cons b bs ih =>
    rw [List.length_cons, digits, low_cons]
    have h := b.toNat_lt
    have e1 : (b.toNat + 256 * low bs) % 256 = b.toNat := by omega
    have e2 : (b.toNat + 256 * low bs) / 256 = low bs := by omega
    rw [e1, e2, ih, UInt8.ofNat_toNat]

theorem low_lt (bs : Bytes) : low bs < 256 ^ bs.length := by
  induction bs with
  | nil => exact Nat.one_pos
  | cons b bs ih =>
    rw [low_cons, List.length_cons, Nat.pow_succ]
    have h := b.toNat_lt
    omega

theorem value_little (bs : Bytes) : Order.value .little bs = low bs := rfl

theorem value_big (bs : Bytes) : Order.value .big bs = low bs.reverse := by
  have h : (fun (n : Nat) (b : UInt8) => 256 * n + b.toNat) = fun n b => b.toNat + 256 * n := by
    funext n b
    omega
  unfold low
  rw [List.foldr_reverse, ← h]
  rfl

theorem value_bytesOf (bo : Order) {k v : Nat} (h : v < 256 ^ k) : bo.value (bytesOf bo k v) = v := by
  cases bo with
  | little => rw [value_little]; exact low_digits k v h
  | big => rw [value_big, bytesOf, List.reverse_reverse]; exact low_digits k v h

theorem bytesOf_value (bo : Order) (bs : Bytes) : bytesOf bo bs.length (bo.value bs) = bs := by
  cases bo with
  | little => exact digits_low bs
  | big =>
    rw [value_big]
    have := digits_low bs.reverse
    rw [List.length_reverse] at this
    rw [bytesOf, this, List.reverse_reverse]

theorem value_lt (bo : Order) (bs : Bytes) : bo.value bs < 256 ^ bs.length := by
  cases bo with
  | little => exact low_lt bs
  | big => rw [value_big]; have := low_lt bs.reverse; rwa [List.length_reverse] at this

theorem hasAt_iff {data : Bytes} {p : Nat} {s : Bytes} :
    HasAt data p s ↔ p + s.length ≤ data.length ∧ (data.drop p).take s.length = s := by
  constructor
  · rintro ⟨pre, post, rfl, rfl⟩
    refine ⟨by simp, ?_⟩
    rw [List.append_assoc, List.drop_left, List.take_left]
  · rintro ⟨h1, h2⟩
    refine ⟨data.take p, (data.drop p).drop s.length, ?_, by simp; omega⟩
    rw [List.append_assoc]
    conv => lhs; rw [← List.take_append_drop p data, ← List.take_append_drop s.length (data.drop p), h2]

theorem readUint_iff {bo : Order} {data : Bytes} {p k v : Nat} : readUint bo data p k = some v ↔ NumAt bo data p k v := by
  unfold readUint NumAt
  rw [hasAt_iff, bytesOf_length]
  constructor
  · intro h
    split at h
    · rename_i hl
      cases h
      have hlen : ((data.drop p).take k).length = k := by simp; omega
      have h1 := value_lt bo ((data.drop p).take k)
      have h2 := bytesOf_value bo ((data.drop p).take k)
      rw [hlen] at h1 h2
      exact ⟨h1, hl, h2.symm⟩
    · cases h
  · rintro ⟨h1, h2, h3⟩
    rw [if_pos h2, h3, value_bytesOf bo h1]

theorem readUint_none {bo : Order} {data : Bytes} {p k : Nat} : readUint bo data p k = none ↔ data.length < p + k := by
  unfold readUint
  split
  · rename_i h; simp; omega
  · rename_i h; simp; omega

theorem numAt_unique {bo : Order} {data : Bytes} {p k v w : Nat} (h1 : NumAt bo data p k v) (h2 : NumAt bo data p k w) : v = w := by
  have := readUint_iff.2 h1
  rw [readUint_iff.2 h2] at this
  exact (Option.some.inj this).symm

theorem order_iff {data : Bytes} {bo : Order} : parseByteOrder data = some bo ↔ NumAt bo data 0 4 0x950412de := by
  have hbig : NumAt .big data 0 4 0x950412de ↔ NumAt .little data 0 4 0xde120495 := by
    unfold NumAt
    have : bytesOf .big 4 0x950412de = bytesOf .little 4 0xde120495 := by decide
    rw [this]
    simp
  unfold parseByteOrder
  cases h : readUint .little data 0 4 with
  | none =>
    refine ⟨fun h => (by cases h), fun h' => ?_⟩
    rw [readUint_none] at h
    have := (hasAt_iff.1 h'.2).1
    rw [bytesOf_length] at this
    omega
  | some m =>
    rw [readUint_iff] at h
    simp only
    constructor
    · intro h'
      split at h'
      · rename_i e; cases h'; rw [e] at h; exact h
      · split at h'
        · rename_i e; cases h'; rw [e] at h; exact hbig.2 h
        · cases h'
    · intro h'
      cases bo with
      | little => rw [if_pos (numAt_unique h h')]
      | big =>
        have := numAt_unique h (hbig.1 h')
        rw [if_neg (by omega), if_pos this]

theorem parseHeader_iff {bo : Order} {data : Bytes} {n o t : Nat} (hm : NumAt bo data 0 4 0x950412de) :
    parseHeader bo data = some (n, o, t) ↔ HeadAt bo data n o t := by
  unfold parseHeader HeadAt
  constructor
  · intro h
    split at h
    · rename_i a b n' o' t' s hh h1 h2 h3 h4 h5 h6 h7
      rw [readUint_iff] at h1 h2 h3 h4 h5 h6 h7
      split at h
      · cases h
      · split at h
        · cases h
        · cases h
          exact ⟨hm, ⟨a, h1, by omega⟩, ⟨b, h2, by omega⟩, h3, h4, h5, ⟨s, h6⟩, hh, h7⟩
    · cases h
  · rintro ⟨_, ⟨a, h1, ha⟩, ⟨b, h2, hb⟩, h3, h4, h5, ⟨s, h6⟩, ⟨hh, h7⟩⟩
    rw [readUint_iff.2 h1, readUint_iff.2 h2, readUint_iff.2 h3, readUint_iff.2 h4, readUint_iff.2 h5,
      readUint_iff.2 h6, readUint_iff.2 h7]
    simp only
    rw [if_neg (by omega), if_neg (by omega)]

/-- The rows of a table. -/
def RowsAt (bo : Order) (data : Bytes) (p : Nat) (rs : List (Nat × Nat)) : Prop :=
  ∀ i r, rs[i]? = some r → NumAt bo data (p + 8 * i) 4 r.1 ∧ NumAt bo data (p + 8 * i + 4) 4 r.2

theorem rowsAt_cons {bo : Order} {data : Bytes} {p : Nat} {r : Nat × Nat} {rs : List (Nat × Nat)} :
    RowsAt bo data p (r :: rs) ↔ (NumAt bo data p 4 r.1 ∧ NumAt bo data (p + 4) 4 r.2) ∧ RowsAt bo data (p + 8) rs := by
  constructor
  · intro h
    refine ⟨by simpa using h 0 r rfl, fun i x hx => ?_⟩
    have := h (i + 1) x (by simpa using hx)
    have e : p + 8 * (i + 1) = p + 8 + 8 * i := by omega
    rwa [e] at this
  · rintro ⟨h1, h2⟩ i x hx
    cases i with
    | zero => cases hx; exact h1
    | succ i =>
      have := h2 i x (by simpa using hx)
      have e : p + 8 * (i + 1) = p + 8 + 8 * i := by omega
      rw [e]; exact this

theorem readTable_iff {bo : Order} {data : Bytes} (n : Nat) : ∀ {p : Nat} {rs : List (Nat × Nat)},
    readTable bo data p n = some rs ↔ rs.length = n ∧ RowsAt bo data p rs := by
  induction n with
  | zero =>
    intro p rs
    rw [readTable]
    constructor
    · intro h; cases h; exact ⟨rfl, fun i r h => by simp at h⟩
    · rintro ⟨h, _⟩; rw [List.length_eq_zero_iff.1 h]
  | succ n ih =>
    intro p rs
    rw [readTable]
    constructor
    · intro h
      split at h
      · rename_i len off h1 h2
        obtain ⟨rs', h3, rfl⟩ := Option.map_eq_some_iff.1 h
        obtain ⟨h4, h5⟩ := ih.1 h3
        exact ⟨by simp [h4], rowsAt_cons.2 ⟨⟨readUint_iff.1 h1, readUint_iff.1 h2⟩, h5⟩⟩
      · cases h
    · rintro ⟨h1, h2⟩
      cases rs with
      | nil => cases h1
      | cons r rs =>
        obtain ⟨⟨h3, h4⟩, h5⟩ := rowsAt_cons.1 h2
        rw [readUint_iff.2 h3, readUint_iff.2 h4]
        simp only
        rw [ih.2 ⟨by simpa using h1, h5⟩]
        rfl

/-! ## Texts -/

/-- What is read from the file: missing bytes are zero. -/
def padded (data : Bytes) (r : Nat × Nat) : Bytes :=
  (data.drop r.2).take r.1 ++ List.replicate (r.1 - (data.length - r.2)) 0

theorem read_eq (data : Bytes) (r : Nat × Nat) : read data r.2 r.1 = if data.length ≤ r.2 then none else some (padded data r) := rfl

/-- Storing the texts of a file. -/
def load (u : Unicode) (f : File) : List (Bytes × Bytes) → File
  | [] => f
  | (id, text) :: ts =>
    if id = [] then load u { f with header := some (parseMessageHeader u text) } ts
    else load u (f.addMessage (buildMessage id text)) ts

theorem parseMessages_iff {u : Unicode} {data : Bytes} (ds : List ((Nat × Nat) × (Nat × Nat))) : ∀ {f f' : File},
    parseMessages u data f ds = some f' ↔ (∀ d ∈ ds, d.1.2 < data.length ∧ d.2.2 < data.length) ∧
      f' = load u f (ds.map fun d => (padded data d.1, padded data d.2)) := by
  induction ds with
  | nil => intro f f'; simp [parseMessages, load, eq_comm]
  | cons d ds ih =>
    intro f f'
    obtain ⟨⟨il, io⟩, ⟨sl, so⟩⟩ := d
    have e1 := read_eq data (il, io)
    have e2 := read_eq data (sl, so)
    simp only at e1 e2
    rw [parseMessages, e1, e2]
    by_cases h1 : data.length ≤ io
    · rw [if_pos h1]
      simp only
      constructor
      · intro h; cases h
      · rintro ⟨h, _⟩; have := (h _ List.mem_cons_self).1; simp at this; omega
    · by_cases h2 : data.length ≤ so
      · rw [if_neg h1, if_pos h2]
        simp only
        constructor
        · intro h; cases h
        · rintro ⟨h, _⟩; have := (h _ List.mem_cons_self).2; simp at this; omega
      · rw [if_neg h1, if_neg h2, List.map_cons, load]
        simp only [List.mem_cons, forall_eq_or_imp]
        have hlt : (io < data.length ∧ so < data.length) := by omega
        split
        · rw [ih]; simp [hlt]
        · rw [ih]; simp [hlt]

theorem padded_hasAt {data : Bytes} {off : Nat} {s : Bytes} (h : HasAt data off (s ++ [0x00])) :
    off < data.length ∧ padded data (s.length, off) = s := by
  obtain ⟨pre, post, rfl, rfl⟩ := h
  refine ⟨by simp; omega, ?_⟩
  unfold padded
  simp only [List.length_append, List.length_cons, List.length_nil]
  have : s.length - (pre.length + (s.length + (0 + 1)) + post.length - pre.length) = 0 := by omega
  rw [this]
  have e : pre ++ (s ++ [0x00]) ++ post = pre ++ (s ++ ([0x00] ++ post)) := by simp
  rw [e, List.drop_left, List.take_left]
  simp

/-! ## Entries -/

theorem indexByte_absent {c : UInt8} {s : Bytes} (h : c ∉ s) : indexByte? c s = none := by
  induction s with
  | nil => rfl
  | cons x s ih =>
    rw [List.mem_cons, not_or] at h
    rw [indexByte?, if_neg (fun e => h.1 e.symm), ih h.2]
    rfl

theorem indexByte_at {c : UInt8} {a b : Bytes} (h : c ∉ a) : indexByte? c (a ++ c :: b) = some a.length := by
  induction a with
  | nil => simp [indexByte?]
  | cons x s ih =>
    rw [List.mem_cons, not_or] at h
    rw [List.cons_append, indexByte?, if_neg (fun e => h.1 e.symm), ih h.2]
    rfl

theorem splitByte_join {ss : List Bytes} (hn : ss ≠ []) (h : ∀ s ∈ ss, (0x00 : UInt8) ∉ s) : splitByte 0 (join [0] ss) = ss := by
  induction ss with
  | nil => exact absurd rfl hn
  | cons s ss ih =>
    cases ss with
    | nil => exact splitByte_none (h s List.mem_cons_self)
    | cons s' ss =>
      have ih := ih (by simp) fun x hx => h x (List.mem_cons_of_mem _ hx)
      have : join [0] (s :: s' :: ss) = s ++ 0 :: join [0] (s' :: ss) := by simp [join]
      rw [this, Verif.Proofs.Po.splitByte_append_sep, ih, splitByte_none (h s List.mem_cons_self)]
      rfl

theorem set_append (a : GoMap Int Bytes) (k : Int) (v : Bytes) (h : ∀ p ∈ a, p.1 ≠ k) : GoMap.set a k v = a ++ [(k, v)] := by
  induction a with
  | nil => rfl
  | cons p a ih =>
    obtain ⟨k', v'⟩ := p
    rw [GoMap.set, if_neg (h _ List.mem_cons_self), ih fun q hq => h q (List.mem_cons_of_mem _ hq)]
    rfl

theorem setForms_append (ts : List Bytes) : ∀ (a : GoMap Int Bytes) (i : Nat), (∀ p ∈ a, p.1 < i) →
    setForms a i ts = a ++ numbered i ts := by
  induction ts with
  | nil => intro a i _; simp [setForms, numbered]
  | cons t ts ih =>
    intro a i h
    rw [setForms, set_append a i t (fun p hp => by have := h p hp; omega), ih, numbered]
    · simp
    · intro p hp
      rcases List.mem_append.1 hp with hp | hp
      · have := h p hp; omega
      · simp only [List.mem_singleton] at hp; subst hp; simp; omega

theorem setForms_first (t : Bytes) (ts : List Bytes) (x : Bytes) : setForms [(0, x)] 0 (t :: ts) = numbered 0 (t :: ts) := by
  rw [setForms, numbered]
  have : GoMap.set [((0 : Int), x)] ((0 : Nat) : Int) t = [((0 : Int), t)] := rfl
  rw [this, setForms_append]
  · rfl
  · simp

theorem rawId_nil {e : Entry} : e.rawId = [] ↔ e.isHeader := by
  unfold Entry.rawId Entry.isHeader
  cases e.context <;> cases e.plural <;> simp

theorem buildMessage_entry {e : Entry} (h : e.WF) : buildMessage e.rawId e.rawStr = e.message := by
  obtain ⟨h0, h1, h2, h3, h4⟩ := h
  have hctx : ∀ t : Bytes, (∀ c, e.context = some c → e.rawId = c ++ 0x04 :: (e.id ++ t)) →
      (e.context = none → e.rawId = e.id ++ t) → (e.context = none → (0x04 : UInt8) ∉ t) →
      splitContext e.rawId = (e.context.getD [], e.id ++ t) := by
    intro t k1 k2 k3
    unfold splitContext
    cases hc : e.context with
    | none =>
      have : (0x04 : UInt8) ∉ e.id ++ t := by
        rw [List.mem_append, not_or]
        exact ⟨(h2 hc).1, k3 hc⟩
      rw [k2 hc, indexByte_absent this]
      rfl
    | some c =>
      rw [k1 c hc, indexByte_at (h1 c hc)]
      simp
  unfold buildMessage
  cases hp : e.plural with
  | none =>
    obtain ⟨s, hs⟩ := h3 hp
    rw [hctx [] (by intro c hc; simp [Entry.rawId, hc, hp]) (by intro hc; simp [Entry.rawId, hc, hp]) (by simp)]
    simp only [List.append_nil]
    rw [indexByte_absent h0]
    unfold Entry.message Entry.rawStr
    rw [hs, hp]
    rfl
  | some p =>
    obtain ⟨g1, g2⟩ := h4 (by rw [hp]; simp)
    rw [hctx (0x00 :: p) (by intro c hc; simp [Entry.rawId, hc, hp]) (by intro hc; simp [Entry.rawId, hc, hp])
      (by intro hc; simp only [List.mem_cons, not_or]; exact ⟨by decide, (h2 hc).2 p hp⟩)]
    simp only
    rw [indexByte_at h0]
    unfold Entry.message Entry.rawStr
    rw [splitByte_join g1 g2, hp]
    cases hs : e.strs with
    | nil => exact absurd hs g1
    | cons t ts =>
      simp only
      rw [setForms_first]
      simp [Message.new]

/-- The messages after loading entries with new keys. -/
theorem load_messages (u : Unicode) {es : List Entry} : ∀ {f : File}, (∀ e ∈ es, e.WF) →
    ((es.filter fun e => e.id ≠ []).map Entry.key).Nodup →
    (∀ e ∈ es, e.id ≠ [] → f.getMessage e.key.1 e.key.2 = none) → ∀ c i m,
    (load u f (es.map fun e => (e.rawId, e.rawStr))).getMessage c i = some m ↔
      f.getMessage c i = some m ∨ ∃ e ∈ es, e.id ≠ [] ∧ e.key = (c, i) ∧ m = e.message := by
  induction es with
  | nil => intro f _ _ _ c i m; simp [load]
  | cons e es ih =>
    intro f hw hk hf c i m
    have hw' := fun x hx => hw x (List.mem_cons_of_mem e hx)
    have hf' := fun x hx => hf x (List.mem_cons_of_mem e hx)
    rw [List.map_cons, load]
    by_cases hid : e.id = []
    · rw [List.filter_cons_of_neg (by simpa using hid)] at hk
      simp only [List.mem_cons, exists_eq_or_imp, hid, ne_eq, not_true_eq_false, false_and, false_or]
      split
      · exact ih (f := { f with header := some (parseMessageHeader u e.rawStr) }) hw' hk hf' c i m
      · rw [buildMessage_entry (hw e List.mem_cons_self)]
        have : f.addMessage e.message = f := by
          unfold File.addMessage
          exact if_pos hid
        rw [this]
        exact ih hw' hk hf' c i m
    · rw [if_neg (fun h => hid (rawId_nil.1 h).2.1)]
      rw [List.filter_cons_of_pos (by simpa using hid), List.map_cons, List.nodup_cons] at hk
      rw [buildMessage_entry (hw e List.mem_cons_self)]
      have hfe := hf e List.mem_cons_self hid
      have hget : ∀ c i, (f.addMessage e.message).getMessage c i =
          if e.key = (c, i) then some e.message else f.getMessage c i := by
        intro c i
        rw [Verif.Proofs.Po.getMessage_addMessage]
        by_cases hk : e.key = (c, i)
        · rw [if_pos hk]
          obtain ⟨k1, k2⟩ := Prod.mk.inj hk
          rw [if_pos ⟨hid, k1, k2⟩, ← k1, ← k2]
          have : f.getMessage (e.context.getD []) e.id = none := hfe
          rw [this]
        · rw [if_neg hk, if_neg]
          rintro ⟨_, k1, k2⟩
          exact hk (Prod.ext k1 k2)
      rw [ih hw' hk.2]
      · rw [hget]
        simp only [List.mem_cons, exists_eq_or_imp]
        by_cases hk' : e.key = (c, i)
        · rw [if_pos hk']
          obtain ⟨k1, k2⟩ := Prod.mk.inj hk'
          subst k1; subst k2
          have : f.getMessage (e.context.getD []) e.id = none := hfe
          rw [this]
          simp [hid, hk', eq_comm]
        · rw [if_neg hk']
          simp [hid, hk']
      · intro x hx hxh
        rw [hget, if_neg]
        · exact hf x (List.mem_cons_of_mem _ hx) hxh
        · intro hk'
          exact hk.1 (List.mem_map.2 ⟨x, List.mem_filter.2 ⟨hx, by simpa using hxh⟩, hk'.symm⟩)

theorem load_consistent (u : Unicode) (ts : List (Bytes × Bytes)) : ∀ {f : File}, Consistent f.messages →
    Consistent (load u f ts).messages := by
  induction ts with
  | nil => intro f h; exact h
  | cons t ts ih =>
    intro f h
    obtain ⟨id, text⟩ := t
    rw [load]
    split
    · exact ih (f := { f with header := some (parseMessageHeader u text) }) h
    · exact ih (consistent_addAll h [buildMessage id text])

theorem headerLines_eq (u : Unicode) (ls : List Bytes) : ∀ h : Header, headerLines u h ls =
    (ls.filterMap fun l => if 0x3a ∈ l then some (trimSpace (l.takeWhile (· ≠ 0x3a)), trimSpace ((l.dropWhile (· ≠ 0x3a)).drop 1))
      else none).foldl (fun h f => h.set u f.1 f.2) h := by
  have hi : ∀ l : Bytes, indexByte? 0x3a l = if 0x3a ∈ l then some (l.takeWhile (· ≠ 0x3a)).length else none := by
    intro l
    induction l with
    | nil => rfl
    | cons x l ih =>
      rw [indexByte?, ih]
      by_cases hx : x = 0x3a
      · subst hx; simp
      · rw [if_neg hx]
        by_cases hm : (0x3a : UInt8) ∈ l
        · simp [hm, hx]
        · simp [hm, hx, Ne.symm hx]
  have ht : ∀ l : Bytes, l.take (l.takeWhile (· ≠ 0x3a)).length = l.takeWhile (· ≠ 0x3a) := fun l =>
    List.prefix_iff_eq_take.1 (List.takeWhile_prefix _) |>.symm
  have hd : ∀ l : Bytes, l.drop ((l.takeWhile (· ≠ 0x3a)).length + 1) = (l.dropWhile (· ≠ 0x3a)).drop 1 := by
    intro l
    induction l with
    | nil => rfl
    | cons x l ih =>
      by_cases hx : x = 0x3a
      · subst hx; simp
      · rw [List.takeWhile_cons_of_pos (by simpa using hx), List.dropWhile_cons_of_pos (by simpa using hx), ← ih]
        rfl
  induction ls with
  | nil => intro h; rfl
  | cons l ls ih =>
    intro h
    rw [headerLines, hi]
    by_cases hm : (0x3a : UInt8) ∈ l
    · rw [if_pos hm, List.filterMap_cons_some (by rw [if_pos hm]), List.foldl_cons]
      simp only
      rw [ht, hd, ih]
    · rw [if_neg hm, List.filterMap_cons_none (by rw [if_neg hm])]
      exact ih h

theorem parseMessageHeader_eq (u : Unicode) (text : Bytes) :
    parseMessageHeader u text = (headerFields text).foldl (fun h f => h.set u f.1 f.2) {} := headerLines_eq u _ _

/-- The header after loading entries: that of the last header entry. -/
theorem load_header (u : Unicode) {ts : List (Bytes × Bytes)} : ∀ {f : File},
    (load u f ts).header = match (ts.filter fun t => t.1 = []).getLast? with
      | none => f.header
      | some t => some (parseMessageHeader u t.2) := by
  induction ts with
  | nil => intro f; rfl
  | cons t ts ih =>
    intro f
    obtain ⟨id, text⟩ := t
    rw [load]
    by_cases h : id = []
    · rw [if_pos h, ih, List.filter_cons_of_pos (by simpa using h), List.getLast?_cons]
      cases (ts.filter fun t => t.1 = []).getLast? <;> rfl
    · rw [if_neg h, ih, List.filter_cons_of_neg (by simpa using h)]
      have : (f.addMessage (buildMessage id text)).header = f.header := by
        unfold File.addMessage; split <;> rfl
      rw [this]

/-! ## Images -/

theorem tableAt_rows {bo : Order} {data : Bytes} (texts : List Bytes) : ∀ {p : Nat}, TableAt bo data p texts →
    ∃ rs : List (Nat × Nat), rs.length = texts.length ∧ RowsAt bo data p rs ∧ (∀ r ∈ rs, r.2 < data.length) ∧
      rs.map (padded data) = texts := by
  induction texts with
  | nil => intro p _; exact ⟨[], rfl, fun i r h => by simp at h, nofun, rfl⟩
  | cons s texts ih =>
    intro p h
    obtain ⟨off, h1, h2, h3⟩ := h 0 s rfl
    obtain ⟨rs, g1, g2, g3, g4⟩ := ih (p := p + 8) (by
      intro i x hx
      have := h (i + 1) x (by simpa using hx)
      have e : p + 8 * (i + 1) = p + 8 + 8 * i := by omega
      rwa [e] at this)
    obtain ⟨k1, k2⟩ := padded_hasAt h3
    refine ⟨(s.length, off) :: rs, by simp [g1], rowsAt_cons.2 ⟨by simpa using ⟨h1, h2⟩, g2⟩, ?_, by rw [List.map_cons, k2, g4]⟩
    intro r hr
    rcases List.mem_cons.1 hr with rfl | hr
    · exact k1
    · exact g3 r hr

/-- The parser accepts exactly these files and gives these results. -/
theorem parse_iff {u : Unicode} {data : Bytes} {f : File} : parse u data = some f ↔
    ∃ bo n o t ids strs, HeadAt bo data n o t ∧ ids.length = n ∧ strs.length = n ∧ RowsAt bo data o ids ∧
      RowsAt bo data t strs ∧ (∀ r ∈ ids, r.2 < data.length) ∧ (∀ r ∈ strs, r.2 < data.length) ∧
      f = load u .new ((ids.map (padded data)).zip (strs.map (padded data))) := by
  have hz : ∀ (ids strs : List (Nat × Nat)), ids.length = strs.length →
      ((∀ d ∈ ids.zip strs, d.1.2 < data.length ∧ d.2.2 < data.length) ↔
        (∀ r ∈ ids, r.2 < data.length) ∧ ∀ r ∈ strs, r.2 < data.length) := by
    intro ids
    induction ids with
    | nil => intro strs h; cases strs with
      | nil => simp
      | cons => cases h
    | cons a ids ih =>
      intro strs h
      cases strs with
      | nil => cases h
      | cons b strs =>
        simp only [List.zip_cons_cons, List.mem_cons, forall_eq_or_imp]
        rw [ih strs (by simpa using h)]
        constructor
        · rintro ⟨⟨h1, h2⟩, h3, h4⟩; exact ⟨⟨h1, h3⟩, h2, h4⟩
        · rintro ⟨⟨h1, h3⟩, h2, h4⟩; exact ⟨⟨h1, h2⟩, h3, h4⟩
  have hm : ∀ (ids strs : List (Nat × Nat)), (ids.zip strs).map (fun d => (padded data d.1, padded data d.2)) =
      (ids.map (padded data)).zip (strs.map (padded data)) := by
    intro ids strs
    rw [List.zip_map]
    rfl
  unfold parse
  constructor
  · intro h
    split at h
    · cases h
    · rename_i bo hb
      rw [order_iff] at hb
      split at h
      · cases h
      · rename_i n o t hh
        rw [parseHeader_iff hb] at hh
        split at h
        · rename_i ids strs h1 h2
          rw [readTable_iff] at h1 h2
          rw [parseMessages_iff, hz ids strs (h1.1.trans h2.1.symm), hm] at h
          exact ⟨bo, n, o, t, ids, strs, hh, h1.1, h2.1, h1.2, h2.2, h.1.1, h.1.2, h.2⟩
        · cases h
  · rintro ⟨bo, n, o, t, ids, strs, hh, h1, h2, h3, h4, h5, h6, h7⟩
    have hb := order_iff.2 hh.1
    have hp := (parseHeader_iff hh.1).2 hh
    rw [hb]
    simp only
    rw [hp]
    simp only
    rw [(readTable_iff n).2 ⟨h1, h3⟩, (readTable_iff n).2 ⟨h2, h4⟩]
    simp only
    rw [parseMessages_iff, hz ids strs (h1.trans h2.symm), hm]
    exact ⟨⟨h5, h6⟩, h7⟩

theorem parse_image {u : Unicode} {bo : Order} {data : Bytes} {es : List Entry} (h : Image bo data es) :
    parse u data = some (load u .new (es.map fun e => (e.rawId, e.rawStr))) := by
  obtain ⟨o, t, hh, h1, h2⟩ := h
  obtain ⟨ids, a1, a2, a3, a4⟩ := tableAt_rows _ h1
  obtain ⟨strs, b1, b2, b3, b4⟩ := tableAt_rows _ h2
  rw [List.length_map] at a1 b1
  refine parse_iff.2 ⟨bo, _, o, t, ids, strs, hh, a1, b1, a2, b2, a3, b3, ?_⟩
  rw [a4, b4, List.zip_map']

/-! ## The writer -/

theorem rows_length (bo : Order) (texts : List Bytes) : ∀ off, (rows bo off texts).length = 8 * texts.length := by
  induction texts with
  | nil => intro off; rfl
  | cons s ss ih => intro off; rw [rows]; simp [bytesOf_length, ih]; omega

theorem pool_cons (s : Bytes) (ss : List Bytes) : pool (s :: ss) = s ++ [0x00] ++ pool ss := by simp [pool]

/-- Rows in front of some texts describe them. -/
theorem tableAt_write (bo : Order) (texts : List Bytes) : ∀ (A B C : Bytes) (off : Nat),
    off = (A ++ rows bo off texts ++ B).length → off + (pool texts).length < 256 ^ 4 →
    TableAt bo (A ++ rows bo off texts ++ B ++ pool texts ++ C) A.length texts := by
  induction texts with
  | nil => intro A B C off _ _ i s h; simp at h
  | cons s ss ih =>
    intro A B C off ho hl i x hx
    have e : A ++ rows bo off (s :: ss) ++ B ++ pool (s :: ss) ++ C =
        (A ++ (bytesOf bo 4 s.length ++ bytesOf bo 4 off)) ++ rows bo (off + s.length + 1) ss ++ (B ++ (s ++ [0x00])) ++ pool ss ++ C := by
      rw [rows, pool_cons]; simp
    cases i with
    | zero =>
      cases hx
      refine ⟨off, ⟨?_, ?_⟩, ⟨?_, ?_⟩, ?_⟩
      · rw [pool_cons] at hl; simp at hl; omega
      · exact ⟨A, bytesOf bo 4 off ++ rows bo (off + s.length + 1) ss ++ B ++ pool (s :: ss) ++ C, by rw [rows]; simp, by simp⟩
      · omega
      · exact ⟨A ++ bytesOf bo 4 s.length, rows bo (off + s.length + 1) ss ++ B ++ pool (s :: ss) ++ C, by rw [rows]; simp,
          by simp [bytesOf_length]⟩
      · exact ⟨A ++ rows bo off (s :: ss) ++ B, pool ss ++ C, by rw [pool_cons]; simp, ho.symm⟩
    | succ i =>
      have := ih (A ++ (bytesOf bo 4 s.length ++ bytesOf bo 4 off)) (B ++ (s ++ [0x00])) C (off + s.length + 1) (by
        have h2 := rows_length bo ss (off + s.length + 1)
        have h3 := rows_length bo (s :: ss) off
        simp only [List.length_append, List.length_cons, List.length_nil, bytesOf_length, h2, h3] at ho ⊢
        omega) (by rw [pool_cons] at hl; simp at hl; omega) i x (by simpa using hx)
      rw [e]
      have e2 : (A ++ (bytesOf bo 4 s.length ++ bytesOf bo 4 off)).length + 8 * i = A.length + 8 * (i + 1) := by
        simp [bytesOf_length]; omega
      rw [e2] at this
      exact this

theorem write_image (bo : Order) (es : List Entry) (h : (write bo es).length < 256 ^ 4) : Image bo (write bo es) es := by
  have hlen : (write bo es).length = 28 + 16 * es.length + (pool (es.map Entry.rawId)).length + (pool (es.map Entry.rawStr)).length := by
    unfold write
    simp [bytesOf_length, rows_length]
    omega
  rw [hlen] at h
  refine ⟨28, 28 + 8 * es.length, ⟨⟨by decide, ?_⟩, ⟨0, ⟨by decide, ?_⟩, by omega⟩, ⟨0, ⟨by decide, ?_⟩, by omega⟩, ⟨by omega, ?_⟩,
    ⟨by decide, ?_⟩, ⟨by omega, ?_⟩, ⟨0, by decide, ?_⟩, ⟨28 + 16 * es.length, by omega, ?_⟩⟩, ?_, ?_⟩
  · exact ⟨[], _, by unfold write; simp only [List.append_assoc, List.nil_append]; rfl, rfl⟩
  · exact ⟨bytesOf bo 4 0x950412de, _, by unfold write; simp only [List.append_assoc]; rfl, by simp [bytesOf_length]⟩
  · exact ⟨bytesOf bo 4 0x950412de ++ bytesOf bo 2 0, _, by unfold write; simp only [List.append_assoc]; rfl, by simp [bytesOf_length]⟩
  · exact ⟨bytesOf bo 4 0x950412de ++ bytesOf bo 2 0 ++ bytesOf bo 2 0, _, by unfold write; simp only [List.append_assoc]; rfl, by simp [bytesOf_length]⟩
  · exact ⟨bytesOf bo 4 0x950412de ++ bytesOf bo 2 0 ++ bytesOf bo 2 0 ++ bytesOf bo 4 es.length, _, by unfold write; simp only [List.append_assoc]; rfl, by simp [bytesOf_length]⟩
  · exact ⟨bytesOf bo 4 0x950412de ++ bytesOf bo 2 0 ++ bytesOf bo 2 0 ++ bytesOf bo 4 es.length ++ bytesOf bo 4 28, _, by unfold write; simp only [List.append_assoc]; rfl, by simp [bytesOf_length]⟩
  · exact ⟨bytesOf bo 4 0x950412de ++ bytesOf bo 2 0 ++ bytesOf bo 2 0 ++ bytesOf bo 4 es.length ++ bytesOf bo 4 28 ++ bytesOf bo 4 (28 + 8 * es.length), _, by unfold write; simp only [List.append_assoc]; rfl, by simp [bytesOf_length]⟩
  · exact ⟨bytesOf bo 4 0x950412de ++ bytesOf bo 2 0 ++ bytesOf bo 2 0 ++ bytesOf bo 4 es.length ++ bytesOf bo 4 28 ++ bytesOf bo 4 (28 + 8 * es.length) ++ bytesOf bo 4 0, _, by unfold write; simp only [List.append_assoc]; rfl, by simp [bytesOf_length]⟩
  · have := tableAt_write bo (es.map Entry.rawId)
      (bytesOf bo 4 0x950412de ++ bytesOf bo 2 0 ++ bytesOf bo 2 0 ++ bytesOf bo 4 es.length ++ bytesOf bo 4 28 ++ bytesOf bo 4 (28 + 8 * es.length) ++ bytesOf bo 4 0 ++ bytesOf bo 4 (28 + 16 * es.length))
      (rows bo (28 + 16 * es.length + (pool (es.map Entry.rawId)).length) (es.map Entry.rawStr)) (pool (es.map Entry.rawStr))
      (28 + 16 * es.length) (by simp [bytesOf_length, rows_length]; omega) (by omega)
    simp only [List.length_append, bytesOf_length] at this
    exact this
  · have := tableAt_write bo (es.map Entry.rawStr)
      (bytesOf bo 4 0x950412de ++ bytesOf bo 2 0 ++ bytesOf bo 2 0 ++ bytesOf bo 4 es.length ++ bytesOf bo 4 28 ++ bytesOf bo 4 (28 + 8 * es.length) ++ bytesOf bo 4 0 ++ bytesOf bo 4 (28 + 16 * es.length) ++ rows bo (28 + 16 * es.length) (es.map Entry.rawId))
      (pool (es.map Entry.rawId)) []
      (28 + 16 * es.length + (pool (es.map Entry.rawId)).length) (by simp [bytesOf_length, rows_length]; omega) (by omega)
    simp only [List.length_append, bytesOf_length, rows_length, List.length_map, List.append_nil] at this
    unfold write
    simp only
    have e : 4 + 2 + 2 + 4 + 4 + 4 + 4 + 4 + 8 * es.length = 28 + 8 * es.length := by omega
    rw [e] at this
    exact this

end Verif.Proofs.Mo
