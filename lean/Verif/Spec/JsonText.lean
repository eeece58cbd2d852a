import Verif.Model.Catalog.Json
/-!
# What a JSON text means

The grammar of RFC 8259 for null, strings and objects, written from the RFC: `Denotes t j` says that the bytes `t`
are a JSON text for the value `j`.  `Layout` is the same with the white space fixed: two spaces per level, one member
per line.
-/
namespace Verif.Spec.JsonText
open Verif.Go Verif.Model.Catalog

/-- The digits of `\uXXXX`. -/
def lowerDigits : Bytes := b!"0123456789abcdef"
def upperDigits : Bytes := b!"0123456789ABCDEF"

/-- `c` is a hexadecimal digit with the value `v`. -/
def Hex (c : UInt8) (v : Nat) : Prop := lowerDigits[v]? = some c ∨ upperDigits[v]? = some c

/-- Four hexadecimal digits with the value `n`. -/
def Hex4 (ds : Bytes) (n : Nat) : Prop := ∃ a b c d va vb vc vd, ds = [a, b, c, d] ∧
  Hex a va ∧ Hex b vb ∧ Hex c vc ∧ Hex d vd ∧ n = ((va * 16 + vb) * 16 + vc) * 16 + vd

/-- The letters that may follow a backslash, and what they stand for. -/
def shortEscapes : List (UInt8 × UInt8) :=
  [(0x22, 0x22), (0x5C, 0x5C), (0x2F, 0x2F), (0x62, 0x08), (0x66, 0x0C), (0x6E, 0x0A), (0x72, 0x0D), (0x74, 0x09)]

/-- One character of a string (RFC 8259, section 7): how it is written, what it stands for. -/
inductive Piece : Bytes → Bytes → Prop
  | plain (c : Char) : 0x20 ≤ c.toNat → c ≠ '"' → c ≠ '\\' → Piece (encodeRune c) (encodeRune c)
  | short (e x : UInt8) : (e, x) ∈ shortEscapes → Piece [0x5C, e] [x]
  | code (ds : Bytes) (c : Char) : Hex4 ds c.toNat → Piece (b!"\\u" ++ ds) (encodeRune c)
  | pair (hs ls : Bytes) (hi lo : Nat) (c : Char) : Hex4 hs hi → Hex4 ls lo → 0xD800 ≤ hi → hi < 0xDC00 → 0xDC00 ≤ lo →
      lo < 0xE000 → c.toNat = 0x10000 + (hi - 0xD800) * 0x400 + (lo - 0xDC00) →
      Piece (b!"\\u" ++ hs ++ b!"\\u" ++ ls) (encodeRune c)

/-- The inside of a string. -/
inductive Body : Bytes → Bytes → Prop
  | nil : Body [] []
  | cons {a m b s} : Piece a m → Body b s → Body (a ++ b) (m ++ s)

/-- A string with its quotes. -/
def Str (t s : Bytes) : Prop := ∃ b, t = 0x22 :: b ++ [0x22] ∧ Body b s

/-- White space. -/
def Ws (w : Bytes) : Prop := ∀ c ∈ w, c ∈ b!" \t\r\n"

mutual

/-- The text of a value. -/
inductive Denotes : Bytes → Json → Prop
  | null : Denotes b!"null" .null
  | str {t s} : Str t s → Denotes t (.str s)
  | empty {w} : Ws w → Denotes (0x7B :: w ++ [0x7D]) (.obj [])
  | obj {t fs} : Members t fs → Denotes (0x7B :: t ++ [0x7D]) (.obj fs)

/-- The text between the braces of an object that is not empty. -/
inductive Members : Bytes → List (Bytes × Json) → Prop
  | one {w₁ w₂ w₃ w₄ kt vt k v} : Ws w₁ → Ws w₂ → Ws w₃ → Ws w₄ → Str kt k → Denotes vt v →
      Members (w₁ ++ kt ++ w₂ ++ b!":" ++ w₃ ++ vt ++ w₄) [(k, v)]
  | cons {w₁ w₂ w₃ w₄ kt vt k v t fs} : Ws w₁ → Ws w₂ → Ws w₃ → Ws w₄ → Str kt k → Denotes vt v → Members t fs →
      Members (w₁ ++ kt ++ w₂ ++ b!":" ++ w₃ ++ vt ++ w₄ ++ b!"," ++ t) ((k, v) :: fs)

end

/-- A text with white space around it. -/
def Document (t : Bytes) (j : Json) : Prop := ∃ w₁ t' w₂, t = w₁ ++ t' ++ w₂ ∧ Ws w₁ ∧ Ws w₂ ∧ Denotes t' j

/-! ## What encoding/json accepts

The whole grammar of RFC 8259.  Two things about which the RFC says nothing are accepted and stand for U+FFFD: one half of
a surrogate pair, and a byte that belongs to no character. -/

/-- The inside of a string. -/
inductive LooseBody : Bytes → Bytes → Prop
  | nil : LooseBody [] []
  | piece {a m b s} : Piece a m → LooseBody b s → LooseBody (a ++ b) (m ++ s)
  | half {ds : Bytes} {n : Nat} {b s} : Hex4 ds n → 0xD800 ≤ n → n < 0xE000 →
      (n < 0xDC00 → ∀ ls lo r, Hex4 ls lo → 0xDC00 ≤ lo → lo < 0xE000 → b ≠ b!"\\u" ++ ls ++ r) → LooseBody b s →
      LooseBody (b!"\\u" ++ ds ++ b) (encodeRune runeError ++ s)
  | byte {x : UInt8} {b s} : 0x80 ≤ x.toNat → (∀ (c : Char) (r : Bytes), x :: b ≠ encodeRune c ++ r) → LooseBody b s →
      LooseBody (x :: b) (encodeRune runeError ++ s)

/-- A string with its quotes. -/
def LooseStr (t s : Bytes) : Prop := ∃ b, t = 0x22 :: b ++ [0x22] ∧ LooseBody b s

/-- One or more digits. -/
def Digits (ds : Bytes) : Prop := ds ≠ [] ∧ ∀ d ∈ ds, d ∈ b!"0123456789"

/-- A number (RFC 8259, section 6). -/
def Number (t : Bytes) : Prop := ∃ sign whole frac exp, t = sign ++ whole ++ frac ++ exp ∧ (sign = [] ∨ sign = b!"-") ∧
  (whole = b!"0" ∨ Digits whole ∧ whole.head? ≠ some 0x30) ∧ (frac = [] ∨ ∃ ds, frac = b!"." ++ ds ∧ Digits ds) ∧
  (exp = [] ∨ ∃ e sg ds, exp = e ++ sg ++ ds ∧ (e = b!"e" ∨ e = b!"E") ∧ (sg = [] ∨ sg = b!"+" ∨ sg = b!"-") ∧ Digits ds)

mutual

/-- A value; numbers, arrays and truth values are not told apart. -/
inductive Accepted : Bytes → Json → Prop
  | null : Accepted b!"null" .null
  | true : Accepted b!"true" .other
  | false : Accepted b!"false" .other
  | number {t} : Number t → Accepted t .other
  | str {t s} : LooseStr t s → Accepted t (.str s)
  | empty {w} : Ws w → Accepted (0x7B :: w ++ [0x7D]) (.obj [])
  | obj {t fs} : AcceptedMembers t fs → Accepted (0x7B :: t ++ [0x7D]) (.obj fs)
  | none {w} : Ws w → Accepted (0x5B :: w ++ [0x5D]) .other
  | array {t} : AcceptedItems t → Accepted (0x5B :: t ++ [0x5D]) .other

inductive AcceptedMembers : Bytes → List (Bytes × Json) → Prop
  | one {w₁ w₂ w₃ w₄ kt vt k v} : Ws w₁ → Ws w₂ → Ws w₃ → Ws w₄ → LooseStr kt k → Accepted vt v →
      AcceptedMembers (w₁ ++ kt ++ w₂ ++ b!":" ++ w₃ ++ vt ++ w₄) [(k, v)]
  | cons {w₁ w₂ w₃ w₄ kt vt k v t fs} : Ws w₁ → Ws w₂ → Ws w₃ → Ws w₄ → LooseStr kt k → Accepted vt v → AcceptedMembers t fs →
      AcceptedMembers (w₁ ++ kt ++ w₂ ++ b!":" ++ w₃ ++ vt ++ w₄ ++ b!"," ++ t) ((k, v) :: fs)

inductive AcceptedItems : Bytes → Prop
  | one {w₁ w₂ vt v} : Ws w₁ → Ws w₂ → Accepted vt v → AcceptedItems (w₁ ++ vt ++ w₂)
  | cons {w₁ w₂ vt v t} : Ws w₁ → Ws w₂ → Accepted vt v → AcceptedItems t → AcceptedItems (w₁ ++ vt ++ w₂ ++ b!"," ++ t)

end

/-- A whole text. -/
def Acceptable (t : Bytes) (j : Json) : Prop := ∃ w₁ t' w₂, t = w₁ ++ t' ++ w₂ ∧ Ws w₁ ∧ Ws w₂ ∧ Accepted t' j

/-! ## Layout -/

/-- A new line with two spaces per level. -/
def line (depth : Nat) : Bytes := b!"\n" ++ List.replicate (2 * depth) 0x20

mutual

/-- The text of a value at the given level, one member per line. -/
inductive Layout : Nat → Bytes → Json → Prop
  | null {d} : Layout d b!"null" .null
  | str {d t s} : Str t s → Layout d t (.str s)
  | empty {d} : Layout d b!"{}" (.obj [])
  | obj {d t fs} : Rows (d + 1) t fs → Layout d (b!"{" ++ t ++ line d ++ b!"}") (.obj fs)

/-- The members of an object, each on its own line. -/
inductive Rows : Nat → Bytes → List (Bytes × Json) → Prop
  | one {d kt vt k v} : Str kt k → Layout d vt v → Rows d (line d ++ kt ++ b!": " ++ vt) [(k, v)]
  | cons {d kt vt k v t fs} : Str kt k → Layout d vt v → Rows d t fs →
      Rows d (line d ++ kt ++ b!": " ++ vt ++ b!"," ++ t) ((k, v) :: fs)

end

/-- No byte of the text has a meaning in HTML. -/
def HtmlSafe (t : Bytes) : Prop := ∀ c ∈ b!"<>&", c ∉ t

end Verif.Spec.JsonText
