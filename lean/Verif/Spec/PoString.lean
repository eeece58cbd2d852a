import Verif.Go.Utf8
/-!
# Specification of PO strings

Independent of the encoder/decoder model: which characters can be written, what a quoted line
is, when a line ends in a dangling backslash, what valid UTF-8 is.
-/
namespace Verif.Spec.PoString
open Verif.Go

/-- Characters that PO escapes can represent: everything except the control characters below
U+0020 that have no named escape (`\a \b \t \n \v \f \r` are U+0007 .. U+000D). -/
def Encodable (c : Char) : Prop := 0x20 ≤ c.toNat ∨ (0x07 ≤ c.toNat ∧ c.toNat ≤ 0x0D)

instance (c : Char) : Decidable (Encodable c) := by unfold Encodable; infer_instance

/-- The same on bytes: a control byte without named escape. -/
def BadByte (b : UInt8) : Prop := b.toNat < 0x20 ∧ ¬ (0x07 ≤ b.toNat ∧ b.toNat ≤ 0x0D)

instance (b : UInt8) : Decidable (BadByte b) := by unfold BadByte; infer_instance

/-- Valid UTF-8: the encoding of some sequence of Unicode scalar values. -/
def ValidUtf8 (s : Bytes) : Prop := ∃ cs : List Char, s = utf8 cs

/-- The letters allowed after a backslash: `\` `"` `a b t n v f r`. -/
def escapeLetters : Bytes := b!"\\\"abtnvfr"

/-- The text between the quotes of a PO line: printable bytes other than quote and backslash,
and two byte escapes. In particular no raw newline and no unescaped quote. -/
inductive EscapedBody : Bytes → Prop
  | nil : EscapedBody []
  | plain (b : UInt8) (rest : Bytes) : 0x20 ≤ b.toNat → b ≠ 0x22 → b ≠ 0x5c →
      EscapedBody rest → EscapedBody (b :: rest)
  | esc (e : UInt8) (rest : Bytes) : e ∈ escapeLetters →
      EscapedBody rest → EscapedBody (0x5c :: e :: rest)

/-- A quoted line. -/
def QuotedLine (l : Bytes) : Prop := ∃ body, l = [0x22] ++ body ++ [0x22] ∧ EscapedBody body

/-- A block of quoted lines as it follows a PO keyword: one line, or the line `""` followed by at
least one more line, separated by newlines. -/
def QuotedBlock (t : Bytes) : Prop :=
  QuotedLine t ∨ ∃ l ls, (∀ x ∈ l :: ls, QuotedLine x) ∧
    t = b!"\"\"" ++ (l :: ls).flatMap (fun x => 0x0a :: x)

/-- Number of backslashes at the end. -/
def trailingBackslashes (s : Bytes) : Nat := (s.reverse.takeWhile (· == 0x5c)).length

/-- `line` has at least two quotes and the text between the first and the last one ends with a
backslash that is not escaped itself (an odd number of backslashes). -/
def Dangling (line : Bytes) : Prop :=
  ∃ pre body post, line = pre ++ [0x22] ++ body ++ [0x22] ++ post ∧
    0x22 ∉ pre ∧ 0x22 ∉ post ∧ trailingBackslashes body % 2 = 1

/-- `line` is one of the newline separated lines of `text`. -/
def IsLineOf (line text : Bytes) : Prop :=
  0x0a ∉ line ∧ ∃ pre post, text = pre ++ line ++ post ∧
    (pre = [] ∨ pre.getLast? = some 0x0a) ∧ (post = [] ∨ post.head? = some 0x0a)

end Verif.Spec.PoString
