import Verif.Go.Text
import Verif.Model.Po.File
/-!
# Specification of PO entries

The concrete syntax of an entry of a PO file and the message it stands for, independent of the scanner and
the parser.  `Message`, `Comment` and `GoMap` are the data types of the catalog; `trimSpace`, `fieldsFunc`
are the functions of the Go library.
-/
namespace Verif.Spec.PoEntry
open Verif.Go Verif.Model.Po

/-- The escape letters and the characters they stand for. -/
def escapes : List (Char × Char) :=
  [('a', Char.ofNat 7), ('b', Char.ofNat 8), ('t', '\t'), ('n', '\n'), ('v', Char.ofNat 11), ('f', Char.ofNat 12),
   ('r', '\r'), ('"', '"'), ('\\', '\\'), ('\'', '\''), ('/', '/')]

/-- What the text between two quotes stands for. -/
inductive Means : List Char → List Char → Prop
  | nil : Means [] []
  | plain {c : Char} {cs ds : List Char} : c ≠ '"' → c ≠ '\\' → c ≠ '\n' → Means cs ds → Means (c :: cs) (c :: ds)
  | escape {e c : Char} {cs ds : List Char} : (e, c) ∈ escapes → Means cs ds → Means ('\\' :: e :: cs) (c :: ds)

/-- Spaces, tabs and carriage returns (which come from `\r\n`). -/
def Blank (s : Bytes) : Prop := ∀ b ∈ s, b = 0x20 ∨ b = 0x09 ∨ b = 0x0d

instance (s : Bytes) : Decidable (Blank s) := by unfold Blank; infer_instance

/-- A quoted text with the blanks around it and the value it stands for. -/
structure Quoted where
  indent : Bytes
  body : List Char
  trail : Bytes
  value : List Char

/-- The text with its quotes. -/
def Quoted.text (q : Quoted) : Bytes := 0x22 :: (utf8 q.body ++ [0x22])

/-- A line with nothing but a quoted text. -/
def Quoted.line (q : Quoted) : Bytes := q.indent ++ q.text ++ q.trail

def Quoted.WF (q : Quoted) : Prop := Blank q.indent ∧ Blank q.trail ∧ Means q.body q.value

/-- A keyword with its text: on the line of the keyword and on any number of continuation lines. -/
structure Field where
  gap : Bytes
  first : Quoted
  rest : List Quoted

def Field.WF (f : Field) : Prop := Blank f.gap ∧ f.first.WF ∧ ∀ q ∈ f.rest, q.WF

/-- The lines of a field. -/
def Field.lines (kw : Bytes) (f : Field) : List Bytes :=
  (f.first.indent ++ (kw ++ (0x20 :: (f.gap ++ f.first.text))) ++ f.first.trail) :: f.rest.map Quoted.line

/-- The text of a field. -/
def Field.value (f : Field) : Bytes := utf8 (f.first.value ++ f.rest.flatMap Quoted.value)


/-- The comment lines in front of an entry.  `indent` are the blanks before the `#`. -/
inductive CommentLine
  /-- `# text` -/
  | translator (indent text : Bytes)
  /-- `#. text` -/
  | extracted (indent text : Bytes)
  /-- `#: path:line path:line` -/
  | reference (indent text : Bytes)
  /-- `#, flag, flag` -/
  | flags (indent text : Bytes)

/-- No line break. -/
def OneLine (s : Bytes) : Prop := 0x0a ∉ s

instance (s : Bytes) : Decidable (OneLine s) := by unfold OneLine; infer_instance

def CommentLine.WF : CommentLine → Prop
  | .translator i t => Blank i ∧ OneLine t ∧ ∀ b ∈ t.head?, b ∉ b!".:,|"
  | .extracted i t | .reference i t | .flags i t => Blank i ∧ OneLine t

def CommentLine.line : CommentLine → Bytes
  | .translator i t => i ++ b!"#" ++ t
  | .extracted i t => i ++ b!"#." ++ t
  | .reference i t => i ++ b!"#:" ++ t
  | .flags i t => i ++ b!"#," ++ t

/-- The line has something to say; `ignore`: only flags are of interest. -/
def CommentLine.Visible (ignore : Bool) : CommentLine → Prop
  | .translator _ _ => ignore = false
  | .extracted _ t | .reference _ t => ignore = false ∧ trimSpace t ≠ []
  | .flags _ t => trimSpace t ≠ []

instance (ignore : Bool) (c : CommentLine) : Decidable (c.Visible ignore) := by
  cases c <;> unfold CommentLine.Visible <;> infer_instance

/-- The comment lines after the first visible one. -/
def afterFirst (ignore : Bool) (cs : List CommentLine) : List CommentLine :=
  (cs.dropWhile fun c => ¬ c.Visible ignore).tail

/-- Texts of the translator's comment. -/
def translatorTexts (cs : List CommentLine) : List Bytes :=
  cs.filterMap fun | .translator _ t => some (trimSpace t) | _ => none

/-- Texts of the comment taken from the source code; empty ones do not count. -/
def extractedTexts (cs : List CommentLine) : List Bytes :=
  (cs.filterMap fun | .extracted _ t => some (trimSpace t) | _ => none).filter (· ≠ [])

/-- Texts of the reference lines; empty ones do not count. -/
def referenceTexts (cs : List CommentLine) : List Bytes :=
  (cs.filterMap fun | .reference _ t => some (trimSpace t) | _ => none).filter (· ≠ [])

/-- The flags: separated by white space and commas. -/
def flagsOf (cs : List CommentLine) : List Bytes :=
  cs.flatMap fun | .flags _ t => fieldsFunc (fun c => isSpace c || c = ',') (trimSpace t) | _ => []

/-- A reference as written in a file: `path:line`, or a path alone (line -1). -/
def referenceOf (s : Bytes) : Reference :=
  match splitByte 0x3a s with
  | p :: l :: ls =>
    if p = [] then ⟨s, -1, 0⟩ else ⟨p, (atoi (join [0x3a] (l :: ls))).getD (-1), 0⟩
  | _ => ⟨s, -1, 0⟩

/-- The comment that comment lines stand for; `ignore`: only flags are of interest. -/
def commentOf (ignore : Bool) (cs : List CommentLine) : Comment :=
  if ignore then { Comment.new with flags := flagsOf cs }
  else
    { translator := join [0x0a] ((translatorTexts cs).dropWhile (· = []))
      extracted := join [0x0a] (extractedTexts cs)
      references := (referenceTexts cs).flatMap fun t => (splitByte 0x20 t).map fun r => referenceOf (trimSpace r)
      flags := flagsOf cs
      prevMsgContext := []
      prevMsgID := [] }

/-- The translation part of an entry. -/
inductive Str
  /-- `msgstr "..."` -/
  | single (f : Field)
  /-- `msgstr[i] "..."`; the index is written with the given digits. -/
  | plural (fs : List (Bytes × Field))

/-- An entry of a PO file. -/
structure Entry where
  comments : List CommentLine
  context : Option Field
  id : Field
  idPlural : Option Field
  str : Str

/-- An index: at least one digit and small enough for an `int`. -/
def IndexOk (ds : Bytes) : Prop := ds ≠ [] ∧ (∀ d ∈ ds, isDigit d = true) ∧ digitsValue ds < 9223372036854775808

instance (s : Bytes) : Decidable (IndexOk s) := by unfold IndexOk; infer_instance

/-- The index of every text with continuation lines is the position of the text. -/
def InOrder : Nat → List (Bytes × Field) → Prop
  | _, [] => True
  | n, (ds, f) :: fs => (f.rest ≠ [] → digitsValue ds = n) ∧ InOrder (n + 1) fs

def Str.WF : Str → Prop
  | .single f => f.WF
  | .plural fs => (∀ p ∈ fs, IndexOk p.1 ∧ p.2.WF) ∧ (fs.map fun p => digitsValue p.1).Nodup ∧ InOrder 0 fs

def Str.lines : Str → List Bytes
  | .single f => f.lines b!"msgstr"
  | .plural fs => fs.flatMap fun p => p.2.lines (b!"msgstr[" ++ p.1 ++ b!"]")

/-- The translations by their index. -/
def Str.value : Str → GoMap Int Bytes
  | .single f => [(0, f.value)]
  | .plural fs => fs.map fun p => ((digitsValue p.1 : Int), p.2.value)

def Entry.WF (e : Entry) : Prop :=
  (∀ c ∈ e.comments, c.WF) ∧ (∀ f ∈ e.context, f.WF) ∧ e.id.WF ∧ (∀ f ∈ e.idPlural, f.WF) ∧ e.str.WF

/-- The lines of a field that may be missing. -/
def optLines (kw : Bytes) : Option Field → List Bytes
  | some f => f.lines kw
  | none => []

/-- The lines without the comments. -/
def Entry.coreLines (e : Entry) : List Bytes :=
  optLines b!"msgctxt" e.context ++ e.id.lines b!"msgid" ++ optLines b!"msgid_plural" e.idPlural ++ e.str.lines

/-- The lines of an entry. -/
def Entry.lines (e : Entry) : List Bytes := e.comments.map CommentLine.line ++ e.coreLines

/-- The message an entry stands for. -/
def Entry.message (ignore : Bool) (e : Entry) : Message :=
  { comment := some (commentOf ignore e.comments)
    context := (e.context.map Field.value).getD []
    id := e.id.value
    idPlural := (e.idPlural.map Field.value).getD []
    str := e.str.value }

/-- The text of some lines. -/
def textOf (ls : List Bytes) : Bytes := ls.flatMap (· ++ [0x0a])

/-- A line of white space. -/
def BlankLine (l : Bytes) : Prop := trimSpace l = []

instance (l : Bytes) : Decidable (BlankLine l) := by unfold BlankLine; infer_instance

/-- An entry with the blank lines in front of it. -/
abbrev Block := List Bytes × Entry

def Block.WF (b : Block) : Prop := (∀ l ∈ b.1, BlankLine l) ∧ b.2.WF

/-- Blocks, one after the other. -/
def blockLines (bs : List Block) : List Bytes := bs.flatMap fun b => b.1 ++ b.2.lines

/-- Every block but the first starts with a blank line. -/
def BlankApart (bs : List Block) : Prop := ∀ b ∈ bs.tail, b.1 ≠ []

/-- Every block but the first starts with a blank line or a comment line. -/
def Apart (ignore : Bool) (bs : List Block) : Prop :=
  ∀ b ∈ bs.tail, b.1 ≠ [] ∨ ∃ c ∈ b.2.comments, c.Visible ignore

/-- The content consists of the given lines; the last one may lack the newline. -/
def HasLines (content : Bytes) (ls : List Bytes) : Prop :=
  (∀ l ∈ ls, OneLine l) ∧
  (content = textOf ls ∨ (∃ l ∈ ls.getLast?, l ≠ []) ∧ content ++ [0x0a] = textOf ls)

/-- Every line is short enough for the line buffer. -/
def Short (ls : List Bytes) : Prop := ∀ l ∈ ls, l.length < maxScanTokenSize

instance (ls : List Bytes) : Decidable (Short ls) := by unfold Short; infer_instance

/-- A line a PO file may contain: blank, a comment, or a keyword or nothing followed by quoted text. -/
def Recognised (l : Bytes) : Prop :=
  trimSpace l = [] ∨ (trimSpace l).head? = some 0x23 ∨
  ((trimSpace l).getLast? = some 0x22 ∧
    ∃ kw ∈ [b!"msgid ", b!"msgid_plural ", b!"msgctxt ", b!"msgstr", b!"\""], kw <+: trimSpace l)

instance (l : Bytes) : Decidable (Recognised l) := by unfold Recognised; infer_instance

end Verif.Spec.PoEntry
