import Verif.Model.Humanize.Basic
/-!
# The default print function, on texts with plain directives

/repo/utils.go:55-66 hands texts with arguments to `Sprintf` of a `message.Printer` (golang.org/x/text, not in /repo).  It is
modelled for directives without flags, width and precision: `%v` takes the next argument, `%[n]v` the argument `n`, `%%` is a
percent sign, and a verb that the type of the argument does not know gives `%!v(type=value)`.  How a value is written depends on
the language and is a parameter.
-/
namespace Verif.Model.Humanize
open Verif.Go

/-- A part of a text: a byte, or an argument with a verb; without index it is the next argument. -/
inductive Piece
  | byte (b : UInt8)
  | arg (index : Option Nat) (verb : UInt8)
  deriving DecidableEq

/-- Where the reader of a text is: outside of a directive, after `%`, after `%[`, after `%[n`, after `%[n]`. -/
inductive Place
  | text
  | percent
  | bracket
  | index (n : Nat)
  | closed (n : Nat)
  deriving DecidableEq

/-- The verbs that are modelled: letters and the parenthesis, which is no verb of any type. -/
def verbB (b : UInt8) : Bool :=
  (decide (97 ≤ b) && decide (b ≤ 122)) || (decide (65 ≤ b) && decide (b ≤ 90)) || b == 40

/-- The parts of a text (`Sprintf`, called at /repo/utils.go:60); `none` for directives that are not modelled. -/
def scan : Place → Bytes → Option (List Piece)
  | .text, [] => some []
  | _, [] => none
  | .text, b :: r => if b == 37 then scan .percent r else (scan .text r).map (.byte b :: ·)
  | .percent, b :: r =>
    if b == 37 then (scan .text r).map (.byte 37 :: ·)
    else if b == 91 then scan .bracket r
    else if verbB b then (scan .text r).map (.arg none b :: ·)
    else none
  | .bracket, b :: r => if decide (49 ≤ b) && decide (b ≤ 57) then scan (.index (b.toNat - 48)) r else none
  | .index n, b :: r => if b == 93 then scan (.closed n) r else none
  | .closed n, b :: r => if verbB b then (scan .text r).map (.arg (some n) b :: ·) else none

/-- How a language writes values: a value with a verb that its type knows, and the name of its type. -/
structure Writer where
  show' : UInt8 → Arg → Bytes
  typeName : Arg → Bytes

/-- The verbs that the types know. -/
def takes : Arg → UInt8 → Bool
  | .int _, v => [118, 100, 98, 111, 79, 113, 120, 88, 85, 99].contains v
  | .str _, v => [118, 115, 113, 120, 88].contains v
  | .float _, v => [118, 98, 103, 71, 120, 88, 102, 70, 101, 69].contains v
  | .decimal _ _, v => v == 118

/-- A value with a verb. -/
def Writer.value (w : Writer) (verb : UInt8) (a : Arg) : Bytes :=
  if takes a verb then w.show' verb a
  else b!"%!" ++ [verb] ++ b!"(" ++ w.typeName a ++ b!"=" ++ w.show' 118 a ++ b!")"

/-- The parts with the arguments, from the argument `next` on. -/
def Writer.pieces (w : Writer) (args : List Arg) : Nat → List Piece → Bytes
  | _, [] => []
  | next, .byte b :: r => b :: w.pieces args next r
  | next, .arg none v :: r =>
    match args[next]? with
    | some a => w.value v a ++ w.pieces args (next + 1) r
    | none => b!"%!" ++ [v] ++ b!"(MISSING)" ++ w.pieces args next r
  | next, .arg (some n) v :: r =>
    match args[n - 1]? with
    | some a => w.value v a ++ w.pieces args n r
    | none => b!"%!" ++ [v] ++ b!"(BADINDEX)" ++ w.pieces args next r

/-- Arguments remain that no directive takes, some were taken, and no directive has an index: `%!(EXTRA …)` is appended,
which is not modelled. -/
def surplus (args : List Arg) (ps : List Piece) : Bool :=
  let plain := ps.filter fun | .arg none _ => true | _ => false
  let indexed := ps.any fun | .arg (some _) _ => true | _ => false
  !indexed && decide (0 < plain.length) && decide (plain.length < args.length)

/-- /repo/utils.go:57-65, the print function; `none` for what is not modelled. -/
def Writer.print (w : Writer) (text : Bytes) (args : List Arg) : Option Bytes :=
  match args with
  | [] => some text
  | _ =>
    match scan .text text with
    | none => none
    | some ps => if surplus args ps then none else some (w.pieces args 0 ps)

end Verif.Model.Humanize
