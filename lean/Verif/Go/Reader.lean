import Verif.Go.Text
/-!
# `io.Reader`, `bufio.Scanner` and `io.ReadAll`

Part of the trusted reading of the Go library (go1.23: bufio/scan.go, io/io.go); no code of /repo.
-/
namespace Verif.Go

/-- The error of the last call of `Read`: `io.EOF` or another one. -/
inductive ReadEnd
  | eof
  | failed
  deriving DecidableEq, Repr

/-- An `io.Reader`: the pieces that it delivers, one for each call of `Read` (in parts, if the buffer is smaller), and
the error after that, forever.  `eager`: the error comes with the last bytes, as `io.Reader` allows. -/
structure Reader where
  chunks : List Bytes
  last : ReadEnd
  eager : Bool
  deriving DecidableEq, Repr

/-- What the reader has still to deliver. -/
def Reader.content (r : Reader) : Bytes := r.chunks.flatten

/-- `Read` with a buffer of `k` bytes. -/
def Reader.read (r : Reader) (k : Nat) : Bytes × Option ReadEnd × Reader :=
  match r.chunks with
  | [] => ([], some r.last, r)
  | c :: cs =>
    if c.drop k = [] then
      (c, if r.eager ∧ cs = [] then some r.last else none, { r with chunks := cs })
    else (c.take k, none, { r with chunks := c.drop k :: cs })

/-- The field `err` of a `bufio.Scanner`. -/
inductive ScanErr
  | read (e : ReadEnd)
  | noProgress
  | tooLong
  deriving DecidableEq, Repr

/-- A `bufio.Scanner` with `ScanLines`: `data` is `buf[start:end]` and `cap` is `len(buf)`. -/
structure LineScanner where
  reader : Reader
  data : Bytes
  start : Nat
  cap : Nat
  err : Option ScanErr
  deriving DecidableEq, Repr

/-- `bufio.NewScanner`. -/
def LineScanner.new (r : Reader) : LineScanner := ⟨r, [], 0, 0, none⟩

/-- bufio/scan.go `Scan`: the loop that reads until there are bytes or an error; `n` empty reads are still allowed. -/
def readSome : Nat → Nat → Reader → Bytes × Option ScanErr × Reader
  | 0, _, r => ([], some .noProgress, r)
  | n + 1, k, r =>
    match r.read k with
    | (d, some e, r') => (d, some (.read e), r')
    | (d, none, r') => if d ≠ [] then (d, none, r') else readSome n k r'

/-- bufio/scan.go `ScanLines`: the line, if there is one, and what is left. -/
def splitLine (data : Bytes) (atEOF : Bool) : Option (Bytes × Nat) :=
  match indexByte? 0x0a data with
  | some i => some (dropCR (data.take i), i + 1)
  | none => if atEOF && data ≠ [] then some (dropCR data, data.length) else none

/-- bufio/scan.go `Scan`: making room and reading; `none`: the line is too long. -/
def LineScanner.fill (s : LineScanner) : Option LineScanner :=
  let start := if s.start > 0 ∧ (s.start + s.data.length = s.cap ∨ s.start > s.cap / 2) then 0 else s.start
  if start + s.data.length = s.cap then
    if s.cap ≥ maxScanTokenSize then none
    else
      let cap := min (if s.cap * 2 = 0 then 4096 else s.cap * 2) maxScanTokenSize
      let (d, e, r) := readSome 101 (cap - s.data.length) s.reader
      some ⟨r, s.data ++ d, 0, cap, e⟩
  else
    let (d, e, r) := readSome 101 (s.cap - (start + s.data.length)) s.reader
    some ⟨r, s.data ++ d, start, s.cap, e⟩

/-- bufio/scan.go `Scan`: the line, or `none` if it returns false.  `n` bounds the rounds of the loop. -/
def LineScanner.scan : Nat → LineScanner → Option Bytes × LineScanner
  | 0, s => (none, s)
  | n + 1, s =>
    match splitLine s.data s.err.isSome with
    | some (l, adv) => (some l, { s with data := s.data.drop adv, start := s.start + adv })
    | none =>
      if s.err.isSome then (none, { s with data := [], start := 0 })
      else match s.fill with
        | none => (none, { s with err := some .tooLong })
        | some s' => LineScanner.scan n s'

/-- `Err` of the scanner: is there an error other than `io.EOF`? -/
def LineScanner.failed (s : LineScanner) : Bool :=
  match s.err with
  | none => false
  | some (.read .eof) => false
  | some _ => true

/-- io/io.go `ReadAll`: the loop with a buffer of `cap` bytes; `grow` is how `append` enlarges a full buffer.  `n` bounds
the rounds. -/
def readAllLoop (grow : Nat → Nat) : Nat → Bytes → Nat → Reader → Option Bytes
  | 0, _, _, _ => none
  | n + 1, buf, cap, r =>
    match r.read (cap - buf.length) with
    | (_, some .failed, _) => none
    | (d, some .eof, _) => some (buf ++ d)
    | (d, none, r') =>
      readAllLoop grow n (buf ++ d) (if buf.length + d.length = cap then cap + 1 + grow cap else cap) r'

/-- io/io.go `ReadAll`: all bytes, or the error.  Every round delivers a byte or the end of a piece. -/
def Reader.readAll (grow : Nat → Nat) (r : Reader) : Option Bytes :=
  readAllLoop grow (r.chunks.length + r.content.length + 1) [] 512 r

end Verif.Go
