import Verif.Model.Po.Memory
import Verif.Model.Po.Encoder
/-!
# Saving a PO file in memory

`Encoder.encode` of /repo/catalog/po/encoder.go sorts the messages of a file with `DefaultSortFunction`, which sorts the comments of
the messages where they are.  `Verif.Model.Po.Encoder` has messages as values; here they are objects of the heap of
`Verif.Model.Po.Memory`, and what saving does to them can be seen by everyone who has a pointer to one.
-/
namespace Verif.Model.Po.Memory
open Verif.Go

/-- /repo/catalog/po/encoder.go:275-317 `DefaultSortFunction`: the result, and the memory afterwards. -/
def compareIn (h : Heap) (a b : Nat) : Int × Heap :=
  match (h.msg a).comment, (h.msg b).comment with
  | some c, some d =>
    let h := sort (sort h c) d
    ((compareReferences (h.comment c).references (h.comment d).references).getD (compareKeys (h.message a) (h.message b)), h)
  | _, _ => (compareKeys (h.message a) (h.message b), h)

/-- An algorithm that sorts by comparisons, such as the one of `slices.SortFunc`: it asks for the comparison of two elements and goes on
according to the result. -/
inductive Algo
  | done (l : List Nat)
  | compare (a b : Nat) (next : Int → Algo)

/-- The algorithm runs, and every comparison may change the memory. -/
def Algo.run : Algo → Heap → List Nat × Heap
  | .done l, h => (l, h)
  | .compare a b next, h => (next (compareIn h a b).1).run (compareIn h a b).2

/-- /repo/catalog/po/encoder.go:96-101: the pointers to the messages of a file, in the order of the maps. -/
def pointers (h : Heap) (f : Nat) : List Nat :=
  match h.files[f]?.getD none with
  | none => []
  | some o => (h.outer o).flatMap fun p => (h.inner p.2).map (·.2)

/-- /repo/catalog/po/encoder.go:86-114 `encode`, for an encoder with `DefaultSortFunction`: the text, or a panic, and the memory
afterwards.  `x` is what is done with the pointers of the file: the loops over the maps, in an order that Go chooses, and
`slices.SortFunc`. -/
def saveIn (enc : Encoder) (x : Algo) (header : Option Header) (h : Heap) : Run Bytes × Heap :=
  let head := match header with
    | some hd => if enc.writeHeader then enc.encodeHeader hd ++ b!"\n" else []
    | none => []
  let r := x.run h
  match enc.encodeMessages (r.1.map r.2.message) with
  | .error e => (.error e, r.2)
  | .ok body => (.ok (head ++ body), r.2)

/-- The errors of `Encode`. -/
inductive EncodeError
  | nilFile
  | write
  deriving DecidableEq, Repr

/-- /repo/catalog/po/encoder.go:73-85 `Encode`: the texts that are handed to the writer, one for each call of `Write`, and the error or
panic.  `accepts` says which texts the writer takes without an error; `none` is a nil file. -/
def encodeTo (accepts : Bytes → Bool) (text : Option (Run Bytes)) : List Bytes × Run (Option EncodeError) :=
  match text with
  | none => ([], .ok (some .nilFile))
  | some (.error e) => ([], .error e)
  | some (.ok b) => ([b], .ok (if accepts b then none else some .write))

end Verif.Model.Po.Memory
