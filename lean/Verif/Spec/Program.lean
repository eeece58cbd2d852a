import Verif.Model.Catalog.JsonHeap
/-!
# Programs that use JSON catalogs

A program has addresses: those of the objects that it makes or gets from the package, and those that it reads from such objects.
It can write to the objects at these addresses and to no others, whatever it likes, and can call the functions of the package.
-/
namespace Verif.Spec.Program
open Verif.Go Verif.Model.Po Verif.Model.Catalog Verif.Model.Catalog.Heap

/-- The memory, the addresses that the program has, and the catalogs. -/
structure State where
  heap : Heap
  maps : List Nat
  msgs : List Nat
  files : List Nat
  cats : List Cat

/-- The program starts with nothing. -/
def State.init : State := ⟨⟨[], [], []⟩, [], [], [], []⟩

/-- What a program can do. -/
inductive Op
  | makeMap (m : GoMap Int Bytes)
  | makeMsg (m : Msg)
  | makeFile (f : GoMap Bytes (Option Nat))
  | writeMap (t : Nat) (m : GoMap Int Bytes)
  | writeMsg (a : Nat) (m : Msg)
  | writeFile (f : Nat) (m : GoMap Bytes (Option Nat))
  /-- Reads the pointer to the map of a message. -/
  | readMsg (a : Nat)
  /-- Reads the pointers in a map of messages. -/
  | readFile (f : Nat)
  | clone (a : Nat)
  | apply (names : List Int) (lang : Tag) (a : Option Nat)
  | marshalMsg (a : Nat)
  | newCatalog (lang : Tag) (domain : Bytes)
  /-- `order` is the order in which the map of messages is visited. -/
  | newWithMessages (names : List Int) (lang : Tag) (domain : Bytes) (f : Nat) (order : GoMap Bytes (Option Nat))
  | messages (i : Nat)
  | marshal (i : Nat)
  | unmarshal (i : Nat) (names : List Int) (lower : Char → Char) (order : GoMap Bytes Bytes → GoMap Bytes Bytes)
      (fileOrder : GoMap Bytes (Option JsonMessage) → GoMap Bytes (Option JsonMessage)) (data : Json)

/-- The message points only to what the program has. -/
def State.HasMsg (s : State) (m : Msg) : Prop := ∀ t, m.translations = some t → t ∈ s.maps

/-- The map of messages points only to what the program has. -/
def State.HasFile (s : State) (f : GoMap Bytes (Option Nat)) : Prop := ∀ k a, (k, some a) ∈ f → a ∈ s.msgs

/-- The program has the addresses that the operation takes. -/
def State.Can (s : State) : Op → Prop
  | .makeMap _ => True
  | .makeMsg m => s.HasMsg m
  | .makeFile f => s.HasFile f
  | .writeMap t _ => t ∈ s.maps
  | .writeMsg a m => a ∈ s.msgs ∧ s.HasMsg m
  | .writeFile f m => f ∈ s.files ∧ s.HasFile m
  | .readMsg a | .clone a | .marshalMsg a => a ∈ s.msgs
  | .readFile f => f ∈ s.files
  | .apply _ _ a => ∀ x, a = some x → x ∈ s.msgs
  | .newCatalog _ _ => True
  | .newWithMessages _ _ _ f order => f ∈ s.files ∧ order.Perm (s.heap.file f)
  | .messages i | .marshal i | .unmarshal i .. => i < s.cats.length

/-- What it does. -/
def State.exec (s : State) : Op → State
  | .makeMap m => { s with heap := (s.heap.newMap m).1, maps := (s.heap.newMap m).2 :: s.maps }
  | .makeMsg m => { s with heap := (s.heap.newMsg m).1, msgs := (s.heap.newMsg m).2 :: s.msgs }
  | .makeFile f => { s with heap := (s.heap.newFile f).1, files := (s.heap.newFile f).2 :: s.files }
  | .writeMap t m => { s with heap := s.heap.setMap t m }
  | .writeMsg a m => { s with heap := s.heap.setMsg a m }
  | .writeFile f m => { s with heap := s.heap.setFile f m }
  | .readMsg a => { s with maps := (s.heap.msg a).translations.toList ++ s.maps }
  | .readFile f => { s with msgs := (s.heap.file f).filterMap (·.2) ++ s.msgs }
  | .clone a => { s with heap := (Heap.clone s.heap (s.heap.msg a)).1, msgs := (Heap.clone s.heap (s.heap.msg a)).2 :: s.msgs }
  | .apply names lang a => { s with heap := applyPluralCategories names lang s.heap a }
  | .marshalMsg a => { s with heap := touch s.heap a }
  | .newCatalog lang domain => { s with cats := s.cats ++ [Cat.new lang domain] }
  | .newWithMessages names lang domain _ order =>
    match Heap.newWithMessages names s.heap lang domain order with
    | (h, .error _) => { s with heap := h }
    | (h, .ok c) => { s with heap := h, cats := s.cats ++ [c] }
  | .messages i =>
    match s.cats[i]? with
    | none => s
    | some c => { s with heap := (c.messages s.heap).1, files := (c.messages s.heap).2 :: s.files }
  | .marshal i =>
    match s.cats[i]? with
    | none => s
    | some c => { s with heap := (c.marshal s.heap).1 }
  | .unmarshal i names lower order fileOrder data =>
    match s.cats[i]? with
    | none => s
    | some c =>
      let r := c.unmarshal names lower order fileOrder s.heap data
      { s with heap := r.1, cats := s.cats.set i r.2.1 }

/-- A run of a program. -/
inductive Run : State → List Op → State → Prop
  | nil {s} : Run s [] s
  | cons {s op ops s'} : s.Can op → Run (s.exec op) ops s' → Run s (op :: ops) s'

/-- The operation fills the catalog with the number `i`. -/
def Op.Fills (i : Nat) : Op → Prop
  | .unmarshal j .. => j = i
  | _ => False

/-- What a catalog in memory stands for. -/
def view (h : Heap) (c : Cat) : JsonCatalog :=
  ⟨c.language, c.domain, c.categories, c.plural, c.lookupMap.map fun p => (p.1, p.2.map fun q => (q.1, h.value q.2))⟩

end Verif.Spec.Program
