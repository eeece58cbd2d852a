import Verif.Model.Catalog.Json
/-!
# JSON catalogs in memory

Models /repo/catalog/json.go once more, now with pointers: a `JSONMessage` and its map of translations are objects of a
heap, which a program may share and change.  An address is an index; `make` and `&JSONMessage{}` give the next one.  The maps
`lookupMap` of a catalog never leave it and are values here.  `language`, `domain` and `pluralSet` (made anew by
`ForLanguage`, /repo/catalog/cldrplural/builtin_gen.go:9) are values as well.
-/
namespace Verif.Model.Catalog.Heap
open Verif.Go Verif.Model.Po Verif.Cldr

/-- /repo/catalog/json.go:289-297 `JSONMessage` in memory; `none` is the nil map. -/
structure Msg where
  comment : Bytes
  context : Bytes
  translations : Option Nat
  deriving DecidableEq, Repr

/-- The memory: maps of translations, messages, and maps `JSONMessages` (/repo/catalog/json.go:30; `none` is a nil pointer). -/
structure Heap where
  maps : List (GoMap Int Bytes)
  msgs : List Msg
  files : List (GoMap Bytes (Option Nat))
  deriving Repr

/-- The map at an address. -/
def Heap.map (h : Heap) (t : Nat) : GoMap Int Bytes := h.maps[t]?.getD []

/-- The message at an address. -/
def Heap.msg (h : Heap) (a : Nat) : Msg := h.msgs[a]?.getD ⟨[], [], none⟩

/-- The map of messages at an address. -/
def Heap.file (h : Heap) (f : Nat) : GoMap Bytes (Option Nat) := h.files[f]?.getD []

/-- `make(map[cldrplural.Category]string)` or `maps.Clone`. -/
def Heap.newMap (h : Heap) (m : GoMap Int Bytes) : Heap × Nat := ({ h with maps := h.maps ++ [m] }, h.maps.length)

/-- `&JSONMessage{...}`. -/
def Heap.newMsg (h : Heap) (m : Msg) : Heap × Nat := ({ h with msgs := h.msgs ++ [m] }, h.msgs.length)

/-- `make(JSONMessages)`, filled. -/
def Heap.newFile (h : Heap) (f : GoMap Bytes (Option Nat)) : Heap × Nat := ({ h with files := h.files ++ [f] }, h.files.length)

/-- Any assignment to or deletion from a map. -/
def Heap.setMap (h : Heap) (t : Nat) (m : GoMap Int Bytes) : Heap := { h with maps := h.maps.set t m }

/-- Any assignment to a message. -/
def Heap.setMsg (h : Heap) (a : Nat) (m : Msg) : Heap := { h with msgs := h.msgs.set a m }

/-- Any assignment to a map of messages. -/
def Heap.setFile (h : Heap) (f : Nat) (m : GoMap Bytes (Option Nat)) : Heap := { h with files := h.files.set f m }

/-- /repo/catalog/json.go:300-306 `Clone`; `maps.Clone` of nil is nil. -/
def clone (h : Heap) (m : Msg) : Heap × Nat :=
  match m.translations with
  | none => h.newMsg m
  | some t => (h.newMap (h.map t)).1.newMsg { m with translations := some (h.newMap (h.map t)).2 }

/-- /repo/catalog/json.go:36-46 `jsonCatalog`, with pointers to its messages. -/
structure Cat where
  language : Tag
  domain : Bytes
  categories : List Int
  plural : Num → Option Int
  lookupMap : GoMap Bytes (GoMap Bytes Nat)

/-- /repo/catalog/json.go:53-63 `NewJSONCatalog`. -/
def Cat.new (lang : Tag) (domain : Bytes) : Cat :=
  let c := JsonCatalog.new lang domain
  ⟨c.language, c.domain, c.categories, c.plural, []⟩

/-- /repo/catalog/json.go:167-169: the message gets a map if it has none. -/
def ensureMap (h : Heap) (b : Nat) : Heap × Nat :=
  match (h.msg b).translations with
  | some t => (h, t)
  | none => ((h.newMap []).1.setMsg b { h.msg b with translations := some (h.newMap []).2 }, (h.newMap []).2)

/-- /repo/catalog/json.go:153-184 `setMessage`. -/
def Cat.setMessage (names : List Int) (h : Heap) (c : Cat) (key : Bytes) (src : Option Nat) : Heap × Cat × Option JsonErr :=
  if key = [] then (h, c, some .emptyKey)
  else match src with
    | none => (h, c, some .noMessage)
    | some a =>
      if (h.msg a).context ≠ [] ∧ hasSuffix key (b!"_" ++ (h.msg a).context) = false then (h, c, some .contextMismatch)
      else
        let b := (clone h (h.msg a)).2
        let h1 := (ensureMap (clone h (h.msg a)).1 b).1
        let t := (ensureMap (clone h (h.msg a)).1 b).2
        if ((h1.map t).get? other).isNone then (h1, c, some .noOther)
        else
          let h2 := h1.setMap t (applyCategories names c.categories (h1.map t))
          let inner := (c.lookupMap.get? (h2.msg b).context).getD []
          (h2, { c with lookupMap := c.lookupMap.set (h2.msg b).context (inner.set key b) }, none)

/-- /repo/catalog/json.go:80-84 and 206-210: the loops over a message map; the catalog keeps what was set before an error. -/
def Cat.setAll (names : List Int) (h : Heap) (c : Cat) : GoMap Bytes (Option Nat) → Heap × Cat × Option JsonErr
  | [] => (h, c, none)
  | (key, src) :: rest =>
    match c.setMessage names h key src with
    | (h, c, some e) => (h, c, some e)
    | (h, c, none) => c.setAll names h rest

/-- /repo/catalog/json.go:70-87 `NewJSONCatalogWithMessages`. -/
def newWithMessages (names : List Int) (h : Heap) (lang : Tag) (domain : Bytes) (messages : GoMap Bytes (Option Nat)) :
    Heap × Except JsonErr Cat :=
  match (Cat.new lang domain).setAll names h messages with
  | (h, _, some e) => (h, .error e)
  | (h, c, none) => (h, .ok c)

/-- /repo/catalog/json.go:130-149 `getTranslation`. -/
def Cat.getTranslation (h : Heap) (c : Cat) (ctx key : Bytes) (cat : Int) : Except LookupErr Bytes :=
  let key := if ctx ≠ [] then key ++ b!"_" ++ ctx else key
  match c.lookupMap.get? ctx with
  | none => .error (.missingContext c.domain ctx)
  | some inner =>
    match inner.get? key with
    | none => .error (.missingMessageID c.domain ctx key)
    | some a =>
      match (h.msg a).translations.bind fun t => (h.map t).get? cat with
      | none => .error (.missingTranslation c.domain ctx key cat)
      | some tr => if tr = [] then .error (.missingTranslation c.domain ctx key cat) else .ok tr

/-- /repo/catalog/json.go:89-96 `Lookup`. -/
def Cat.lookup (h : Heap) (c : Cat) (ctx msgID : Bytes) : Bytes × Option LookupErr :=
  match c.getTranslation h ctx msgID other with
  | .error e => (msgID, some e)
  | .ok tr => (tr, none)

/-- /repo/catalog/json.go:98-109 `LookupPlural`. -/
def Cat.lookupPlural (h : Heap) (c : Cat) (ctx msgID : Bytes) (n : Num) : Bytes × Option LookupErr :=
  match c.plural n with
  | none => (msgID, some .plural)
  | some cat =>
    match c.getTranslation h ctx msgID cat with
    | .error e => (msgID, some e)
    | .ok tr => (tr, none)

/-- /repo/catalog/json.go:122-125: the inner loop of `Messages`. -/
def copyInner (h : Heap) (cpy : GoMap Bytes (Option Nat)) : GoMap Bytes Nat → Heap × GoMap Bytes (Option Nat)
  | [] => (h, cpy)
  | (key, a) :: rest => copyInner (clone h (h.msg a)).1 (cpy.set key (some (clone h (h.msg a)).2)) rest

/-- /repo/catalog/json.go:121-126: the outer loop of `Messages`. -/
def copyAll (h : Heap) (cpy : GoMap Bytes (Option Nat)) : GoMap Bytes (GoMap Bytes Nat) → Heap × GoMap Bytes (Option Nat)
  | [] => (h, cpy)
  | (_, inner) :: rest => copyAll (copyInner h cpy inner).1 (copyInner h cpy inner).2 rest

/-- /repo/catalog/json.go:118-128 `Messages`: the address of the new map. -/
def Cat.messages (h : Heap) (c : Cat) : Heap × Nat := (copyAll h [] c.lookupMap).1.newFile (copyAll h [] c.lookupMap).2

/-- What a message in memory stands for. -/
def Heap.value (h : Heap) (a : Nat) : JsonMessage :=
  ⟨(h.msg a).comment, (h.msg a).context, (h.msg a).translations.map h.map⟩

/-- /repo/catalog/json.go:360-367: the effect of `JSONMessage.MarshalJSON` on memory; its result is that of the value. -/
def touch (h : Heap) (a : Nat) : Heap :=
  match (h.msg a).translations with
  | some t => if h.map t = [] then h.setMap t [(other, [])] else h
  | none => h

/-- /repo/catalog/json.go:215-223: the messages that `jsonCatalog.MarshalJSON` collects, without copying them. -/
def collect (m : GoMap Bytes Nat) : GoMap Bytes (GoMap Bytes Nat) → GoMap Bytes Nat
  | [] => m
  | (_, inner) :: rest => collect (inner.foldl (fun m p => m.set p.1 p.2) m) rest

/-- /repo/catalog/json.go:229-246: the loop over the sorted keys. -/
def marshalKeys (messages : GoMap Bytes Nat) (h : Heap) : List Bytes → Heap × Option (List (Bytes × Json))
  | [] => (h, some [])
  | k :: ks =>
    match messages.get? k with
    | none => (h, none)
    | some a =>
      match (h.value a).marshal, marshalKeys messages (touch h a) ks with
      | none, _ => (touch h a, none)
      | some j, (h, some rest) => (h, some ((sanitize k, j) :: rest))
      | some _, (h, none) => (h, none)

/-- /repo/catalog/json.go:215-250 `jsonCatalog.MarshalJSON`. -/
def Cat.marshal (h : Heap) (c : Cat) : Heap × Option Json :=
  let messages := collect [] c.lookupMap
  let r := marshalKeys messages h (sortBy bytesLe messages.keys)
  (r.1, r.2.map .obj)

/-- /repo/catalog/json.go:308-311: a message that `json.Unmarshal` makes. -/
def Heap.load (h : Heap) (m : JsonMessage) : Heap × Nat :=
  match m.translations with
  | none => h.newMsg ⟨m.comment, m.context, none⟩
  | some tr => (h.newMap tr).1.newMsg ⟨m.comment, m.context, some (h.newMap tr).2⟩

/-- /repo/catalog/json.go:197-200: the messages that `json.Unmarshal` makes. -/
def Heap.loadAll (h : Heap) : GoMap Bytes (Option JsonMessage) → Heap × GoMap Bytes (Option Nat)
  | [] => (h, [])
  | (k, none) :: rest => ((h.loadAll rest).1, (k, none) :: (h.loadAll rest).2)
  | (k, some m) :: rest => (((h.load m).1.loadAll rest).1, (k, some (h.load m).2) :: ((h.load m).1.loadAll rest).2)

/-- /repo/catalog/json.go:196-213 `jsonCatalog.UnmarshalJSON`; `order` and `fileOrder` pick the iteration orders. -/
def Cat.unmarshal (names : List Int) (lower : Char → Char) (order : GoMap Bytes Bytes → GoMap Bytes Bytes)
    (fileOrder : GoMap Bytes (Option JsonMessage) → GoMap Bytes (Option JsonMessage)) (h : Heap) (c : Cat) (data : Json) :
    Heap × Cat × Option JsonErr :=
  match data with
  | .null => (h, c, some .emptyFile)
  | .obj fields =>
    match decodeFile lower order [] fields with
    | none => (h, c, some .decode)
    | some [] => (h, c, some .emptyFile)
    | some file => c.setAll names (h.loadAll (fileOrder file)).1 (h.loadAll (fileOrder file)).2
  | _ => (h, c, some .decode)

/-- /repo/catalog/json.go:257-264 `ApplyPluralCategoriesToJSONMessage`. -/
def applyPluralCategories (names : List Int) (lang : Tag) (h : Heap) (msg : Option Nat) : Heap :=
  match msg with
  | none => h
  | some a =>
    match (h.msg a).translations with
    | none => h
    | some t => h.setMap t (applyCategories names (JsonCatalog.new lang []).categories (h.map t))

end Verif.Model.Catalog.Heap
