import Verif.Model.Catalog.Gettext
/-!
# JSON catalogs

Models /repo/catalog/json.go.  JSON texts are trees (`Json`): package encoding/json is trusted to read and
write them.  A category is an arbitrary Go int; the six named ones are 0 to 5.
-/
namespace Verif.Model.Catalog
open Verif.Go Verif.Model.Po Verif.Cldr

/-- A JSON value; `other` stands for numbers, booleans and arrays. -/
inductive Json
  | null
  | str (s : Bytes)
  | obj (fields : List (Bytes × Json))
  | other

/-- The key of `cldrplural.Other` in a map of translations. -/
def other : Int := 5

/-- /repo/catalog/json.go:289-297 `JSONMessage`; `translations = none` is the nil map. -/
structure JsonMessage where
  comment : Bytes
  context : Bytes
  translations : Option (GoMap Int Bytes)
  deriving DecidableEq, Repr

/-- The translations as a map that can be read. -/
def JsonMessage.tr (m : JsonMessage) : GoMap Int Bytes := m.translations.getD []

/-- The keys of /repo/catalog/cldrplural/cldr.go:24-31 `CategoryNames`; a Go map, so any order is possible. -/
def categoryNames : List Int := [0, 1, 2, 3, 4, 5]

/-- /repo/catalog/json.go:274-286: the loop of `applyCategoriesToJSONMessage`. -/
def applyLoop (categories : List Int) (tr : GoMap Int Bytes) : List Int → GoMap Int Bytes
  | [] => tr
  | cat :: cats =>
    if cat ∈ categories then
      if (tr.get? cat).isNone then applyLoop categories (tr.set cat []) cats
      else applyLoop categories tr cats
    else applyLoop categories (tr.erase cat) cats

/-- /repo/catalog/json.go:266-287 `applyCategoriesToJSONMessage`; `names` is the order in which the map
`CategoryNames` is visited. -/
def applyCategories (names categories : List Int) (tr : GoMap Int Bytes) : GoMap Int Bytes :=
  if tr.length = 1 ∧ (tr.get? other).isSome then tr else applyLoop categories tr names

/-- /repo/catalog/json.go:34 `jsonLookupMap`. -/
abbrev JsonLookupMap := GoMap Bytes (GoMap Bytes JsonMessage)

/-- /repo/catalog/json.go:36-46 `jsonCatalog`. -/
structure JsonCatalog where
  language : Tag
  domain : Bytes
  categories : List Int
  plural : Num → Option Int
  lookupMap : JsonLookupMap

/-- The errors of `setMessage`. -/
inductive JsonErr
  | emptyKey | noMessage | contextMismatch | noOther | decode | emptyFile
  deriving DecidableEq, Repr

/-- /repo/catalog/json.go:53-63 `NewJSONCatalog`. -/
def JsonCatalog.new (lang : Tag) (domain : Bytes) : JsonCatalog :=
  match (Cldr.forLanguage lang).1 with
  | none => ⟨lang, domain, [], fun _ => none, []⟩
  | some rs => ⟨lang, domain, rs.categories.map fun c => (c.toNat : Int),
      fun n => (rs.evaluate n.operands).map fun c => (c.toNat : Int), []⟩

/-- `strings.HasSuffix`. -/
def hasSuffix (s t : Bytes) : Bool := t.isSuffixOf s

/-- /repo/catalog/json.go:153-184 `setMessage`; `none` is a nil message. -/
def JsonCatalog.setMessage (names : List Int) (c : JsonCatalog) (key : Bytes) (src : Option JsonMessage) :
    Except JsonErr JsonCatalog :=
  if key = [] then .error .emptyKey
  else match src with
    | none => .error .noMessage
    | some src =>
      if src.context ≠ [] ∧ hasSuffix key (b!"_" ++ src.context) = false then .error .contextMismatch
      else if (src.tr.get? other).isNone then .error .noOther
      else
        let msg := { src with translations := some (applyCategories names c.categories src.tr) }
        let inner := (c.lookupMap.get? msg.context).getD []
        .ok { c with lookupMap := c.lookupMap.set msg.context (inner.set key msg) }

/-- /repo/catalog/json.go:80-84 and 206-210: the loops over a message map. -/
def JsonCatalog.setAll (names : List Int) (c : JsonCatalog) :
    GoMap Bytes (Option JsonMessage) → Except JsonErr JsonCatalog
  | [] => .ok c
  | (key, msg) :: rest =>
    match c.setMessage names key msg with
    | .error e => .error e
    | .ok c => c.setAll names rest

/-- /repo/catalog/json.go:70-87 `NewJSONCatalogWithMessages`. -/
def newJSONCatalogWithMessages (names : List Int) (lang : Tag) (domain : Bytes)
    (messages : GoMap Bytes (Option JsonMessage)) : Except JsonErr JsonCatalog :=
  (JsonCatalog.new lang domain).setAll names messages

/-- /repo/catalog/json.go:130-149 `getTranslation`. -/
def JsonCatalog.getTranslation (c : JsonCatalog) (ctx key : Bytes) (cat : Int) : Except LookupErr Bytes :=
  let key := if ctx ≠ [] then key ++ b!"_" ++ ctx else key
  match c.lookupMap.get? ctx with
  | none => .error (.missingContext c.domain ctx)
  | some inner =>
    match inner.get? key with
    | none => .error (.missingMessageID c.domain ctx key)
    | some msg =>
      match msg.tr.get? cat with
      | none => .error (.missingTranslation c.domain ctx key cat)
      | some tr => if tr = [] then .error (.missingTranslation c.domain ctx key cat) else .ok tr

/-- /repo/catalog/json.go:89-96 `Lookup`. -/
def JsonCatalog.lookup (c : JsonCatalog) (ctx msgID : Bytes) : Bytes × Option LookupErr :=
  match c.getTranslation ctx msgID other with
  | .error e => (msgID, some e)
  | .ok tr => (tr, none)

/-- /repo/catalog/json.go:98-109 `LookupPlural`. -/
def JsonCatalog.lookupPlural (c : JsonCatalog) (ctx msgID : Bytes) (n : Num) : Bytes × Option LookupErr :=
  match c.plural n with
  | none => (msgID, some .plural)
  | some cat =>
    match c.getTranslation ctx msgID cat with
    | .error e => (msgID, some e)
    | .ok tr => (tr, none)

/-- /repo/catalog/json.go:121-126: the loops of `Messages` and (219-223) of `MarshalJSON`. -/
def flatten (cpy : GoMap Bytes JsonMessage) : JsonLookupMap → GoMap Bytes JsonMessage
  | [] => cpy
  | (_, inner) :: rest => flatten (inner.foldl (fun m p => m.set p.1 p.2) cpy) rest

/-- /repo/catalog/json.go:118-128 `Messages`. -/
def JsonCatalog.messages (c : JsonCatalog) : GoMap Bytes JsonMessage := flatten [] c.lookupMap

/-- `json.Unmarshal` into `map[string]string`, as the sequence of assignments: null becomes the empty text, any
other value than a string is an error. -/
def decodeStrings (m : GoMap Bytes Bytes) : List (Bytes × Json) → Option (GoMap Bytes Bytes)
  | [] => some m
  | (k, .str s) :: rest => decodeStrings (m.set k s) rest
  | (k, .null) :: rest => decodeStrings (m.set k []) rest
  | _ :: _ => none

/-- /repo/catalog/json.go:327-344: one key of the object, already in lower case. -/
def JsonMessage.assign (m : JsonMessage) (key value : Bytes) : JsonMessage :=
  if key = b!"comment" then { m with comment := value }
  else if key = b!"context" then { m with context := value }
  else if key = b!"zero" then { m with translations := some (m.tr.set 0 value) }
  else if key = b!"one" then { m with translations := some (m.tr.set 1 value) }
  else if key = b!"two" then { m with translations := some (m.tr.set 2 value) }
  else if key = b!"few" then { m with translations := some (m.tr.set 3 value) }
  else if key = b!"many" then { m with translations := some (m.tr.set 4 value) }
  else if key = b!"other" then { m with translations := some (m.tr.set 5 value) }
  else m

/-- `strings.ToLower`, with the rune mapping left open. -/
def toLower (lower : Char → Char) (s : Bytes) : Bytes := utf8 ((runes s).map lower)

/-- /repo/catalog/json.go:326-345: the loop over the keys, in the order of the map. -/
def JsonMessage.assignAll (lower : Char → Char) (m : JsonMessage) : GoMap Bytes Bytes → JsonMessage
  | [] => m
  | (k, v) :: rest => (m.assign (toLower lower k) v).assignAll lower rest

/-- /repo/catalog/json.go:308-348 `JSONMessage.UnmarshalJSON`; `order` picks the iteration order of the map. -/
def JsonMessage.unmarshal (lower : Char → Char) (order : GoMap Bytes Bytes → GoMap Bytes Bytes)
    (m : JsonMessage) (data : Json) : Option JsonMessage :=
  let m := { m with translations := some m.tr }
  match data with
  | .str s => some { m with translations := some (m.tr.set other s) }
  | .null => some { m with translations := some (m.tr.set other []) }
  | .other => none
  | .obj fields => (decodeStrings [] fields).map fun mm => m.assignAll lower (order mm)

/-- The zero value of `JSONMessage`. -/
def JsonMessage.zero : JsonMessage := ⟨[], [], none⟩

/-- `json.Unmarshal` into `JSONMessages` (json.go:198), one entry: null gives a nil message. -/
def decodeEntry (lower : Char → Char) (order : GoMap Bytes Bytes → GoMap Bytes Bytes) :
    Json → Option (Option JsonMessage)
  | .null => some none
  | j => (JsonMessage.zero.unmarshal lower order j).map some

/-- `json.Unmarshal` into `JSONMessages`; of repeated keys the last one wins. -/
def decodeFile (lower : Char → Char) (order : GoMap Bytes Bytes → GoMap Bytes Bytes)
    (m : GoMap Bytes (Option JsonMessage)) : List (Bytes × Json) → Option (GoMap Bytes (Option JsonMessage))
  | [] => some m
  | (k, j) :: rest =>
    match decodeEntry lower order j with
    | none => none
    | some msg => decodeFile lower order (m.set k msg) rest

/-- /repo/catalog/json.go:196-213 `jsonCatalog.UnmarshalJSON`; `fileOrder` picks the iteration order of the file. -/
def JsonCatalog.unmarshal (names : List Int) (lower : Char → Char) (order : GoMap Bytes Bytes → GoMap Bytes Bytes)
    (fileOrder : GoMap Bytes (Option JsonMessage) → GoMap Bytes (Option JsonMessage)) (c : JsonCatalog)
    (data : Json) : Except JsonErr JsonCatalog :=
  match data with
  | .null => .error .emptyFile
  | .obj fields =>
    match decodeFile lower order [] fields with
    | none => .error .decode
    | some [] => .error .emptyFile
    | some file => c.setAll names (fileOrder file)
  | _ => .error .decode

/-- `json.Marshal` of a string: malformed bytes become U+FFFD. -/
def sanitize (s : Bytes) : Bytes := utf8 (runes s)

/-- /repo/catalog/json.go:414: `strings.ToLower(cat.String())`. -/
def categoryKey : Int → Bytes
  | 0 => b!"zero"
  | 1 => b!"one"
  | 2 => b!"two"
  | 3 => b!"few"
  | 4 => b!"many"
  | 5 => b!"other"
  | _ => b!"unknown"

/-- /repo/catalog/json.go:403-418: the fields of the translations. -/
def categoryFields (tr : GoMap Int Bytes) : List Int → List (Bytes × Json)
  | [] => []
  | cat :: cats =>
    match tr.get? cat with
    | none => categoryFields tr cats
    | some value => (categoryKey cat, .str (sanitize value)) :: categoryFields tr cats

/-- /repo/catalog/json.go:360-422 `JSONMessage.MarshalJSON`; `none` is the error that `json.Marshal` reports
for the text with a trailing comma, written if there is a comment or context but no named category. -/
def JsonMessage.marshal (m : JsonMessage) : Option Json :=
  let tr : GoMap Int Bytes := if m.tr = [] then [(other, [])] else m.tr
  if m.comment = [] ∧ m.context = [] ∧ tr.length = 1 then
    some (.str (sanitize ((tr.get? other).getD [])))
  else
    let head := (if m.comment = [] then [] else [(b!"comment", .str (sanitize m.comment))]) ++
      (if m.context = [] then [] else [(b!"context", .str (sanitize m.context))])
    let cats := categoryFields tr [0, 1, 2, 3, 4, 5]
    if !head.isEmpty && cats.isEmpty then none else some (.obj (head ++ cats))

/-- /repo/catalog/json.go:361-367: what `MarshalJSON` leaves in the message of the caller; the receiver is a
copy, but it shares a non-nil map with the original. -/
def JsonMessage.afterMarshal (m : JsonMessage) : JsonMessage :=
  match m.translations with
  | some [] => { m with translations := some [(other, [])] }
  | _ => m

/-- /repo/catalog/json.go:229-246: the members of the written object. -/
def marshalMembers (messages : GoMap Bytes JsonMessage) : List Bytes → Option (List (Bytes × Json))
  | [] => some []
  | k :: ks =>
    match (messages.get? k).bind JsonMessage.marshal, marshalMembers messages ks with
    | some j, some rest => some ((sanitize k, j) :: rest)
    | _, _ => none

/-- /repo/catalog/json.go:215-250 `jsonCatalog.MarshalJSON`. -/
def JsonCatalog.marshal (c : JsonCatalog) : Option Json :=
  let messages := flatten [] c.lookupMap
  (marshalMembers messages (sortBy bytesLe messages.keys)).map .obj

/-- /repo/catalog/json_decoder.go:17-24 `JSONDecoder.Decode`.  The target of `json.Unmarshal` is a variable of
interface type, so the text `null` sets it to nil without calling `UnmarshalJSON`: result `none`, no error. -/
def jsonDecode (names : List Int) (lower : Char → Char) (order : GoMap Bytes Bytes → GoMap Bytes Bytes)
    (fileOrder : GoMap Bytes (Option JsonMessage) → GoMap Bytes (Option JsonMessage)) (lang : Tag) (domain : Bytes)
    (data : Json) : Except JsonErr (Option JsonCatalog) :=
  match data with
  | .null => .ok none
  | data => ((JsonCatalog.new lang domain).unmarshal names lower order fileOrder data).map some

end Verif.Model.Catalog
