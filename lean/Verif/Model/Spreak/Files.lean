import Verif.Model.Catalog.Decoder
import Verif.Model.Catalog.JsonText
import Verif.Model.Mo
import Verif.Model.Spreak.Bundle
import Verif.Model.Spreak.Loader
/-!
# Catalogs, decoders and loaders put together

How the models of the catalogs (`Verif.Model.Catalog`, `Verif.Model.Mo`) fill the interfaces `catalog.Catalog` and
`catalog.Decoder` that locales and loaders use.
-/
namespace Verif.Model.Spreak
open Verif.Go Verif.Model.Catalog
open Verif.Model.Po (Unicode)

/-- A `language.Tag`: as the plural rules see it and as the loader sees it. -/
structure Lang where
  tag : Tag
  info : TagInfo
  deriving DecidableEq

/-- The errors of /repo/catalog/catalog.go:39-119 as values of the interface `error`. -/
def lookupError : LookupErr → Err Lang
  | .missingContext _ _ => .catalog 0
  | .missingMessageID _ _ _ => .catalog 1
  | .missingTranslation _ _ _ _ => .catalog 2
  | .plural => .plural

/-- The two results of a lookup. -/
def answer : Bytes × Option LookupErr → Except (Err Lang) Bytes
  | (t, none) => .ok t
  | (_, some e) => .error (lookupError e)

/-- /repo/catalog/po.go:30-52: a `GettextCatalog` as a `Catalog`. -/
def gettextCatalog (c : GettextCatalog) : Spreak.Catalog Lang Num where
  lookup := fun ctx id => answer (c.lookup ctx id)
  lookupPlural := fun ctx id n => answer (c.lookupPlural ctx id n)

/-- /repo/catalog/json.go:89-109: a `jsonCatalog` as a `Catalog`. -/
def jsonCatalog (c : JsonCatalog) : Spreak.Catalog Lang Num where
  lookup := fun ctx id => answer (c.lookup ctx id)
  lookupPlural := fun ctx id n => answer (c.lookupPlural ctx id n)

/-- What a decoder gives: a catalog or a nil interface; or the program ends or does not go on. -/
inductive Outcome
  | catalog (c : Option (Spreak.Catalog Lang Num))
  | panic
  | hang

/-- The outcomes of the gettext decoders. -/
def outcome : Decoded → Except LoadErr Outcome
  | .catalog c => .ok (.catalog (some (gettextCatalog c)))
  | .error => .error .other
  | .panic => .ok .panic
  | .hang => .ok .hang

/-- /repo/catalog/po_decoder.go:60-77: `DecodeReader` of a PO file; a directory cannot be read. -/
def poDecoder (u : Unicode) (useCLDR : Bool) : Decoder Lang Outcome := fun lang domain content =>
  match content with
  | none => .error .other
  | some data => outcome (poDecode u lang.tag domain useCLDR data)

/-- /repo/catalog/po_decoder.go:78-97: `DecodeReader` of an MO file. -/
def moDecoder (u : Unicode) (useCLDR : Bool) : Decoder Lang Outcome := fun lang domain content =>
  match content with
  | none => .error .other
  | some data => outcome (Mo.moDecode u lang.tag domain useCLDR data)

/-- What reading a JSON file takes from Go: `unicode.ToLower` and the orders in which maps are visited. -/
structure JsonWorld where
  names : List Int
  lower : Char → Char
  order : GoMap Bytes Bytes → GoMap Bytes Bytes
  fileOrder : GoMap Bytes (Option JsonMessage) → GoMap Bytes (Option JsonMessage)

/-- /repo/catalog/json_decoder.go:17-24: `Decode` of a JSON file; an unreadable file is reported (loader.go:135-138). -/
def jsonDecoder (j : JsonWorld) : Decoder Lang Outcome := fun lang domain content =>
  match content with
  | none => .error .other
  | some data =>
    match jsonDecodeText j.names j.lower j.order j.fileOrder lang.tag domain data with
    | .error _ => .error .other
    | .ok c => .ok (.catalog (c.map jsonCatalog))

/-- /repo/loader.go:73-77: the decoders a loader has if none are given. -/
def standardDecoders (u : Unicode) (j : JsonWorld) : List (Bytes × Decoder Lang Outcome) :=
  [(b!".po", poDecoder u false), (b!".mo", moDecoder u false), (b!".json", jsonDecoder j)]

/-- A `FilesystemLoader` as the bundle sees it: `ld` is a `Loader` that does what `l.Load` does.  Nothing is said of
loads that end the program or do not return. -/
def Behaves (l : FsLoader Lang Outcome) (ld : Loader Lang Num) : Prop := ∀ lang domain,
  match l.load lang domain with
  | .ok (.ok (.catalog c)) => ld lang domain = .ok c
  | .ok (.error .notFound) => ld lang domain = .error .notFound
  | .ok (.error _) => ∃ k, ld lang domain = .error (.loader k)
  | _ => True

end Verif.Model.Spreak
