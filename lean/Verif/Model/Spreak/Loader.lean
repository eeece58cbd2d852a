import Verif.Go.Path
import Verif.Go.Sort
import Verif.Model.Po.File
/-!
# Loading files and names of languages

Models /repo/loader.go and /repo/utils.go:77-160.  A file system is a function from paths to nodes that does not
change; a path that cannot be opened is a missing one (`fs.Stat` fails, line 278).  `file.Close` succeeds.
The data of a language tag come from golang.org/x/text/language, here they are a record.
-/
namespace Verif.Model.Spreak
open Verif.Go Verif.Model.Po

/-- What /repo/utils.go:92-115 asks of a tag; a part is `none` if its confidence is `language.No`. -/
structure TagInfo where
  string : Bytes
  /-- Base: its name and its ISO 639-3 code. -/
  base : Option (Bytes × Bytes)
  region : Option Bytes
  script : Option Bytes
  deriving DecidableEq, Repr

/-- /repo/utils.go:84-90 `addEntry`. -/
def addEntry (seen : List Bytes) (s : Bytes) : List Bytes := if s ∈ seen then seen else seen ++ [s]

/-- /repo/utils.go:151-160: the order of `sortLongestFirst` (as `≤`). -/
def longestFirst (a b : Bytes) : Bool :=
  if a.length ≠ b.length then decide (b.length < a.length) else bytesLe a b

/-- /repo/utils.go:80-120 `ExpandLanguage`. -/
def expandLanguage (t : TagInfo) : List Bytes :=
  let l := addEntry [] t.string
  let l := match t.base with
    | none => l
    | some (base, iso3) => addEntry (addEntry l iso3) base
  let l := match t.region, t.base with
    | some region, some (base, _) => addEntry (addEntry l (base ++ b!"_" ++ region)) (base ++ b!"-" ++ region)
    | _, _ => l
  let l := match t.script, t.base with
    | some script, some (base, _) => addEntry (addEntry l (base ++ b!"_" ++ script)) (base ++ b!"-" ++ script)
    | _, _ => l
  sortBy longestFirst l

/-- /repo/utils.go:123-131: the part before a byte. -/
def cutAt (c : UInt8) (s : Bytes) : Bytes :=
  match indexByte? c s with
  | none => s
  | some i => s.take i

/-- /repo/utils.go:122-132: what `parseLanguageName` gives to `language.Parse`. -/
def languageName (lang : Bytes) : Bytes := trimSpace (cutAt 0x2e (cutAt 0x40 (cutAt 0x3a lang)))

/-! ## File systems -/

/-- A directory or a file with its content. -/
inductive Node
  | dir
  | file (content : Bytes)
  deriving DecidableEq, Repr

/-- What can be read from a node. -/
def Node.content : Node → Option Bytes
  | .dir => none
  | .file c => some c

/-- `fs.FS`. -/
abbrev FileSystem := Bytes → Option Node

/-- Errors as far as the loader distinguishes them: `errors.Is(err, os.ErrNotExist)` or not, `ErrNotFound`. -/
inductive LoadErr | notExist | notFound | other
  deriving DecidableEq, Repr

/-- `catalog.Decoder`: the content is `none` if it cannot be read (a directory).  Decoders without
`DecodeReader` do not see this case, /repo/loader.go:135-138. -/
abbrev Decoder (L C : Type) := L → Bytes → Option Bytes → Except LoadErr C

/-- /repo/loader.go:33-35 `Resolver`. -/
abbrev Resolver (L : Type) := FileSystem → Bytes → L → Bytes → Except LoadErr Bytes

/-- /repo/loader.go:223-226 `defaultResolver`. -/
structure DefaultResolver where
  search : Bool := true
  category : Bytes := []
  deriving DecidableEq, Repr

/-- /repo/loader.go:253-259: the options. -/
inductive ResolverOption
  | disabledSearch
  | category (c : Bytes)

/-- /repo/loader.go:240-251 `NewDefaultResolver`. -/
def newDefaultResolver (opts : List ResolverOption) : DefaultResolver :=
  opts.foldl (fun r o => match o with
    | .disabledSearch => { r with search := false }
    | .category c => { r with category := c }) {}

/-- /repo/loader.go:276-282 `tryPath`. -/
def tryPath (fs : FileSystem) (es : List Bytes) : Option Bytes :=
  if (fs (joinPath es)).isSome then some (joinPath es) else none

/-- /repo/loader.go:274-331 `searchFileForLanguageName`; `none` is `os.ErrNotExist`. -/
def searchFile (fs : FileSystem) (r : DefaultResolver) (locale domain ext : Bytes) : Option Bytes :=
  match (if domain ≠ [] then tryPath fs [locale, r.category, domain ++ ext] else none) with
  | some p => some p
  | none =>
  if r.search = false then none else
  match (if domain ≠ [] then tryPath fs [locale, b!"LC_MESSAGES", domain ++ ext] else none) with
  | some p => some p
  | none =>
  match (if domain ≠ [] then tryPath fs [locale, domain ++ ext] else none) with
  | some p => some p
  | none =>
  match (if domain ≠ [] then tryPath fs [domain, locale ++ ext] else none) with
  | some p => some p
  | none =>
  match tryPath fs [locale ++ ext] with
  | some p => some p
  | none =>
  match (if r.category ≠ [] then tryPath fs [r.category, locale ++ ext] else none) with
  | some p => some p
  | none => if r.category ≠ b!"LC_MESSAGES" then tryPath fs [b!"LC_MESSAGES", locale ++ ext] else none

/-- /repo/loader.go:262-271: the loop of `Resolve`. -/
def resolveFrom (fs : FileSystem) (r : DefaultResolver) (domain ext : Bytes) : List Bytes → Except LoadErr Bytes
  | [] => .error .notExist
  | lang :: langs =>
    match searchFile fs r lang domain ext with
    | some p => .ok p
    | none => resolveFrom fs r domain ext langs

variable {L C : Type}

/-- /repo/loader.go:261-272 `Resolve`. -/
def DefaultResolver.resolver (r : DefaultResolver) (info : L → TagInfo) : Resolver L :=
  fun fs ext lang domain => resolveFrom fs r domain ext (expandLanguage (info lang))

/-- /repo/loader.go:45-50 `FilesystemLoader`: extensions and decoders are parallel slices. -/
structure FsLoader (L C : Type) where
  fsys : Option FileSystem
  resolver : Option (Resolver L)
  extensions : List Bytes
  decoder : List (Decoder L C)

/-- /repo/loader.go:110-147 `loadFromFile`: the index into `decoder` may be out of range. -/
def FsLoader.loadFromFile (l : FsLoader L C) (fs : FileSystem) (resolver : Resolver L) (lang : L) (domain ext : Bytes)
    (i : Nat) : Run (Except LoadErr C) :=
  match resolver fs ext lang domain with
  | .error e => .ok (.error e)
  | .ok p =>
    match fs p with
    | none => .ok (.error .notExist)
    | some node =>
      match l.decoder[i]? with
      | none => .error .indexOutOfRange
      | some d => .ok (d lang domain node.content)

/-- /repo/loader.go:95-107: the loop of `Load`. -/
def FsLoader.loadFrom (l : FsLoader L C) (fs : FileSystem) (resolver : Resolver L) (lang : L) (domain : Bytes) (i : Nat) :
    List Bytes → Run (Except LoadErr C)
  | [] => .ok (.error .notFound)
  | ext :: exts =>
    match l.loadFromFile fs resolver lang domain ext i with
    | .error f => .error f
    | .ok (.error .notExist) => l.loadFrom fs resolver lang domain (i + 1) exts
    | .ok (.error e) => .ok (.error e)
    | .ok (.ok c) => .ok (.ok c)

/-- /repo/loader.go:94-108 `Load`; a loader without file system or resolver is not created by
`NewFilesystemLoader`. -/
def FsLoader.load (l : FsLoader L C) (lang : L) (domain : Bytes) : Run (Except LoadErr C) :=
  match l.fsys, l.resolver with
  | some fs, some r => l.loadFrom fs r lang domain 0 l.extensions
  | _, _ => .error .nilDereference

/-- /repo/loader.go:154-221: the options; a nil file system or resolver is `none`, a path is a file system. -/
inductive FsOption (L C : Type)
  | nil
  | fs (fs : Option FileSystem)
  | resolver (r : Option (Resolver L))
  | decoder (ext : Bytes) (d : Decoder L C)

/-- /repo/loader.go:149-152 `addDecoder`. -/
def FsLoader.addDecoder (l : FsLoader L C) (ext : Bytes) (d : Decoder L C) : FsLoader L C :=
  { l with extensions := l.extensions ++ [ext], decoder := l.decoder ++ [d] }

/-- /repo/loader.go:64-71: the loop over the options; `none` is an error. -/
def FsLoader.applyAll (l : FsLoader L C) : List (FsOption L C) → Option (FsLoader L C)
  | [] => some l
  | .nil :: _ => none
  | .fs fs :: os => if l.fsys.isSome then none else FsLoader.applyAll { l with fsys := fs } os
  | .resolver r :: os => if l.resolver.isSome then none else FsLoader.applyAll { l with resolver := r } os
  | .decoder ext d :: os => (l.addDecoder ext d).applyAll os

/-- /repo/loader.go:58-92 `NewFilesystemLoader`; the three standard decoders are parameters. -/
def newFilesystemLoader (info : L → TagInfo) (po mo json : Decoder L C) (opts : List (FsOption L C)) : Option (FsLoader L C) :=
  match FsLoader.applyAll ⟨none, none, [], []⟩ opts with
  | none => none
  | some l =>
    let l := if l.decoder = [] then ((l.addDecoder b!".po" po).addDecoder b!".mo" mo).addDecoder b!".json" json else l
    if l.fsys.isNone then none
    else if l.resolver.isNone then some { l with resolver := some ((newDefaultResolver []).resolver info) }
    else some l

end Verif.Model.Spreak
