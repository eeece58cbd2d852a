import Verif.Go.Quote
import Verif.Go.Time
import Verif.Model.Catalog.Gettext
/-!
# The texts of errors

Models the `String` methods of the errors in /repo/utils.go and /repo/catalog/catalog.go.  A language is given by the
text of its tag (`language.Tag` is printed with its method `String`); `print` is `strconv.IsPrint`, on which the verb
`%q` depends.
-/
namespace Verif.Model.Spreak
open Verif.Go

/-- /repo/catalog/catalog.go:48-52, 78-83, 112-118 and /repo/utils.go:161-166, 186-188, 201-204: the errors of lookups and
loaders. -/
inductive Report
  | context (lang domain ctx : Bytes)
  | message (lang domain ctx msgID : Bytes)
  | translation (lang domain ctx msgID : Bytes) (idx : Int)
  | domain (lang domain : Bytes)
  | language (lang : Bytes)
  | notFound (lang typ identifier : Bytes)
  deriving DecidableEq, Repr

/-- /repo/catalog/catalog.go:59-61, 92-97, 126-131: an optional part of the text. -/
def optionalPart (print : Char → Bool) (key value : Bytes) : Bytes :=
  if value ≠ [] then key ++ b!"=" ++ quote print value ++ b!" " else []

/-- The texts: /repo/catalog/catalog.go:56-68, 89-100, 123-134 and /repo/utils.go:180-182, 196-198, 208-217. -/
def Report.text (print : Char → Bool) : Report → Bytes
  | .context lang d ctx =>
    b!"spreak: context not found: lang=" ++ quote print lang ++ b!" " ++ optionalPart print b!"domain" d ++
      (if ctx ≠ [] then b!"ctx=" ++ quote print ctx ++ b!" " else b!"ctx='' (empty string)")
  | .message lang d ctx msgID =>
    b!"spreak: msgID not found: lang=" ++ quote print lang ++ b!" " ++ optionalPart print b!"domain" d ++
      optionalPart print b!"ctx" ctx ++ b!"msgID=" ++ quote print msgID
  | .translation lang d ctx msgID idx =>
    b!"spreak: translation not found: lang=" ++ quote print lang ++ b!" " ++ optionalPart print b!"domain" d ++
      optionalPart print b!"ctx" ctx ++ b!"msgID=" ++ quote print msgID ++ b!" idx=" ++ itoa idx
  | .domain lang d =>
    b!"spreak: domain not found: lang=" ++ quote print lang ++ b!" " ++
      (if d ≠ [] then b!"domain=" ++ quote print d ++ b!" " else b!"domain='' (empty string) ")
  | .language lang => b!"spreak: language not found: lang=" ++ quote print lang ++ b!" "
  | .notFound lang typ identifier =>
    b!"spreak: item of type " ++ quote print typ ++ b!" for lang=" ++ quote print lang ++ b!" could not be found: " ++
      identifier ++ b!" "

/-- The error that a catalog returns from a lookup (/repo/catalog/catalog.go:39-46, 68-76, 101-110); there is none with a text
of its own for an error of the plural function. -/
def Report.ofLookup (lang : Bytes) : Verif.Model.Catalog.LookupErr → Option Report
  | .missingContext d ctx => some (.context lang d ctx)
  | .missingMessageID d ctx msgID => some (.message lang d ctx msgID)
  | .missingTranslation d ctx msgID idx => some (.translation lang d ctx msgID idx)
  | .plural => none

/-- /repo/loader.go:107: the error of `Load` if there is no file (`NewErrNotFound`, /repo/utils.go:170-176). -/
def Report.noFile (print : Char → Bool) (lang domain : Bytes) : Report :=
  .notFound lang b!"file" (b!"domain=" ++ quote print domain)

end Verif.Model.Spreak
