import Verif.Model.Po.File
import Verif.Model.Cldr.Builtin
import Verif.Model.PoPlural.Evaluate
/-!
# Gettext catalogs

Models /repo/catalog/po.go and /repo/catalog/po_decoder.go:99-172.  The file is the result of the parsers
(`nil` messages, which they never produce, are excluded).  A language tag is the chain of texts that
`ForLanguage` visits; the language is left out of the errors.
-/
namespace Verif.Model.Catalog
open Verif.Go Verif.Model.Po Verif.Cldr

/-- A language tag as `ForLanguage` sees it (see `Verif.Model.Cldr.forLanguage`). -/
abbrev Tag := List (String × Option String)

/-- A number as the two plural engines see it: the operands of `cldrplural.NewOperands` and the integer
that `poplural.Rule.Evaluate` passes to its form function; `none` is the error. -/
structure Num where
  operands : Option Cldr.Operands
  rounded : Option Int

/-- The number that a Go value stands for. -/
def Num.of (rest : List Char → Option F64) (oor : F64 → Int) (fmtV : F64 → List Char) (a : Cldr.Arg)
    (v : PoPlural.Val) : Num :=
  ⟨Cldr.newOperands rest oor fmtV a,
   (PoPlural.toNumber (Cldr.parseFloat rest) v).map fun x => x.abs.roundToEven.toInt64 oor⟩

/-- The errors of a lookup, /repo/catalog/catalog.go:39-119; `plural` is an error of the plural function. -/
inductive LookupErr
  | missingContext (domain ctx : Bytes)
  | missingMessageID (domain ctx msgID : Bytes)
  | missingTranslation (domain ctx msgID : Bytes) (idx : Int)
  | plural
  deriving DecidableEq, Repr

/-- /repo/catalog/po.go:13 `PoLookupMap`; a message is its map of translations (97-99). -/
abbrev PoLookupMap := GoMap Bytes (GoMap Bytes (GoMap Int Bytes))

/-- /repo/catalog/po.go:19-28 `GettextCatalog`. -/
structure GettextCatalog where
  language : Tag
  domain : Bytes
  pluralFunc : Num → Option Int
  lookupMap : PoLookupMap

/-- /repo/catalog/po.go:77-92 `getMessage`. -/
def GettextCatalog.getMessage (c : GettextCatalog) (ctx msgID : Bytes) (idx : Int) :
    Except LookupErr (GoMap Int Bytes) :=
  match c.lookupMap.get? ctx with
  | none => .error (.missingContext c.domain ctx)
  | some inner =>
    match inner.get? msgID with
    | none => .error (.missingMessageID c.domain ctx msgID)
    | some msg =>
      match msg.get? idx with
      | none => .error (.missingTranslation c.domain ctx msgID idx)
      | some tr => if tr = [] then .error (.missingTranslation c.domain ctx msgID idx) else .ok msg

/-- /repo/catalog/po.go:32-39 `Lookup`: the text and the error. -/
def GettextCatalog.lookup (c : GettextCatalog) (ctx msgID : Bytes) : Bytes × Option LookupErr :=
  match c.getMessage ctx msgID 0 with
  | .error e => (msgID, some e)
  | .ok msg => ((msg.get? 0).getD [], none)

/-- /repo/catalog/po.go:41-52 `LookupPlural`. -/
def GettextCatalog.lookupPlural (c : GettextCatalog) (ctx msgID : Bytes) (n : Num) : Bytes × Option LookupErr :=
  match c.pluralFunc n with
  | none => (msgID, some .plural)
  | some idx =>
    match c.getMessage ctx msgID idx with
    | .error e => (msgID, some e)
    | .ok msg => ((msg.get? idx).getD [], none)

/-- /repo/catalog/po.go:69-72: the inner loop of `Messages`.  The message is read from the copy, where the key
is not yet present, and `Clone` dereferences the nil pointer. -/
def copyInner (cpy : GoMap Bytes (GoMap Int Bytes)) :
    GoMap Bytes (GoMap Int Bytes) → Run (GoMap Bytes (GoMap Int Bytes))
  | [] => .ok cpy
  | (msgID, _) :: rest =>
    match cpy.get? msgID with
    | none => .error .nilDereference
    | some msg => copyInner (cpy.set msgID msg) rest

/-- /repo/catalog/po.go:66-73: the outer loop of `Messages`. -/
def copyOuter (cpy : PoLookupMap) : PoLookupMap → Run PoLookupMap
  | [] => .ok cpy
  | (ctx, inner) :: rest => do
    let new ← copyInner [] inner
    copyOuter (cpy.set ctx new) rest

/-- /repo/catalog/po.go:64-75 `Messages`. -/
def GettextCatalog.messages (c : GettextCatalog) : Run PoLookupMap := copyOuter [] c.lookupMap

/-- /repo/catalog/po_decoder.go:116: the test for a fuzzy message. -/
def isFuzzy (m : Message) : Bool :=
  match m.comment with
  | none => false
  | some c => c.hasFlag b!"fuzzy"

/-- /repo/catalog/po_decoder.go:111-125: the inner loop of `buildGettextCatalog`. -/
def buildInner (look : PoLookupMap) : GoMap Bytes Message → Run PoLookupMap
  | [] => .ok look
  | (msgID, msg) :: rest =>
    if msgID = [] then buildInner look rest
    else if isFuzzy msg then buildInner look rest
    else match look.get? msg.context with
      | none => .error .nilMapWrite
      | some inner => buildInner (look.set msg.context (inner.set msg.id msg.str)) rest

/-- /repo/catalog/po_decoder.go:102-126: the outer loop. -/
def buildLookup (look : PoLookupMap) : Messages → Run PoLookupMap
  | [] => .ok look
  | (ctx, msgs) :: rest =>
    if msgs = [] then buildLookup look rest
    else do
      let look := if (look.get? ctx).isNone then look.set ctx [] else look
      let look ← buildInner look msgs
      buildLookup look rest

/-- /repo/catalog/po_decoder.go:155-158: the loop that fills `catToForm`. -/
def fillForms (m : GoMap Category Int) (idx : Int) : List Category → GoMap Category Int
  | [] => m
  | cat :: cats => fillForms (m.set cat idx) (idx + 1) cats

/-- /repo/catalog/po_decoder.go:152-172 `getCLDRPluralFunction`.  `ForLanguage` always returns a rule set
(`C33_category_listed`). -/
def getCLDRPluralFunction (lang : Tag) : Num → Option Int :=
  match (Cldr.forLanguage lang).1 with
  | none => fun _ => none
  | some rs =>
    let catToForm := fillForms [] 0 rs.categories
    fun n => match rs.evaluate n.operands with
      | none => none
      | some cat => some ((catToForm.get? cat).getD 0)

/-- /repo/catalog/poplural/rule.go:23-31 `Rule.Evaluate` on a number. -/
def ruleFunc (r : PoPlural.Rule) : Num → Option Int := fun n => n.rounded.map r.form

/-- /repo/catalog/po_decoder.go:17 `poCLDRHeader`. -/
def poCLDRHeader : Bytes := b!"X-spreak-use-CLDR"

/-- /repo/catalog/po_decoder.go:133-149: the plural function; `none` is the error of an unreadable rule. -/
def choosePlural (u : Unicode) (header : Option Header) (lang : Tag) (useCLDR : Bool) : Option (Num → Option Int) :=
  match header with
  | none => some (getCLDRPluralFunction lang)
  | some h =>
    if useCLDR || h.pluralForms = [] then some (getCLDRPluralFunction lang)
    else if u.equalFold (h.get u poCLDRHeader) b!"true" then some (getCLDRPluralFunction lang)
    else match PoPlural.parseRule (runes h.pluralForms) with
      | .error _ => none
      | .ok rule => some (ruleFunc rule)

/-- /repo/catalog/po_decoder.go:99-150 `buildGettextCatalog`; `none` is an error.  The parameter `domain` is
used in the error text only. -/
def buildGettextCatalog (u : Unicode) (file : File) (lang : Tag) (_domain : Bytes) (useCLDR : Bool) :
    Run (Option GettextCatalog) := do
  let look ← buildLookup [] file.messages
  match choosePlural u file.header lang useCLDR with
  | none => .ok none
  | some f => .ok (some { language := lang, domain := [], pluralFunc := f, lookupMap := look })

end Verif.Model.Catalog
