import Verif.Model.Po.Encoder
import Verif.Model.Humanize.DateFormat
/-!
# The header of an empty PO file

Models `PlaceholderHeader`, /repo/catalog/po/file.go:202-229.  The current time is a parameter.
-/
namespace Verif.Model.Po
open Verif.Go

/-- The layout "2006-01-02 15:04-0700". -/
def formatStamp (t : Time) : Bytes :=
  appendInt 4 t.year ++ b!"-" ++ appendInt 2 t.month ++ b!"-" ++ appendInt 2 t.day ++ b!" " ++ appendInt 2 t.hour ++
    b!":" ++ appendInt 2 t.minute ++ Verif.Model.Humanize.formatZone t

/-- /repo/catalog/po/file.go:203-207: the comment. -/
def placeholderComment (packageName copyrightHolder : Bytes) : Bytes :=
  b!"SOME DESCRIPTIVE TITLE.\nCopyright (C) YEAR " ++ copyrightHolder ++
    b!"\nThis file is distributed under the same license as the " ++ packageName ++
    b!" package.\nFIRST AUTHOR <EMAIL@ADDRESS>, YEAR.\n"

/-- /repo/catalog/po/file.go:202-229 `PlaceholderHeader`. -/
def placeholderHeader (now : Time) (packageName copyrightHolder bugsAddress : Bytes) : Header where
  comment := some
    { translator := placeholderComment packageName copyrightHolder
      extracted := []
      references := []
      flags := [b!"fuzzy"]
      prevMsgContext := []
      prevMsgID := [] }
  projectIDVersion := packageName
  reportMsgidBugsTo := bugsAddress
  potCreationDate := formatStamp now
  poRevisionDate := b!"YEAR-MO-DA HO:MI+ZONE"
  lastTranslator := b!"FULL NAME <EMAIL@ADDRESS>"
  languageTeam := b!"LANGUAGE <LL@li.org>"
  language := []
  mimeVersion := b!"1.0"
  contentType := b!"text/plain; charset=UTF-8"
  contentTransferEncoding := b!"8bit"
  pluralForms := []

end Verif.Model.Po
