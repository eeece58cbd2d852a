import Verif.Props.PoString
import Verif.Props.Wrap
import Verif.Props.PoPlural
import Verif.Props.Cldr
import Verif.Props.CldrFaults
import Verif.Props.PoFile
import Verif.Props.PoParser
import Verif.Props.Mo
import Verif.Props.Loader
import Verif.Props.Gettext
import Verif.Props.Json
import Verif.Props.Localizer
import Verif.Props.Bundle
import Verif.Props.BundleDomains
import Verif.Props.Calendar
import Verif.Props.Numbers
import Verif.Props.Since
import Verif.Props.Natural
import Verif.Props.DateFormat
import Verif.Props.DateLetters
import Verif.Props.NaturalDay
import Verif.Props.Collection
import Verif.Props.PoEncoder
import Verif.Props.PoOrder
import Verif.Props.EndToEnd
import Verif.Props.PoReread
import Verif.Props.PoAgain
import Verif.Props.Reports
import Verif.Props.ReportsExact
import Verif.Props.Placeholder
import Verif.Props.JsonText
import Verif.Props.JsonSave
import Verif.Props.PoState
import Verif.Props.Generator
import Verif.Props.Locales
import Verif.Props.Formats
import Verif.Props.GenData
import Verif.Props.GenFormulas
import Verif.Props.Counts
import Verif.Props.Names
import Verif.Props.Humanizer
import Verif.Props.Samples
import Verif.Props.PoHang
import Verif.Props.ErrorText
import Verif.Props.References
import Verif.Props.ReferencesExact
import Verif.Props.Isolation
import Verif.Props.Categories
import Verif.Props.JsonRefill
import Verif.Props.LocalizerExact
import Verif.Props.JsonExact
import Verif.Props.JsonRoundTrip
import Verif.Props.CldrOrder
import Verif.Props.PoMemory
import Verif.Props.Creation
import Verif.Props.Shared
import Verif.Props.PoSaving
import Verif.Props.PoPluralExact
import Verif.Props.Printers
import Verif.Props.PoLines
import Verif.Props.CommentLines
import Verif.Props.PluralLines
import Verif.Props.Examples
import Verif.Props.Adjacent
import Verif.Props.Previous
import Verif.Props.AcceptedFiles
import Verif.Props.Readers
import Verif.Props.MoReaders
import Verif.Props.TimeArgs
import Verif.Props.PoHeader
import Verif.Props.CldrRules
import Verif.Props.SharedPlurals
import Verif.Props.PoPluralText
import Verif.Props.CldrOperands
import Verif.Props.GeneratorScope
import Verif.Props.Walk
