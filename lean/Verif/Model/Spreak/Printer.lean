import Verif.Model.Spreak.Bundle
/-!
# Printers

Models /repo/utils.go:22-75 and the options of /repo/bundle.go:372-394.  `sprintf lang` is `message.NewPrinter(lang).Sprintf` of
golang.org/x/text, which is not modelled.  A printer is an object with a state; `getPrintFunc` does not change the state of the two
printers of the library, that of another printer may.  A printer that returns a nil function is not modelled.
-/
namespace Verif.Model.Spreak
open Verif.Go

variable {L V S : Type} [DecidableEq L]

/-- /repo/utils.go:22 `PrintFunc`. -/
abbrev PrintFunc (V : Type) := Bytes → List V → Bytes

/-- /repo/utils.go:26-29 `Printer`, an object with a state of type `S`. -/
structure Printer (L V S : Type) where
  init : S → List L → S
  getPrintFunc : S → L → PrintFunc V × S

/-- /repo/utils.go:56-65 `defaultPrintFunc`. -/
def defaultPrintFunc (sprintf : L → Bytes → List V → Bytes) (lang : L) : PrintFunc V := fun str vars =>
  if vars.length > 0 then sprintf lang str vars else str

/-- /repo/utils.go:42-45: the loop of `Init`. -/
def initLoop (sprintf : L → Bytes → List V → Bytes) (m : GoMap L (PrintFunc V)) : List L → GoMap L (PrintFunc V)
  | [] => m
  | lang :: langs => initLoop sprintf (m.set lang (defaultPrintFunc sprintf lang)) langs

/-- /repo/utils.go:31-54 `defaultPrinter`: the state is the map of print functions; a nil map has no entries. -/
def defaultPrinter (sprintf : L → Bytes → List V → Bytes) : Printer L V (GoMap L (PrintFunc V)) where
  init := fun _ langs => initLoop sprintf [] langs
  getPrintFunc := fun m lang =>
    match m.get? lang with
    | some f => (f, m)
    | none => (defaultPrintFunc sprintf lang, m)

/-- /repo/utils.go:35-39 `NewDefaultPrinter`. -/
def newDefaultPrinter : GoMap L (PrintFunc V) := []

/-- /repo/utils.go:67-75 `printFunctionWrapper`, which has no state but its function. -/
def printFunctionWrapper : Printer L V (PrintFunc V) where
  init := fun f _ => f
  getPrintFunc := fun f _ => (f, f)

/-- The calls of a printer in the order of the events: the languages asked for with the functions returned, and the state.  A locale
keeps the function it was given, /repo/locale.go:25,37. -/
def Printer.run (p : Printer L V S) (s : S) : List (Event L) → List (L × PrintFunc V) × S
  | [] => ([], s)
  | .init langs :: es => p.run (p.init s langs) es
  | .getPrintFunc lang :: es =>
    let r := p.getPrintFunc s lang
    let rest := p.run r.2 es
    ((lang, r.1) :: rest.1, rest.2)
  | .missing _ :: es => p.run s es

/-- An option that sets the printer: WithPrinter or WithPrintFunction; `none` is a nil argument. -/
inductive PrinterOpt (P V : Type)
  | printer (p : Option P)
  | function (f : Option (PrintFunc V))

/-- The printer of a bundle: the default printer, a function, or a printer of the caller. -/
inductive Chosen (P V : Type)
  | default
  | function (f : PrintFunc V)
  | custom (p : P)

/-- /repo/bundle.go:374-382, 385-394: one option; `none` is an error. -/
def Chosen.apply {P V : Type} (_ : Chosen P V) : PrinterOpt P V → Option (Chosen P V)
  | .printer none => none
  | .printer (some p) => some (.custom p)
  | .function none => none
  | .function (some f) => some (.function f)

/-- /repo/bundle.go:79, 95-102: the printer after all options. -/
def Chosen.applyAll {P V : Type} (c : Chosen P V) : List (PrinterOpt P V) → Option (Chosen P V)
  | [] => some c
  | o :: os => match c.apply o with
    | none => none
    | some c => c.applyAll os

end Verif.Model.Spreak
