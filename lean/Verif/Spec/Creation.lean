import Verif.Model.Spreak.Bundle
/-!
# When a bundle can be created

Read off the options of /repo/bundle.go:235-414 and their documentation, without the builder.
-/
namespace Verif.Spec.Creation
open Verif.Go Verif.Model.Spreak

variable {L N V : Type} [DecidableEq L]

/-- The languages that an option asks for, in their order; `true` for optional ones. -/
def asked : Opt L N → List (Bool × LangArg L)
  | .source t => [(false, .tag t)]
  | .fallback a => [(false, a)]
  | .language ls => ls.map fun a => (true, a)
  | .requiredLanguage ls => ls.map fun a => (false, a)
  | _ => []

/-- All languages that the options ask for, in their order. -/
def requests (opts : List (Opt L N)) : List (Bool × LangArg L) := opts.flatMap asked

/-- The source language: the last one that was set. -/
def sourceOf (w : World L N V) (opts : List (Opt L N)) : L :=
  opts.foldl (fun s o => match o with | .source t => t | _ => s) w.und

/-- The domain of a loader. -/
def domainOf : Opt L N → Option Bytes
  | .domainLoader d _ => some d
  | _ => none

/-- The options themselves are usable: none is nil or fails, no loader is nil, no domain has two. -/
structure Usable (opts : List (Opt L N)) : Prop where
  nil : .nil ∉ opts
  other : .other false ∉ opts
  loader : ∀ d, .domainLoader d none ∉ opts
  domains : (opts.filterMap domainOf).Nodup

/-- There is a catalog in some domain. -/
def Served (opts : List (Opt L N)) (t : L) : Prop := ∃ d ld c, .domainLoader d (some ld) ∈ opts ∧ ld t d = .ok c

/-- There is a catalog in every domain. -/
def Complete (opts : List (Opt L N)) (t : L) : Prop := ∀ d ld, .domainLoader d (some ld) ∈ opts → ∃ c, ld t d = .ok c

/-- In every domain there is a catalog or no file. -/
def Readable (opts : List (Opt L N)) (t : L) : Prop :=
  ∀ d ld, .domainLoader d (some ld) ∈ opts → (∃ c, ld t d = .ok c) ∨ ld t d = .error .notFound

/-- A request can be met.  `before` are the earlier requests. -/
def Met (w : World L N V) (opts : List (Opt L N)) (before : List (Bool × LangArg L)) (q : Bool × LangArg L) : Prop :=
  ∃ t, q.2.toTag w = .ok t ∧
    (q.1 = true → t = w.und ∨ t = sourceOf w opts ∨ Readable opts t) ∧
    (q.1 = false → t ≠ w.und ∧ (t = sourceOf w opts ∨
      (Served opts t ∧ (Complete opts t ∨ ∃ a, (true, a) ∈ before ∧ a.toTag w = .ok t))))

/-- The languages of the bundle after those of `langs`, if `a` is asked for: the source language each time, any other one once and
if it has a catalog (`has`). -/
def next (w : World L N V) (src : L) (has : L → Bool) (langs : List L) (a : LangArg L) : List L :=
  match a.toTag w with
  | .error _ => langs
  | .ok t => if t = w.und then langs else if t = src ∨ (t ∉ langs ∧ has t = true) then langs ++ [t] else langs

/-- One of the options is a loader with a catalog for the language. -/
def has (opts : List (Opt L N)) (t : L) : Bool := opts.any fun
  | .domainLoader d (some ld) => (ld t d).isOk
  | _ => false

/-- The languages of the bundle, in their order. -/
def languages (w : World L N V) (opts : List (Opt L N)) : List L :=
  ((requests opts).map Prod.snd).foldl (next w (sourceOf w opts) (has opts)) []

/-- A call of the printer. -/
def isPrinter : Event L → Bool
  | .missing _ => false
  | _ => true

end Verif.Spec.Creation
