# Formal model of vorlif/spreak in Lean 4

`properties.jsonl` lists the properties (C01 ...), `MANIFEST.json` maps each to
theorems, `seeded/LOG.jsonl` records attempts to break the theorems by editing
the model. Everything below `lean/Verif` is checked by `lake build`.

## Layout

* `Verif/Go/*`      Go run-time notions: byte strings, UTF-8, `strings` functions, outcomes.
* `Verif/Model/*`   the code, function by function; every definition cites file and lines.
* `Verif/Spec/*`    small specifications, written without using model helpers.
* `Verif/Proofs/*`  helper lemmas.
* `Verif/Props/*`   the property theorems, each followed by examples that meet its hypotheses.

## Modelling decisions

* A Go `string`/`[]byte` is `List UInt8`. `range` loops and `ReadRune` go through an
  explicit UTF-8 decoder (`Verif/Go/Utf8`) that yields U+FFFD for malformed bytes.
  Rule languages (gettext plural formulas, CLDR rules) are scanned rune by rune in the
  code and are modelled on `List Char`.
* `int`/`int64` are `Int` where no overflow can occur; where it matters overflow is modelled
  or excluded by an explicit hypothesis. `%` is truncated (`Int.tmod`).
* A `float64` is NaN, an infinity or `m * 2^e`; arithmetic is the exact rational result rounded to
  nearest, ties to even (`Verif/Go/Float.lean`, `Verif/Go/FloatOps.lean`). The sign of zero is not kept.
  Converting a value outside int64 is implementation-defined in Go and is a parameter `oor`.
* `time.Time` is Unix seconds, nanoseconds and a zone; dates follow the algorithm of Go 1.23
  (`Verif/Go/Time.lean`), including its uint64 arithmetic. There is no monotonic clock reading; where the code compares two
  times that both have one, Go compares the readings instead.
* Go maps are association lists; where code ranges over a map the iteration
  order is a parameter (any permutation) of the model.
* Panics, errors and non-termination are explicit outcomes, never defaults.
* Loops that may not terminate are given fuel; "hangs" means no fuel suffices.

## Plan per property

| id | modelled | proof |
|----|----------|-------|
| C01 | escape/unescape, both encoders, decode on bytes | invariant "emitted lines ++ buffers = consumed prefix", byte induction for unescape after escape |
| C02 | same | line invariant |
| C03 | unescape with fuel | false: witness trailing backslash, no fuel suffices; exact characterisation of the inputs that return as `_partial` |
| C04 | escape with panic outcome | false: witness; `_partial`: panics iff a control byte without named escape occurs |
| C05 | unescape | induction, output is a concatenation of rune encodings |
| C06 | wrapString | false for indented paragraphs (witness); `_partial`: non-space content kept always; words kept exactly if no line has leading blanks and a first word too long for them (invariant with the split word as a phase) |
| C07 | encoder, scanner, parser | token-level then line-level then file-level induction |
| C08 | parser | composition lemma for blank-line separated entries |
| C09 | parser | false: witness; follows from C08 when separated (`_partial`) |
| C10 | parser, buildGettextCatalog | false: witness; `_partial` for separated entries |
| C11 | line scanner with buffer limit | false: witness family; `_partial` for files with short lines |
| C12 | parser | induction over entries |
| C13 | parser | false: witness; `_partial` for ascending dense indices |
| C14 | sort + encoder over permutations | false: witness; `_partial` for a strict total order |
| C15 | Message/Comment/File merge | algebraic laws by induction |
| C16 | Header | case analysis over keys |
| C17 | MO parser on bytes + independent spec encoder | byte-level round trip |
| C18 | MO parser | false for truncated strings: witness; `_partial` |
| C19 | GettextCatalog | case analysis |
| C20 | buildGettextCatalog | induction over messages, permutation lemma |
| C21 | Messages() with nil dereference outcome | false: for every non-empty catalog it panics |
| C22 | buildGettextCatalog | false: Domain() is always empty |
| C23 | getCLDRPluralFunction + tables | table computation lifted by lemma |
| C24, C25, C26 | JSON catalog over abstract JSON values | map laws, permutation invariance, witnesses |
| C27-C32 | scanner, parser, AST, evaluator, compile, table of built-ins | structural induction, `omega` per built-in |
| C33-C38 | operands, rule table, rule parser, interpreter | structural induction, per-rule arithmetic |
| C39-C45 | bundle/localizer/locale over abstract tags, loaders and catalogs | decision logic, invariants over option lists |
| C46-C48 | loader, resolver, ExpandLanguage, parseLanguageName over abstract tag parts | list induction |
| C49-C58 | calendar and humanize arithmetic | induction, `omega` |

## Trusted base

* Lean's kernel. Axioms used by the theorems: only `propext`, `Classical.choice`, `Quot.sound`
  (checked with `#print axioms` for every property theorem; many need fewer).
* The reading of the Go code that the model embodies; nothing connects the model to the Go
  compiler. Each definition cites the lines it was written from.
* The standard library behaviour restated in `Verif/Go` and, for encoding/json, in the first half of
  `Verif/Model/Catalog/JsonText.lean`.

## What is modelled, and what was found

Each subsection lists the modelled code, what is left out, and where the code does not have the
property ("finding"); findings are theorems named `Cxx_negation`.

### PO strings (C01-C05) and comment wrapping (C06)

Modelled: `catalog/po/po_string.go` (`EncodePoString`, `DecodePoString`, escape, unescape) and
`catalog/po/wrap.go` on bytes/runes. Left out: nothing in these functions; `bytes.Buffer` is a list.

* C03: `DecodePoString` loops forever on a line that ends in a single backslash.
* C04: `EncodePoString` panics on control bytes without a named escape.
* C06: the first word of an indented line is split in two if blanks and word together are more than one
  character too long and the blanks alone do not fill the line (`C06_words_kept_iff`).
* The width given to `EncodePoString` is not a bound: the last word of a line is appended unchecked.

### Gettext plural formulas (C27-C32)

Modelled: `catalog/poplural/ast/*.go` (scanner, parser, `CompileToString`),
`catalog/poplural/rule.go`, `builtin.go`, `builtin_gen.go` (transcribed by script),
`internal/cast/number.go`. Texts are rune lists. `language.Tag` appears only as the list of
(tag text, base text) along the parent chain. `strconv.ParseFloat` and the conversion of
out-of-range floats to int64 are parameters. `%v`/`%d` of other kinds are part of the value.

* C27: a value is true only if it is 1, so `n ? 1 : 0` differs from C for n = 2.
  Exactly: the code computes the C value of the formula `strict e` (Verif/Spec/PoPlural.lean), for every formula (C27_exact, C27_any).
* C27: `x % 0` is 0; the operators `+ - * / !` and chains such as `n % 10 % 3` are rejected.
* C27: a NUL ends a token silently, `_` is accepted inside numerals and words, numerals saturate.
* C28: `CompileToString` drops parentheses in operands, so `n % (10 == 1) && n % 100 != 11` is
  replaced by the built-in for `n % 10 == 1 && n % 100 != 11`.
* C29: forms of parsed (not built-in) formulas are not checked against `nplurals`.
* C32: integers above 2^53 pass through float64 and may get the form of a neighbour; a typed nil
  pointer is taken as 0.

### CLDR plural rules (C33-C38, C59-C61, C101)

Modelled: `catalog/cldrplural/cldr.go` (operands), `evaluation.go` (interpreter), `ast/*.go` (scanner,
parser), `builtin.go`, `builtin_gen.go` (39 rule functions, transcribed by script),
`internal/util/compare.go`. The published rules (`Spec/CldrTable.lean`) are the texts quoted in
`evaluation_gen_test.go` with the languages of `builtin_gen_test.go`; `published_text` checks that each
condition is spelled like its text. Floats are `m * 2^e` with correct rounding of decimals
(`Verif/Go/Float.lean`). Parameters: `ParseFloat` outside plain decimals, the conversion of
out-of-range floats, the `%v` text of numbers. The regular expressions of the scanner are
written out as functions. `strings.ToLower` is modelled where it yields ASCII letters.
`Small d` (an integer below 2^53 with at most 18 zero decimals, or a number below 2^33 with at most 15 decimals that is at least 0.000002 away
from the integers) delimits the decimals for which float64 arithmetic and the tolerance are harmless.

* C34: floats are compared with a tolerance of 1e-6, so 1.0000001 counts as 1 (`C34_near_negation`: all numbers up to 1.0000009).
* C35: the text of an int64 has the operands of the integer exactly if a float64 holds it (C35_text_iff). The text `-1` keeps its
  sign in operand i; a float or unsigned integer of seven or more digits
  is printed by `%v` with an exponent and then refused; the smallest int64 stays negative.
* C36: only non-negative exponents; for a negative one the code drops the point (`1.5c-1` is 15).
* C37: overlapping rules are resolved by map order. The published French rules overlap for
  `0c6`; a rule for Other that has only samples always holds, so it competes with all others. C37_order_iff: harmless
  exactly if all rules that apply or panic say the same.
* C38: `i % 0 = 1` and `N = 1` are accepted and panic. A range up to the largest int64 loops forever. `C38_works_iff` (Props/CldrFaults.lean)
  says exactly when; `or` and `and` evaluate both sides.
* C60: a fraction of 19 or more digits may be refused: exactly the fractions that, read as a number, do not fit an int64 are
  (C60_accepted_iff).
* C61: a descending sample range (`@integer 5~3`) is enumerated forever, as is one whose ends have different numbers of places
  (`0.5~1.25`).  Exactly the ranges that go upwards end (`C61_range_iff`).

Samples (C101): `Spec/CldrSamples.lean` has the notation of UTS 35 for samples and what they stand for.  The proofs read the texts
of this grammar word by word, as for conditions.

### Which texts are CLDR rules (C121)

`Spec/CldrRules.lean` describes the accepted texts: how a text is split into words, which words are keywords, which words are joined
to a range, the numbers, the samples, and the grammar above them. C121 proves that the parser accepts exactly these and returns their
tree.

* `scan` of the parser (parser.go:333-341) has named results that are never assigned, so `scanNext` never sees an unknown token and its
  check is dead. Unknown tokens are rejected by the callers. Only the text of the error is affected.
* C121: the comment at parser.go:10-33 documents `is`, `in`, `within`, `not`, signs of samples, ranges that end in zero, and says
  that white space is optional. The parser rejects all of them. It accepts more in other places: numbers without commas, operands
  in capitals, numbers with leading zeros, samples without numbers.

ParseRules and the Must functions are in C121 too. A Must function panics exactly where the function it calls returns an error; a text
of a sample range can make both run without end, so the result of the model has three cases (returns, panics, does not return).

### Walking over a rule (C124)

Model/Cldr/Walk.lean has the nodes of ast.go one by one, `Walk` and `Inspect` for visitors with any state, and the two functions that use
`Inspect` with captured variables. The rest of the model has a range list as a list and folds over it; C124_evaluation and C124_generator
prove that this is the same. Not modelled: nil pointers in a non-nil interface, nodes that share children being changed by the visitor.

### Which texts are Plural-Forms (C123)

`Spec/PoPluralText.lean` describes the texts that the scanner and the parser of `catalog/poplural/ast` accept, with the two ways in
which they differ from the formulas of C27:

* A NUL character ends the text for the scanner, in the middle of a token or between tokens. What follows is not read.
* The scanner reads underscores as parts of numerals (scanner.go:116), but `Atoi` and `ParseInt` reject them and their error is dropped: the value is 0, or the largest int64 if the digits before the first underscore do not fit
  (C123_underscore). So `nplurals=1_0; plural=n;` is accepted and has no forms.

### Generators and generated files (C88-C91)

Modelled: `catalog/cldrplural/generator/compiler.go`, `ConvertToGo`, and `catalog/poplural/generator/compiler.go`. Their
output is Go text, so the statements need to say what Go text means: `Verif/Spec/GoCode.lean` specifies lexing,
automatic semicolons, the expression grammar, types and values of the part of Go the texts use. It is written from the
language specification and is trusted; `Proofs/GoCode.lean` proves that a text has at most one reading. Names in scope
are `goEnv` of the two models. `Verif/Model/*/GoText.lean` hold the texts of the two `builtin_gen.go` files, extracted by
a script and unchanged. Not modelled: templates, `gofmt`, names of functions and reading of the rule data
(`generator/main.go`, `generator/json.go`). That a text of the file is what gofmt makes of the generator's text is not
assumed; C90 and C91 are about the text in the file.

* C88: two ranges of an operand other than `n` become `isIntInRange(...)`, which is defined nowhere (C88_negation); the condition compiles exactly for the rules without (C88_compiles_iff). No
  published rule has them.
* C89: `n % (5 % 3) == 1` becomes `n%5%3 == 1` (C89_negation). With two plurals `n == 1 ? 0 : 1` becomes `if {`
  (C89_syntax_negation; `format.Source` then stops the generator). None of the formulas in use is like this (C91).
* C90: also checks the transcription in `Model/Cldr/Builtin.lean`: for all operands, the model of a function returns what
  its text says.

### What the generators write (C96, C97)

Model: Model/Gen/Groups.lean (grouping, names, labels, order; shared), Model/Cldr/GeneratorMain.lean
(catalog/cldrplural/generator/main.go, json.go), Model/PoPlural/GeneratorMain.lean (catalog/poplural/generator/main.go,
json.go, extra.go).  Spec: Spec/GenData.lean.  `plurals.json` is not in the repository; it is any list of languages
with data, in the order in which the map is visited.  `sort.Slice` is any sorted permutation.  `language.MustParse(l).String()`
is the parameter `canon`, `unicode.ToUpper` the parameter `upper` (known on a-z), SHA-256 the parameter `sha`; C96 needs
that `sha` tells the rules of the table apart (`Distinguished`), and C96_own_rules shows that this is exactly what is needed.
Trusted: JSON decoding and that the templates write down the data as they are.  Not modelled: test templates.

`Model/PoPlural/Examples.lean` models `extractExamples` (C115), the examples of the generated tests; it treats a range whose loop does not end as an
outcome of its own.  If several texts are bad, which of the two ends of the program comes first depends on the order of the map; C115_ok_iff only says
that there is no result.

* C115: `1,…` has the examples `1` and `…` (only ` …` with exactly one blank ends the list); a case that is not listed is dropped without a word.

Found:
* C96: the hash runs over the texts of all categories without separators, so `one: "X"` and `two: "X"` are the same rules;
  one of the languages then gets the rules of the other, depending on the order of the map (C96_negation).
* C97: rules are grouped by the formula alone; with different numbers of plurals the first language decides
  (C97_negation).  Formulas that differ in spaces only become two rules with one string: duplicate case, the file does
  not compile (C97_duplicate_negation).

### PO messages, headers and gettext catalogs (C15, C16, C19-C23, C62)

Modelled: `catalog/po/comment.go`, `message.go`, `file.go`, `catalog/po.go`, `catalog/po_decoder.go` from
`buildGettextCatalog` on. Maps are association lists (`Verif/Go/Map.lean`) whose order stands for one
iteration order; theorems quantify over it. Sorting is insertion sort (`Verif/Go/Sort.lean`); where the
order is total the result is unique. `unicode.ToUpper` and `SimpleFold` are parameters. Not modelled: nil
message pointers inside maps, and the zero value `GettextCatalog{}` (its nil plural function would panic).

* C15: comment lines that start with blanks are appended again by every merge.
* C16: `Set` trims values; `ToUpper` maps U+0131 to `I`, so `Set("Mıme-Version")` changes MIME-Version.
* C20: a hand-made file whose outer key differs from the context of a message panics with a write to a nil map.
* C21: `GettextCatalog.Messages()` reads from the copy it is filling and panics for every non-empty catalog.
* C22: the domain of a gettext catalog is never set, so its errors name the empty domain.
* C62: the documentation of `NewPoCLDRDecoder` promises a fallback to the header; the code uses English rules.

### JSON catalogs (C19, C22, C24-C26, C63-C66, C84, C85)

Modelled: `catalog/json.go`, `json_decoder.go`, `json_encoder.go`, first over trees (`Model/Catalog/Json.lean`), then over
the bytes that are read and written (`Model/Catalog/JsonText.lean`). Of package encoding/json (Go 1.23) the latter restates
quoting with HTML escapes, reading, compacting and indenting; the limit of 10000 nested values is left out. That the
restated quoting, layout and reading fit the grammar of JSON (`Spec/JsonText.lean`, written from RFC 8259) is proved (C84);
the reader accepts exactly that grammar, halves of surrogate pairs and invalid bytes included (C84_reader).
`unicode.ToLower` is a parameter; where needed it is assumed to keep a-z.

* C24: an empty text for Other is accepted; category numbers outside 0 to 5 stay in the message.
  C24_stored_iff: there is no other exception.
* C25: the keys `one` and `One` in one message are resolved by map order; this matters exactly if their values differ.
* C26: a lone text for another category than Other is written as an empty text; unknown categories vanish;
  with a comment and no named category the written JSON has a trailing comma and is refused. C26_round_trip_iff: every
  message that is not `Portable` is changed or refused.
* C63: filling one catalog twice may store a key in two contexts; `Messages()` then reports one of them. C63_iff: this is the only case.
* C64: an empty catalog is written as `{}`, which the decoder refuses. C64_round_trip_iff: of the other catalogs, exactly those
  with malformed UTF-8 in a key, a context or a text that lookups may ask for are changed; comments do not matter.
* C65: `MarshalJSON` adds an empty text to the caller's map if it is empty but not nil.
* C66: for the file `null` the decoder returns a nil catalog and no error.
* C84: the files of an empty catalog (`{}`) and of a nil catalog are refused; a message with a comment and no named category
  makes the whole catalog unwritable.
* C85: holds of every file the decoder accepts, without conditions on its content. The first saving drops the texts of
  categories the language does not use and adds empty ones for those it lacks (C85_negation).

### Bundles and localizers (C39-C45, C67-C70, C82)

Modelled: `bundle.go`, `locale.go`, `localizer.go`. Tags, numbers and printed values are arbitrary types; print
functions, plural functions, catalogs, loaders and the language matcher are parameters (a loader is a function:
equal calls give equal results). Lookups carry the list of callback reports; bundle creation carries the list of
callback, `GetPrintFunc` and `Init` events and an arbitrary iteration order for each loop over the loaders.
Pointer identity of locales is not modelled. The 16 methods of `KeyLocalizer` are two definitions with an optional
domain. The accessors (`HasDomain`, `CanLocalize`, ...) are in `Verif/Model/Spreak/Accessors.lean`. Not modelled: data
races.
Of the two definitions for `KeyLocalizer`, no theorem is about `KeyLocalizer.singular`: C70 covers the plural lookups only.

* C40: a nil catalog (JSON file `null`, C66) is stored and every lookup in it panics; C40_panics_iff: no other lookup panics.
* C41: a localizer for the fallback language asks the same catalog twice for a plural message and reports it twice.
* C43: `WithLanguage(de)` before `WithRequiredLanguage(de)` keeps an incomplete `de`; it is never missing (C43_required_exact).
* C44: an `ErrMissingLanguage` from a loader hides the hard error of another loader, depending on map order. If there is a
  bundle, the order changes at most `Domains` (C44_created, C44_domains_negation).
* C45: `GetPrintFunc` of every loaded language is called before `Init`, contrary to the documentation of `Printer`.
* C67: if no locale matched, errors stay untranslated even if the fallback language has the text.
* C69: a domain is listed although its only language was dropped again (loader with `ErrMissingLanguage`).
* C82: `SupportedLanguages` lists the source language, which has no catalog, contrary to its documentation; the lost
  domain of C69 also makes `CanLocalize` say yes without any catalog.
  Nothing else is wrong: C82_languages, C82_listed and C82_can_localize are for all loaders.

#### Creation and order of options (C108, C109)

Spec/Creation.lean reads off the options which languages they ask for; C108 says exactly when `NewBundle` succeeds and which languages the bundle has.
Loaders that return an `ErrMissingLanguage` of their own are excluded (C44_negation).

Found:
* A language that is optional first and required later need not be complete; with the options the other way round there is no bundle (C109_required_negation).
* With two source languages the last one counts, and the first one is then required like any other language (C109_source_negation).
* The source language is given to matcher and printer once for each time it is asked for (C108_languages).

#### Printers (C112)

`Verif/Model/Spreak/Printer.lean` models a printer as an object with a state, and the default printer and the wrapper of a print function as
two such objects.  The events of bundle creation (C45) are the calls.  C112_default justifies that `World.print` is one function per
language: for the default printer the order of the calls does not matter, although C45 is false.  `Sprintf` of golang.org/x/text is not modelled.

#### Lines of an encoded text (C113)

Spec/PoLines.lean cuts a paragraph into units (a word with the blanks behind it) and fills lines with them.  C113_lines proves that the encoder with
its three buffers does the same, so a change of any of its comparisons is noticed.  Before, only the text and the shape of the lines were proved
(C01, C02), and a program that breaks lines too late or at no-break spaces satisfied every theorem (seeded/LOG.jsonl).

* A word at the end of a paragraph is never moved to the next line: `"aa bbbbbb"` stays on one line at width 5.
* A first word that with its blanks leaves at most one character of the line free ends the line, even before the last word of the paragraph.

#### Lines of a wrapped comment (C114)

Spec/CommentLines.lean does the same for `wrapString`: a paragraph is a list of words with the blanks before them.  The code that keeps leading blanks
cuts the first word when the line is full, unless only one character is left over (that character is then added to the full line).  C06
says that characters are kept, exactly when words are kept, and that the width is respected.

#### What can be done to a bundle from outside (C110)

Model/Spreak/Shared.lean stores the languages and domains of a bundle as slices of a memory and has what callers can do: call `Domains` and `SupportedLanguages`
(which copy), append to slices they hold and write to their elements.  Catalogs and locales stay values: nothing of the API gives them out.

* `NewBundle` gives its own slice of languages to `Printer.Init` and to the maker of the matcher, without a copy.  One that keeps it and writes to it
  exchanges languages of the bundle (C110_negation): a localizer then gets another locale for the same request.

### Reading PO files (C08-C13, C71, C86, C87, C116, C117)

Modelled: `catalog/po/scanner.go`, `parser.go`, `token.go`, and `poDecoder.Decode` (`catalog/po_decoder.go:60-77`).
The scanner is a function from lines to tokens, the parser a function on the remaining tokens; a panic, `io.EOF`, an
error and an endless loop are separate outcomes. Regular expressions are written out as functions
(`Verif/Go/Text.lean`); `bufio.Scanner` is modelled with its limit of 65536 bytes for an in-memory reader.
Readers (C117): `Verif/Go/Reader.lean` has an `io.Reader` as the pieces it delivers and the error at the end, and
`bufio.Scanner` with its buffer (part of the trusted reading of the library); `Verif/Model/Po/Reading.lean` has `read` of
the scanner on it. Proved equal to the in-memory model, so that all claims about PO files hold for such readers.
`Verif/Model/Po/Machine.lean` models scanner and parser a second time, with every field of both (one line and one token
of memory, line number) and with the line number and line of an error; C86 proves that it refines the model on tokens,
for every history of the parser. Its loops take a number of steps, and the theorems hold for every number that is large
enough. Of an error text the line number and the line are modelled; the wording and `%q` are not.
The syntax of entries and the messages they stand for is `Verif/Spec/PoEntry.lean`; it covers all keywords,
continuation lines, indentation, `\r\n`, and the comment kinds `#`, `#.`, `#:`, `#,` (not `#|`).

* C09: two entries without a blank line between them are merged and the first is lost. The catalog decoder ignores
  comments, so there this happens also with a `#`, `#.` or `#:` line between the entries. `C09_exact` gives the messages of
  any sequence of entries (`Spec/Adjacent.lean`); `C09_kept_iff`: none is lost exactly if all are separated.
* C10: `#, fuzzy` directly after the previous entry is swallowed as its end; the fuzzy translation is served.
  `C10_served_iff` (entries that are separated) and `C10_exact` (any entries) say exactly what is served.
* C11: at a line of 65536 bytes or more the file ends without an error.
* C12: an unreadable header does not count, so a second one is accepted; an entry with a context and an empty id is
  taken as header. `C12_accepted_iff` says exactly which files of entries are accepted.
* C13: continuation lines go to the entry with index `len(Str)-1`, which is another one if indices are out of order;
  `msgstr[0]"x"` is accepted and its text lost. `C13_lines` gives the place of every line (`Spec/PluralLines.lean`), and
  `C13_right_iff` says exactly when the texts come out right.
* C117: an error of the reader is taken as the end of the file and not reported; the lines before it that are complete are
  decoded as if they were the file. The same happens after 101 empty reads.
* C116: a line `#| msgid_plural` counts as `#| msgid`, so the previous plural is added to the previous ID.
* C71: a text with an unescaped backslash before the closing quote hangs the parser (see C03). `C71_hangs_iff` says
  exactly which files hang, in terms of `Spec/PoHang.lean`: such a text behind `msgctxt`, `msgid`, `msgid_plural`,
  `msgstr` or `msgstr[i]`, on a line of its own below a line of a message, or (if comments are read) in a comment
  with a previous text, if what comes before is read without an error. It is not enough that a line looks like this:
  if an error is found earlier or the line is skipped, `Parse` returns; and `msgstr"a\"` (no white space) is cut off
  behind its opening quote and hangs only if there is another quote in the text.
* C87: the errors for a duplicate entry and a second header show the line after the entry, which belongs to the next
  entry if blank lines follow. `C87_entry_line`: in every file with such an error this line is not needed for it, or
  the end of the file has been reached (then the number of the last line is shown with an empty text).
* Seen, not stated as property: `#| msgid_plural` lines are appended to the previous msgid; two spaces in a `#:` line
  give an empty reference; a path with a colon is cut; comments followed by a blank line are dropped;
  `msgid<tab>"x"` is an error although the expression allows it.

### Writing PO files (C07, C14, C77, C83)

Modelled: `catalog/po/encoder.go` (`Marshal`, `Encoder` with all its options, `DefaultSortFunction`). Writing to the
`io.Writer` is left out: the result is what `encode` passes to `Write`. Messages are values; a sort function returns
the two messages as it leaves them, because `DefaultSortFunction` sorts flags and references in place. Nil messages in
the map are left out (the code would panic). `slices.SortFunc` is a parameter: C07 assumes that it permutes the slice
and touches elements only through the comparison (`Honest`), C14 that it also sorts if the comparison is a strict order
and does not compare a single element (`Sorts`, `Verif/Spec/PoSort.lean`). The insertion sort that package slices uses
for up to 12 elements meets both (`insertionSort_honest`, `insertionSort_sorts`); the rest of pdqsort is trusted.
What is read for a message that was written is `MessageRead` in `Verif/Spec/PoFile.lean`.

* C07: a message without translation 0 that has no plural id is written as `msgstr ` without quotes and makes the file
  unreadable; a plural message whose only translation has index 1 loses it (`msgstr[1] ""` overwrites it) and one with
  index 0 only gains an empty `msgstr[1]`; header values are written without escapes, a newline in one makes the file
  unreadable; columns of references, previous ids, outer white space of comment lines and empty extracted lines are
  lost; paths with spaces become several references; control characters panic (C04).
* C14: several unknown header fields are written in map order. `DefaultSortFunction` is not an order: it returns 0 for
  different messages with the same first reference, and messages with and without references can form a cycle.
  Flags are sorted only if the message happens to be compared with another one that has a comment. In all four cases
  the output depends on the iteration order of a map.
* C77: what does hold of `DefaultSortFunction`: it is antisymmetric, and different smallest references decide.
* C83: `PlaceholderHeader` without a copyright holder writes a line that ends in a space, which is lost; an address that
  ends in a backslash swallows the date; a line break in a name makes the file unreadable.

### The header that is written (C16, C120)

`Spec/PoHeader.lean` has the names of gettext and their order. C120 describes the text of every header.

* C120: values are written without escapes. A value with a quote and a newline character is read as further fields.

### Reading, writing and reading again (C80, C81)

No new code; the parser and the encoder together. C80 starts from any valid UTF-8 text that the parser accepts:
`parse_tidy` (`Verif/Proofs/Po/Tidy.lean`) says what is known of every file that was read, and `HoldableFile`
(`Verif/Spec/PoReread.lean`) which parts of such a file have a place in the output. For these files nothing is lost
(C80), and the second output is the first one byte for byte (C81).

* Lines `#| ...` are read and never written.
* Header values are written without escapes. A value that ends in a backslash (`"Language: d\\\n"` in the file) swallows
  the line break: the next field becomes part of the value, and every further save writes something else.
* A message with `msgstr[1]` only is read; the file that is written for it cannot be read.
* A text with a control character is read; `Marshal` then panics (C04).
* `a.go:0` loses its line; a message without `msgstr` gets an empty one.

### Reading MO files (C17, C18, C118)

Modelled: `internal/mo/parser.go` and `moDecoder.Decode` (`catalog/po_decoder.go:78-97`) for an in-memory reader.
The format is `Verif/Spec/Mo.lean`; the layout of the string area is arbitrary, strings may overlap or share a tail.
`Verif/Model/MoReading.lean` has the same parser on an `io.ReadSeeker` with short reads and failing calls, and `io.ReadAll` for
other readers (C118). Left out: error texts, readers that return bytes together with an error, memory exhaustion (the parser allocates what the file announces, up to
2^32 elements, before it looks at the file size).

* C17: an entry with a context and an empty id is dropped. Keys must be different (`msgfmt` guarantees this); an
  empty context is the same key as no context.
* C18: a string that starts inside the file and ends outside is accepted and completed with zero bytes
  (`bytes.Reader.Read` reports no error for a short read, the count is ignored).
* C118: `parser.read` ignores how many bytes `Read` delivered; with an `io.ReadSeeker` that delivers fewer than asked for,
  ids and texts end in zero bytes, without an error. `io.ReadFull` would be right (it is used for the numbers). The parser
  starts at the position of the reader, but the offsets are from the beginning of the file; C118 is for position 0.
* Seen: the two revision numbers are named the wrong way round for little-endian files (harmless, both must be 0 or
  1); lines of the header without a colon are skipped without a notice.

### Loading files (C46-C48, C72)

Modelled: `loader.go` (loader, its options, default resolver), `utils.go:77-160`. A file system is a constant function
from paths to files and directories; `path.Join` is written from the documentation of the standard library
(`Verif/Go/Path.lean`). The parts of a language tag (name, base, ISO 639-3 code, region, script) are arbitrary data,
`language.Parse` is not modelled. Decoders are arbitrary functions. Left out: error texts, errors of `Close`, file
systems that change while they are read.

* C46: the resolver only asks whether a path exists, so a directory `de.po` is taken for a catalog and hides `de.mo`.
  A decoder error that is `os.ErrNotExist` counts as a missing file (excluded by a hypothesis; the decoders of the
  library do not return it).
* C72: an option with a nil file system or resolver is accepted and has no effect.

### From the file to the text (C78, C79)

`Verif/Model/Spreak/Files.lean` puts the models together: decoders fill the decoder interface of the loader, catalogs
the catalog interface of the locales, and a loader of a bundle is any function that does what the modelled `Load` does
(`Behaves`; nothing is said of loads that end the program or do not return). A language is a pair of what the plural
rules and what the resolver see of it.

* C79: a loader that returns `ErrMissingLanguage` for one domain hides the failure of another loader. C79_no_failure: nothing
  else does.

### Calendar (C49, C50)

Modelled: all of `internal/calendar/calendar.go`, with the float64 arithmetic of `LeapDays` and the date
arithmetic of package `time`.

* C49: proved for years in (-2^52, 2^52]. Beyond 2^53 float64 merges neighbouring years:
  `LeapDays(2^53+3, 2^53+4)` is 1 although 2^53+3 is no leap year.
* C50: proved for the years that `time.Time` can hold. `time.Date` wraps around for others:
  `DaysInMonth(2^40, January)` is 14.
  Months outside of 1 to 12 are counted on into the neighbouring years (C50_any_month); `month - 1` must not overflow.

### Humanized numbers and sizes (C53, C54, C58)

Modelled: `humanize/numbers.go`, `humanize/helper.go:42-105`. The localizer is any set of functions, so a statement
about a text is one about the message, its arguments and the number that selects the plural form. How
`golang.org/x/text/message` prints an argument is not modelled; error texts are a parameter.

* C53: `Ordinal(math.MaxInt64)` panics on amd64: as a float64 it is 2^63. `Ordinal` indexes with `value % 10`; a number from 2^63 on (or NaN) converts to the smallest int64 on amd64, the
  index is -8 and the call panics. Integers pass through float64: `Ordinal(2^53+1)` is `9007199254740992nd`.
* C54: `FilesizeFormat(math.MinInt64)` negates to itself and is shown as `--9223372036854775808 bytes` (C54_min, for
  every platform).
* C58: `Apnumber(1.5)` is "one"; `Intword(1e40)` is "0.0 googol" because there is no word between decillion and googol.
  Between 10^6 and 10^36 the word is right for every float64 except the one nearest to 10^24.

### Elapsed time (C51, C52, C73)

Modelled: `humanize/date.go:180-386` (`TimeSince`, `TimeUntil`, their `From` variants and options), with
`sort.Search` as the library's binary search. The clock is a parameter. Texts are described by units and counts,
for every localizer; `WithTimeStrings` is not exported and is left to `NaturalTime`.

* C51: `floorDivision` rounds the quotient to three decimals before it takes the floor, so 3599 seconds are "1 hour" and
  31535999 seconds are "1 year" (C51_negation). The excess is at most 0.06% of the last unit (C51_bounds_partial).
  The check for adjacent units stops at the first gap: one day and 59 minutes are "1 day" (C51_gap_negation).
  A year is 365 days and leap days are subtracted by the calendar years at both ends: nine years from 1999 to 2008 are
  "8 years, 12 months" (C51_leap_negation).
* C73 needs bounds on the year of a time (Proofs/Humanize/Leap.lean): the correction never turns a negative difference
  into a positive one.

### NaturalTime (C55)

Modelled: `humanize/date.go:73-178`. The clock is read up to three times (`NaturalTime`, `cast.ToTime`, `TimeSince`);
each reading is its own parameter.

* C55: for a past time the seconds are truncated but the choice between minutes and hours uses rounded seconds. From
  3599.5 s up to 3600 s ago the text is "0 hours ago", for every localizer (C55_zero_hours).

### Arguments of the time functions (C119)

Modelled: `internal/cast/time.go` with `Indirect`; `Spec/TimeArg.lean` says for which time an argument stands. The readings of the
clock within `ToTime` and afterwards are different parameters. `Time.Add` does not reach its limit.

* C119: a number goes through float64, so 2^53 + 1 seconds are 2^53. Which integer an integer is taken for is described with
  `Spec/Held.lean` (integers with at most 53 significant binary digits), also for C32, C53, C54 and C58.
* A nil pointer, for instance a nil `*time.Time`, is printed as "0" by `ToNumber` and taken for 1 January 1970.
* `TimeSinceFrom(d, now)` counts a duration `d` from the clock and not from `now`.

### Date formats, NaturalDay and collections (C56, C57, C74-C76)

Modelled: `humanize/dateformat.go`, `humanize/dates.go`, `NaturalDay`, `FormatTime`, `Now`, `Time`, `Date` of
`humanize/date.go`, and `humanize/humanizer.go`, `humanize/locale.go` (`New`, the loader, `CreateHumanizer`). The layouts
of `Time.Format` the package uses are written out. `time.Local.String()` and `unicode.ToUpper` are parameters. Format data
are values (`New` changes the data of its caller in place, with the same result). A locale's file system is not nil.

* C56: a format that is not UTF-8 is not copied byte for byte (C56_invalid_negation). `M` indexes the first rune of the
  translated month name and panics on an empty translation (C56_panic_iff, C56_negation); gettext and JSON catalogs never
  return an empty translation, so the package's own catalogs cannot cause it (C56_catalogs).
* C57: the letter c appends the nanoseconds without padding (`%d`), so 50 ms are printed as `.50000000`.
* C74: four digits of the year only up to 9999; years before 0 come with a sign (`C74_year_iff` is exact).
* C75: the distance of two midnights is divided by 24 hours, so a day of 23 or 25 hours is no neighbour:
  on 31 March 2024 in Berlin, 1 April is "April 1, 2024" and not "tomorrow" (C75_negation).
* C76: the catalog of a locale registered for English is never read, since English is the source language; its
  formats are used.

### The locales that come with the humanizer (C92-C94)

Modelled: the 97 packages in `humanize/locale` as a table (`Verif/Model/Humanize/Locales.lean`): the name of the directory,
the language and the formats of `New`, and of `django.po` the names of months and days, the words for times of day, the
Plural-Forms header and which plural forms have a text. The table was written by a script from the sources and is trusted
to be what they say; the other messages are not in it. `M` in upper case is transcribed as Python's upper case of the first
letter; a theorem about an environment assumes that the environment has these texts (`Serves`).

* C92: "DATETIME_FORMAT" of Vietnamese has no letter for the hour. Hindi translates AM, PM, a.m. and p.m. with one
  word, so 3:00 and 15:00 are shown alike. Armenian has the same abbreviation for March and April and uses the default format,
  which abbreviates months.
* C93: `humanize/locale/lt` is a copy of the Latvian package (`package lv`, `language.MustParse("lv")`, Latvian formats) with
  the Lithuanian catalog. Registered alone, it serves Lithuanian texts to Latvian users; next to the Latvian package, one
  of the two is lost.
* C94: seven Hebrew messages (for instance "%[1]d byte") have three forms where the header declares four; for 3 and
  most other numbers the English text is shown.
* Not proved, because printing is not modelled: the Hebrew text for one billion and Arabic texts for bytes have no verb, so
  the number is not shown; Belarusian has `%(value).s`, which is no valid verb.

### Arguments in the texts of these locales (C98)

Model: Model/Humanize/Counts.lean (a transcription of the 8537 texts with arguments in the 97 files), Model/Humanize/Print.lean
(utils.go:55-66).  Spec: Spec/Counts.lean.  `Sprintf` of golang.org/x/text is not in the repository; it is modelled after its
documentation for directives without flags, width and precision, which are the only ones in these texts.  Everything else gives
`none`, about which nothing is claimed.  How a value is written in a language is a parameter.  That the localizer serves
the catalog is the hypothesis `Answers`; `catalogLoc` meets it.  Trusted: the transcription, and this reading of `Sprintf`.

Found:
* Serbian in Latin script has "pre minut" without number for the form of 1, 21, 31, …: 21 minutes ago reads as one
  minute ago (C98_serbian_negation).
* Belarusian has `%(value).s мільярд`, which is printed as `%!((string=1.0)value).s мільярд` (C98_belarusian_negation).
* Albanian ordinals are "-të" for every number that does not end in 1, Marathi ones "{वा}" for every number that ends in 9
  (C98_albanian_negation, C98_marathi_negation).

### Names of languages (C99)

Model: Model/Humanize/Names.lean (helper.go:14-35, helper_table.go, and a transcription of the 9700 names in the 97 files).
Spec: Spec/Names.lean.  That the localizer serves the names is the hypothesis `ServesNames`; `nameLoc` meets it.

Found:
* In eight locales two languages have the same name, for example Lithuanian and Latvian in Swedish, Welsh and Galician in
  Venezuelan Spanish, Finnish and Dutch in Khmer (`confusions`, C99_same_name_iff, C99_negation).
* The codes of the table are in small letters (`zh-hans`), so the code of a language tag with a region or script (`zh-Hans`)
  has no name (C99_tag_negation).
* The table has "Norwegian Bokmal", the catalogs "Norwegian Bokmål": the name is never translated (C99_norwegian_negation).

### From the file to the humanizer (C100)

`Model/Humanize/Localizer.lean` puts the pieces together: `createHumanizer` (humanizer.go:166-174) on the modelled collection and bundle,
`locOf`, the methods of the modelled localizer as the functions `Loc` that the models of the package use, and `builtinPlural`, the
plural function of the source locale.  `C100_says` goes from the bytes of `django.po` through parser, decoder, loader, bundle and
localizer to the printed text.  `contentB` checks that a text parses to a file with the texts transcribed for C92, C98 and C99; with
it these claims hold for the humanizers of a collection (`C100_checked`).  The check is proved for
/repo/humanize/locale/kab/django.po (`kab_content`), which is transcribed as a whole in `Model/Humanize/Kabyle.lean`.  For the other 96
files it was evaluated once with the Lean interpreter on the files in /repo: it succeeded for all; that is a test, not a proof.

The link showed that `Answers` was wrong in two points, which are corrected: a message without translation is printed by
the English locale, so numbers in it are written as in English, and the form is chosen for a number rounded to a float64, so the claim is
restricted to numbers up to 2^53.

### Texts of errors (C102)

Model: Model/Spreak/ErrorText.lean (catalog/catalog.go:39-134, utils.go:161-217, loader.go:107) and Go/Quote.lean (`strconv.Quote` and the
verb `%q`, from the documentation and source of strconv, with `strconv.IsPrint` as a parameter).

Found:
* In a context that a catalog does not have, lookups of all ids fail with the same text (C102_context_negation).
* The JSON catalog reports the key `id_context` as the id (C102_json_id_negation).
* The identifier of `NewErrNotFound` is printed as it is, with line breaks (C102_printable_negation, C102_printable_iff); the one of the file loader is quoted.

### References (C103)

Model: Model/Po/Reference.lean (comment.go:16-26), Model/Po/Parser.lean (parser.go:252-278). Spec/Reference.lean has the notation of the
manual of gettext.

Found:
* A path with a colon, as `C:\src\a.go:10`, is cut at the first colon and its line is lost (C103_windows_negation).
  Among paths without white space these are all that are read wrong: a line of references is read right exactly if no path has a
  colon, except for a leading one in a reference without a line (C103_read_iff).
  C103_read_all_iff is the same for arbitrary paths: in addition no path may have a blank, and no reference white space at its ends.
* A path with blanks is taken for several references, also between U+2068 and U+2069, as gettext writes it (C103_blank_negation);
  two blanks between references give a reference without a path (C103_two_blanks_negation).
* `Reference.String` prints `path:line:column`; the parser reads this as the path without a line (C103_string_read_negation). The encoder
  does not use `String`. C103_string_read_iff says which references are read back, C103_string_iff which have the same text.

### JSON catalogs in memory (C104, C105)

Model: Model/Catalog/JsonHeap.lean has catalog/json.go a second time with a heap: messages, maps of texts and maps of messages are objects
with addresses. Spec/Program.lean has the programs: a program has the addresses that it made, got from the package or read from
objects it has, may write anything to these objects, and may call the functions of the package. The operations are atomic (no data races), and
the maps of a catalog are values, as no pointer to them leaves the package. The proof keeps an invariant: the messages and maps of the
catalogs are disjoint from each other and from all that the program can reach. C104_new, C104_read and C104_fill_partial tie this model to the one
on values, which the other properties of JSON catalogs are about.

Found:
* `UnmarshalJSON` with an error leaves in the catalog what was set before the error (C104_failed_fill_negation).
* `ApplyPluralCategoriesToJSONMessage` writes to the map of the message in place (C105_apply); messages that share the map change, too.

### PO messages and comments in memory (C106, C107)

Model: Verif/Go/Slice.lean has slices (array, start, length, capacity), `append` with any growth, and sorting in place.
Model/Po/Memory.lean has catalog/po/{comment,message,file}.go a second time with a heap: comments, messages, the two levels of maps, files and the
arrays of references and flags have addresses. References and `Str` are values, as no function writes to them; nil messages and the
header are left out. Spec/Memory.lean says what it means to share no memory. The theorems tie this model to the one on values
(Model/Po/File.lean), which the other properties of PO files are about: they agree for messages that share no memory, which is what the parsers make.

Found:
* A message that is added to two files is one object: merging into it through one file changes the other (C106_two_files_negation), and a program
  that keeps a message it has added sees it change (C106_caller_negation). The documentation of `AddMessage` does not say so.
* A copy of a `Comment` (`*d = *c`) shares the arrays. `AddReference` on one writes into the room behind the references and sorts in place: the other then
  has the new reference and has lost its own last one (C107_copy_negation).
* `Merge` of comments of which one has a part of the references of the other can lose a reference (C107_overlap_negation).

#### Saving (C111)

Model/Po/Saving.lean has `Encode` on the heap of Model/Po/Memory.lean. `slices.SortFunc` is any decision tree (`Algo`): it asks for the comparison of two
messages of the file and goes on according to the result; every comparison may change the memory. The order in which Go visits the maps is part of the tree.

* `Encode` changes the file that it writes: the flags and references of compared comments are sorted where they are (C111_negation), so two
  goroutines must not encode the same file at the same time, and not files that share comments.
* Only compared comments are sorted, so a file with a single message is written with flags and references in the order they have (C111_single_negation).

### The two plural tables (C122)

No new code; `Verif/Spec/SharedPlurals.lean` says what it means that a numbering of forms and a naming of forms agree. The proofs go
through the 39 pairs of rules that belong to a language; which pairs these are is computed from the two tables by the kernel.

Found:
* Above 2^53 the CLDR rules that use `n` compute with a float64 and see another number (C122_large_negation: Latvian, 2^53 + 7).
* With the CLDR option of the PO decoder the index of a translation is the position among all categories, also those that only fractions
  have. For Czech, Slovak and Lithuanian this is not the index that the gettext rule of the same package gives (C122_position_negation),
  so a file with the usual three forms has no form for 5 in Czech.
* The table of poplural lists names with an underscore, which `language.Tag.String` never returns; those entries are never found through
  `ForLanguage`.

### PO and MO files of the same messages (C95)

No new code; `Verif/Spec/Compile.lean` states what a compiler such as msgfmt stores for the entries of a PO file (header and
translated entries that are not fuzzy, in any order).

* The PO parser drops the whole header when one of its lines is neither blank nor has a colon (parser.go 94-100, 293-297);
  the MO parser skips the line (mo/parser.go 236-244). The same messages then follow different plural rules
  (C95_header_negation).
* The PO parser takes every message with an empty id for a header, also one with a context, and rejects a second one
  (C95_context_negation); the MO parser keeps it as a message, which no lookup finds.
