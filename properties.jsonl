{"id": "C01", "title": "PO string round trip", "statement": "DecodePoString(EncodePoString(s, w)) == s: writing a text as a quoted PO string and reading it back loses, adds or reorders nothing, whatever the wrap width.", "quantifier": "every valid UTF-8 string s whose control characters all have a named PO escape (\\a \\b \\t \\n \\v \\f \\r), every int width w (negative, zero, positive)", "why_tests_cant": "The wrapping state machine keeps three buffers; a lost or swapped buffer shows only for particular spacings/widths, of which there are infinitely many.", "anchors": ["catalog/po/po_string.go:DecodePoString", "catalog/po/po_string.go:EncodePoString", "catalog/po/po_string.go:escapePoString", "catalog/po/po_string.go:unescapePoBytes"]}
{"id": "C02", "title": "Encoded PO string is a well-formed block of quoted lines", "statement": "Every line of EncodePoString(s, w) starts and ends with a double quote, contains no raw newline and no unescaped inner quote, and a multi-line result starts with the line \"\"; so it can be placed after a PO keyword and be read line by line.", "quantifier": "every such string s and every width w", "why_tests_cant": "Requires reasoning over every character sequence and every wrap decision.", "anchors": ["catalog/po/po_string.go:EncodePoString", "catalog/po/po_string.go:encodePoStringWithWrap", "catalog/po/po_string.go:encodePoStringWithoutWrap"]}
{"id": "C03", "title": "DecodePoString terminates on every input", "statement": "DecodePoString returns for every text, including text with dangling backslashes before the closing quote.", "quantifier": "every byte string", "why_tests_cant": "Termination for all inputs is not observable by finitely many runs; the hang needs one special ending.", "anchors": ["catalog/po/po_string.go:unescapePoBytes", "catalog/po/po_string.go:DecodePoString"]}
{"id": "C04", "title": "EncodePoString never panics", "statement": "EncodePoString returns a result for every string, in particular for strings with arbitrary control characters.", "quantifier": "every byte string and every width", "why_tests_cant": "Absence of a run-time panic must hold for every byte at every position.", "anchors": ["catalog/po/po_string.go:escapePoString"]}
{"id": "C05", "title": "Decoded PO strings are valid UTF-8", "statement": "Whenever DecodePoString returns, the result is valid UTF-8, even when the input contains malformed bytes, truncated sequences or surrogate encodings.", "quantifier": "every byte string on which decoding returns", "why_tests_cant": "Byte strings are unbounded; malformed sequences can be split by escapes at every position.", "anchors": ["catalog/po/po_string.go:unescapePoBytes"]}
{"id": "C06", "title": "Comment wrapping keeps the words", "statement": "Wrapping a comment to a page width neither drops, reorders, joins nor splits words: the sequence of whitespace-separated words of the wrapped lines is the word sequence of the comment.", "quantifier": "every comment text and every positive width", "why_tests_cant": "The failure needs a particular interplay of leading blanks and width.", "anchors": ["catalog/po/wrap.go:wrapString", "catalog/po/encoder.go:Encoder.encodeComment", "internal/util/string_buffer.go:StringBuffer"]}
{"id": "C07", "title": "PO file round trip", "statement": "Parsing the output of Marshal/Encoder.Encode for a file yields the same messages: same contexts, ids, plural ids, translations for every plural index, flags, references and comments.", "quantifier": "every file of well-formed messages, every wrap width", "why_tests_cant": "Files are unbounded sequences of messages with unbounded texts; the parser is a line oriented state machine with one token of look-back.", "anchors": ["catalog/po/encoder.go:Encoder.Encode", "catalog/po/parser.go:Parser.Parse", "catalog/po/scanner.go:scanner.scan"]}
{"id": "C08", "title": "Parsing is local to blank-line separated entries", "statement": "An entry surrounded by blank lines contributes exactly its own message, independent of what comes before and after it; the file is the union of its entries.", "quantifier": "every list of well-formed entries in every order", "why_tests_cant": "State may leak between entries for some history of tokens only.", "anchors": ["catalog/po/parser.go:Parser.parseMessage", "catalog/po/parser.go:Parser.unscan"]}
{"id": "C09", "title": "No entry is silently lost", "statement": "If Parse succeeds, every msgid block of the input ends up as a message of the file, even if entries are not separated by blank lines.", "quantifier": "every PO text accepted by the parser", "why_tests_cant": "A claim over all token sequences.", "anchors": ["catalog/po/parser.go:Parser.parseMessage"]}
{"id": "C10", "title": "The fuzzy mark is honoured", "statement": "An entry marked '#, fuzzy' is never served as a translation.", "quantifier": "every PO text, every position of the flag line relative to the previous entry", "why_tests_cant": "Depends on the token history before the flag line.", "anchors": ["catalog/po/parser.go:Parser.parseMessage", "catalog/po/parser.go:Parser.parseComment", "catalog/po_decoder.go:buildGettextCatalog"]}
{"id": "C11", "title": "Parse consumes the whole file or reports an error", "statement": "If Parse returns without an error, all lines of the input were taken into account.", "quantifier": "every input, every line length", "why_tests_cant": "Fails only for lines above an internal buffer limit.", "anchors": ["catalog/po/scanner.go:scanner.read"]}
{"id": "C12", "title": "Duplicate messages are rejected", "statement": "Parse fails if two entries share context and id, wherever they are in the file, and fails on a second header; otherwise no entry overwrites another.", "quantifier": "every sequence of entries", "why_tests_cant": "All orders and distances between the duplicates.", "anchors": ["catalog/po/parser.go:Parser.parseFile"]}
{"id": "C13", "title": "Plural texts land at their index", "statement": "The text given for msgstr[i], including its continuation lines, is the translation with index i.", "quantifier": "every set and order of plural indices and every number of continuation lines", "why_tests_cant": "Depends on the history of the indices that were seen before.", "anchors": ["catalog/po/parser.go:Parser.parseMessage"]}
{"id": "C14", "title": "Encoding is deterministic", "statement": "Encoding the same file twice gives byte-identical output although messages are stored in maps with random iteration order.", "quantifier": "every file, every pair of map iteration orders", "why_tests_cant": "Quantifies over iteration orders the runtime chooses.", "anchors": ["catalog/po/encoder.go:Encoder.Encode", "catalog/po/encoder.go:DefaultSortFunction"]}
{"id": "C15", "title": "AddMessage/Merge never loses or overwrites a translation", "statement": "Adding or merging a message keeps the translations already present, keeps all references/flags without duplicates, only fills missing plural ids, and merging the same message again changes nothing.", "quantifier": "every message pair and every history of additions", "why_tests_cant": "An invariant over all call histories.", "anchors": ["catalog/po/file.go:File.AddMessage", "catalog/po/message.go:Message.Merge", "catalog/po/comment.go:Comment.Merge"]}
{"id": "C16", "title": "Header Set/Get", "statement": "After Header.Set(k, v), Get(k') returns v for every spelling k' of k that differs only in letter case, and all other keys are unaffected.", "quantifier": "every key, value and previous header content", "why_tests_cant": "Unbounded keys/histories.", "anchors": ["catalog/po/file.go:Header.Set", "catalog/po/file.go:Header.Get"]}
{"id": "C17", "title": "MO files are read exactly", "statement": "For every well-formed MO image (either byte order, any layout of the string area) the parser returns exactly the messages encoded: context, id, plural id, and all plural translations.", "quantifier": "every list of messages, both byte orders, every layout of offsets", "why_tests_cant": "Offsets and lengths are arbitrary 32-bit numbers.", "anchors": ["internal/mo/parser.go:parser.parse"]}
{"id": "C18", "title": "Damaged MO files are rejected", "statement": "An image with wrong magic, unknown version or with tables/strings reaching beyond the end of the file is reported as an error, never read as data.", "quantifier": "every byte string", "why_tests_cant": "All truncation points and all offset values.", "anchors": ["internal/mo/parser.go:parser.parse", "internal/mo/parser.go:parser.read"]}
{"id": "C19", "title": "A successful catalog lookup yields a real translation", "statement": "Lookup/LookupPlural return either a non-empty translation stored for exactly that context, id and plural form, or the message id together with an error that says whether context, id or form is missing; they never panic and never return an empty text as success.", "quantifier": "every catalog, context, id and number", "why_tests_cant": "All catalogs and all plural functions, including ones whose result is out of range.", "anchors": ["catalog/po.go:GettextCatalog.Lookup", "catalog/po.go:GettextCatalog.LookupPlural", "catalog/po.go"]}
{"id": "C20", "title": "Catalogs built from PO files contain the non-fuzzy messages and nothing else", "statement": "After decoding, exactly the messages without fuzzy flag can be found, each with its translations.", "quantifier": "every parsed file in every map order", "why_tests_cant": "All files, all iteration orders.", "anchors": ["catalog/po_decoder.go:buildGettextCatalog"]}
{"id": "C21", "title": "Catalog dump is complete", "statement": "GettextCatalog.Messages() returns a copy of all messages of the catalog.", "quantifier": "every catalog", "why_tests_cant": "Must hold for every catalog; no test touches a non-empty one.", "anchors": ["catalog/po.go:GettextCatalog.Messages"]}
{"id": "C22", "title": "Catalogs know their domain", "statement": "The catalog returned by Decode(lang, domain, data) reports that domain, also in the errors it produces.", "quantifier": "every domain and file", "why_tests_cant": "Every domain; tests use domains but only assert translations.", "anchors": ["catalog/po_decoder.go:buildGettextCatalog", "catalog/po.go:GettextCatalog.Domain"]}
{"id": "C23", "title": "CLDR plural index of a gettext catalog", "statement": "With CLDR rules the plural index of a number is the position of its category in the language's ascending category list: it is always in range, and different categories get different indices.", "quantifier": "every language of the table and every number", "why_tests_cant": "All operands.", "anchors": ["catalog/po_decoder.go:getCLDRPluralFunction", "catalog/cldrplural/builtin_gen.go"]}
{"id": "C24", "title": "JSON catalogs store exactly the plural forms of the language", "statement": "Every stored message has a non-empty 'other' text and, unless it is a single-form message, exactly the categories of the catalog language; normalising twice changes nothing and caller-owned messages are not modified.", "quantifier": "every message map and category set", "why_tests_cant": "All maps of categories.", "anchors": ["catalog/json.go:jsonCatalog.setMessage", "catalog/json.go:applyCategoriesToJSONMessage"]}
{"id": "C25", "title": "Building a JSON catalog does not depend on map order", "statement": "Whether building succeeds and which translations can be looked up does not depend on the iteration order over the message map or over the keys of one JSON message.", "quantifier": "every message map and every pair of iteration orders", "why_tests_cant": "Quantifies over runtime-chosen iteration orders.", "anchors": ["catalog/json.go:NewJSONCatalogWithMessages", "catalog/json.go:JSONMessage.UnmarshalJSON"]}
{"id": "C26", "title": "JSON message round trip", "statement": "Unmarshalling the JSON written for a message gives back its comment, context and translations.", "quantifier": "every message", "why_tests_cant": "All combinations of set/unset forms.", "anchors": ["catalog/json.go:JSONMessage.MarshalJSON", "catalog/json.go:JSONMessage.UnmarshalJSON"]}
{"id": "C27", "title": "gettext plural formulas have C semantics", "statement": "The form computed for n by a parsed plural formula is the value of the formula under the C expression semantics that gettext defines (precedence, associativity, non-zero is true).", "quantifier": "every formula accepted by the parser and every n", "why_tests_cant": "All formulas times all n.", "anchors": ["catalog/poplural/ast/parser.go", "catalog/poplural/ast/compile.go", "catalog/poplural/rule.go:evaluateNode"]}
{"id": "C28", "title": "Replacing a formula by a built-in function does not change results", "statement": "If a plural formula is recognised as one of the built-in rules, the built-in function returns, for every n, what evaluating the formula would return.", "quantifier": "every formula whose normal form is in the table, every integer n", "why_tests_cant": "Unbounded n and unboundedly many source spellings per rule.", "anchors": ["catalog/poplural/builtin.go", "catalog/poplural/builtin_gen.go", "catalog/poplural/rule.go:Parse", "catalog/poplural/ast/compile.go:CompileToString"]}
{"id": "C29", "title": "Built-in plural forms are in range", "statement": "Every built-in gettext rule returns for every integer a form index between 0 and its number of plurals minus one.", "quantifier": "every rule of the table and every int64", "why_tests_cant": "All integers.", "anchors": ["catalog/poplural/builtin_gen.go"]}
{"id": "C30", "title": "The plural formula parser accepts every rendered formula with the intended meaning", "statement": "For every expression of the supported grammar, any rendering with arbitrary redundant parentheses and white space parses, and the parse evaluates like the expression; in particular chains of && and || of any length.", "quantifier": "every expression tree, every redundant bracketing, every chain length", "why_tests_cant": "Unbounded nesting; the parser re-associates chains by mutation.", "anchors": ["catalog/poplural/ast/parser.go:parser.logicalOrExpression", "catalog/poplural/ast/parser.go:parser.logicalAndExpression", "catalog/poplural/ast/scanner.go"]}
{"id": "C31", "title": "The plural formula parser is total", "statement": "Parsing any text as Plural-Forms value returns a rule or an error; it neither panics nor loops.", "quantifier": "every text", "why_tests_cant": "All texts.", "anchors": ["catalog/poplural/ast/parser.go:Parse", "catalog/poplural/ast/scanner.go:scanner.scan"]}
{"id": "C32", "title": "Sign and rounding of plural evaluation", "statement": "Rule.Evaluate(x) depends only on the half-even rounded absolute value of x, is total on numbers, and unsupported values are an error instead of a form.", "quantifier": "every number", "why_tests_cant": "All values.", "anchors": ["catalog/poplural/rule.go:Rule.Evaluate", "internal/cast/number.go:ToNumber"]}
{"id": "C33", "title": "CLDR category is one of the language's categories", "statement": "For every language rule set and every number the category returned is listed in the set's Categories, which are strictly ascending and contain Other.", "quantifier": "every rule set, every operand tuple", "why_tests_cant": "Operands range over unbounded numbers.", "anchors": ["catalog/cldrplural/builtin_gen.go", "catalog/cldrplural/cldr.go"]}
{"id": "C34", "title": "Built-in CLDR functions implement the CLDR rule text", "statement": "For every rule set the compiled Go function returns the category that the published CLDR rule text assigns.", "quantifier": "every rule set, every operand tuple", "why_tests_cant": "Unbounded operands; range lists and moduli have many boundaries.", "anchors": ["catalog/cldrplural/builtin_gen.go", "catalog/cldrplural/evaluation.go"]}
{"id": "C35", "title": "Plural operands do not depend on how the number is passed", "statement": "int, string and float representations of the same number, and n and -n, get the same operands and hence the same category.", "quantifier": "every integer, every representation", "why_tests_cant": "All integers and formats.", "anchors": ["catalog/cldrplural/cldr.go:NewOperands", "catalog/cldrplural/cldr.go:newOperandsString", "catalog/cldrplural/cldr.go:newOperandsInt"]}
{"id": "C36", "title": "Compact notation shifts the decimal point exactly", "statement": "For input <decimal>c<e> the operands are those of the decimal multiplied by ten to the power e.", "quantifier": "every decimal digit string and every non-negative exponent", "why_tests_cant": "Unbounded digit strings.", "anchors": ["catalog/cldrplural/cldr.go:shiftDecimalPoint", "catalog/cldrplural/cldr.go:newOperandsString"]}
{"id": "C37", "title": "Interpreted CLDR rules are deterministic", "statement": "Evaluating a rule set parsed with ParseRules gives the same category on every call although rules are kept in a map.", "quantifier": "every rule set, operand tuple and iteration order", "why_tests_cant": "Quantifies over map iteration orders.", "anchors": ["catalog/cldrplural/evaluation.go:ParseRules", "catalog/cldrplural/evaluation.go"]}
{"id": "C38", "title": "CLDR rule evaluation never panics", "statement": "Every rule accepted by the CLDR rule parser can be evaluated for every number without a panic.", "quantifier": "every rule text accepted, every operand tuple", "why_tests_cant": "All rule texts.", "anchors": ["catalog/cldrplural/evaluation.go", "catalog/cldrplural/ast/parser.go"]}
{"id": "C39", "title": "Lookup fallback order", "statement": "A localizer returns the translation of its own locale if present, otherwise that of the fallback language, otherwise the source text (singular or plural chosen by the source language rule).", "quantifier": "every bundle, localizer, domain, context, id and number", "why_tests_cant": "All combinations of loaded catalogs and missing entries.", "anchors": ["localizer.go:Localizer.lookupSingularTranslation", "localizer.go:Localizer.lookupPluralTranslation", "locale.go"]}
{"id": "C40", "title": "A text is always returned", "statement": "Every lookup method returns a text for every input, never panics, and the error-returning variants return an error exactly when the text is not a translation of the localizer's own language or its source text.", "quantifier": "every bundle state and request", "why_tests_cant": "All combinations.", "anchors": ["localizer.go", "locale.go:locale.lookupSingularTranslation", "locale.go:locale.lookupPluralTranslation"]}
{"id": "C41", "title": "Missing translations are reported once", "statement": "For one lookup the missing-translation callback is called at most once per locale consulted, and exactly when that locale misses the entry.", "quantifier": "every bundle and request", "why_tests_cant": "Depends on which of locale/fallback/source coincide.", "anchors": ["localizer.go:Localizer.lookupPluralTranslation", "locale.go"]}
{"id": "C42", "title": "Localize agrees with the Get family", "statement": "Localize(m)/LocalizeWithError(m) return the same as the Get/NGet/PGet/NPGet (DGet ...) call with the parts of m.", "quantifier": "every message and localizer", "why_tests_cant": "All combinations of set/unset parts.", "anchors": ["localizer.go:Localizer.Localize", "localize/types.go"]}
{"id": "C43", "title": "Bundle creation: required languages are complete", "statement": "If NewBundle succeeds, every required language other than the source language has a catalog for every domain; optional languages have at least one catalog; the source language is always present and served as source.", "quantifier": "every option list, every loader behaviour", "why_tests_cant": "All loader outcomes and option orders.", "anchors": ["bundle.go:NewBundle", "bundle.go:bundleBuilder.createLocale"]}
{"id": "C44", "title": "Bundle creation does not depend on map order", "statement": "Which languages are supported and what lookups return after NewBundle does not depend on the iteration order over the domain loaders.", "quantifier": "every set of domain loaders, every pair of iteration orders", "why_tests_cant": "Quantifies over iteration orders.", "anchors": ["bundle.go:bundleBuilder.createLocale", "bundle.go:bundleBuilder.preloadLanguages"]}
{"id": "C45", "title": "Printers are initialised before use", "statement": "A Printer given to the bundle gets Init called before GetPrintFunc is called.", "quantifier": "every option list that loads at least one language", "why_tests_cant": "Event order over all option lists.", "anchors": ["bundle.go:NewBundle", "locale.go:buildLocale"]}
{"id": "C46", "title": "File search order", "statement": "A filesystem loader opens the first existing file in the documented order: extension order first, then language spelling from most to least specific, then path pattern; it reports not-found exactly if no candidate exists.", "quantifier": "every file system content, every list of extensions/patterns/spellings", "why_tests_cant": "All file system states.", "anchors": ["loader.go:FilesystemLoader.Load", "loader.go:defaultResolver.Resolve"]}
{"id": "C47", "title": "ExpandLanguage is a duplicate-free list, most specific first", "statement": "ExpandLanguage lists every spelling once, longer spellings before shorter ones, ties in lexicographic order, and each regional/script spelling precedes the bare language.", "quantifier": "every language tag (any base/script/region)", "why_tests_cant": "All tags.", "anchors": ["utils.go:ExpandLanguage"]}
{"id": "C48", "title": "Language name normalisation", "statement": "Locale names with encoding/modifier suffixes (de_DE.UTF-8, de@euro, de:en) are reduced to the language part; names without such parts are unchanged and the operation is idempotent.", "quantifier": "every string", "why_tests_cant": "All strings.", "anchors": ["utils.go:parseLanguageName"]}
{"id": "C49", "title": "LeapDays counts leap years", "statement": "LeapDays(y1, y2) is the number of Gregorian leap years y with y1 <= y < y2.", "quantifier": "all integers y1 <= y2, including negative years", "why_tests_cant": "Unbounded years.", "anchors": ["internal/calendar/calendar.go"]}
{"id": "C50", "title": "DaysInMonth", "statement": "DaysInMonth(y, m) is the Gregorian month length for every year.", "quantifier": "every year and month", "why_tests_cant": "Unbounded years.", "anchors": ["internal/calendar/calendar.go"]}
{"id": "C51", "title": "TimeSince does not overstate", "statement": "The sum of the units displayed by TimeSince is at most the elapsed time and, with full depth, within a minute of it.", "quantifier": "every pair of times, every depth", "why_tests_cant": "All durations.", "anchors": ["humanize/date.go:Humanizer.TimeSince", "humanize/helper.go"]}
{"id": "C52", "title": "TimeSince shape", "statement": "TimeSince shows between one and depth units, in strictly descending and adjacent order, each with a positive count (or just '0 minutes').", "quantifier": "every elapsed time and depth >= 1", "why_tests_cant": "All durations.", "anchors": ["humanize/date.go:Humanizer.TimeSince"]}
{"id": "C53", "title": "Ordinal suffix", "statement": "Ordinal(n) picks the suffix by the last digit except for numbers ending in 11, 12, 13, for every non-negative n, and never panics.", "quantifier": "every number", "why_tests_cant": "All numbers incl. values beyond int64.", "anchors": ["humanize/numbers.go:Humanizer.Ordinal"]}
{"id": "C54", "title": "FilesizeFormat", "statement": "FilesizeFormat picks the largest binary unit not exceeding the size, and formatting -n is formatting n with a minus sign.", "quantifier": "every int64", "why_tests_cant": "All sizes, in particular unit boundaries and the minimum.", "anchors": ["humanize/helper.go:Humanizer.FilesizeFormat"]}
{"id": "C55", "title": "NaturalTime", "statement": "For times within a day NaturalTime reports a positive count of the unit it uses (never '0 hours ago').", "quantifier": "every time difference in nanoseconds", "why_tests_cant": "Fails only in half-second windows.", "anchors": ["humanize/date.go:Humanizer.NaturalTime"]}
{"id": "C56", "title": "Date format escaping", "statement": "In a date format every character that is no format letter and every backslash-escaped character is copied verbatim; formatting never panics.", "quantifier": "every format string and time", "why_tests_cant": "All format strings.", "anchors": ["humanize/dateformat.go"]}
{"id": "C57", "title": "ISO 8601 output is the formatted instant", "statement": "Format letter 'c' renders the fraction of a second as six-digit microseconds, so the output denotes the formatted time.", "quantifier": "every time with sub-second part", "why_tests_cant": "All nanosecond values.", "anchors": ["humanize/dateformat.go"]}
{"id": "C58", "title": "Apnumber and Intword", "statement": "Apnumber spells out exactly 1..9 and otherwise prints the number; Intword uses the largest power word not exceeding the number, with the plural form of the magnitude of the quotient rounded up.", "quantifier": "every number", "why_tests_cant": "All numbers.", "anchors": ["humanize/numbers.go"]}
{"id": "C59", "title": "CLDR rule texts mean what UTS 35 says", "statement": "Every condition of the UTS 35 grammar (spelled as in the CLDR data) is accepted by the rule parser and holds for a decimal number exactly if UTS 35 says so.", "quantifier": "every condition with numbers below 2^53, every decimal that float64 represents exactly or with at most five decimals below 2^33", "why_tests_cant": "Unbounded rule texts and numbers.", "anchors": ["catalog/cldrplural/ast/parser.go", "catalog/cldrplural/ast/scanner.go", "catalog/cldrplural/evaluation.go"]}
{"id": "C60", "title": "Operands of decimal texts follow UTS 35", "statement": "For every decimal text the operands i, v, w, f, t are those that UTS 35 defines and n equals the number.", "quantifier": "every digit string with or without a fraction", "why_tests_cant": "Unbounded digit strings; failures start at 19 digits.", "anchors": ["catalog/cldrplural/cldr.go:newOperandsString"]}
{"id": "C61", "title": "The CLDR rule parser terminates", "statement": "Parsing a rule text returns for every text.", "quantifier": "every text", "why_tests_cant": "Non-termination cannot be observed by a test.", "anchors": ["catalog/cldrplural/ast/parser.go"]}
{"id": "C62", "title": "CLDR decoder picks the plural rule of the language", "statement": "A decoder made by NewPoCLDRDecoder uses the CLDR rule of the language; for a language without CLDR rules it falls back to the Plural-Forms header, as its documentation says.", "quantifier": "every language, header and file", "why_tests_cant": "Depends on languages outside the CLDR table.", "anchors": ["catalog/po_decoder.go:NewPoCLDRDecoder", "catalog/po_decoder.go:buildGettextCatalog"]}
{"id": "C63", "title": "JSON catalog dump is complete", "statement": "Messages() of a JSON catalog contains every stored message, so building a catalog from it gives the same lookups.", "quantifier": "every catalog and iteration order", "why_tests_cant": "All message maps and map orders.", "anchors": ["catalog/json.go:jsonCatalog.Messages", "catalog/json.go:NewJSONCatalogWithMessages"]}
{"id": "C64", "title": "JSON catalog round trip", "statement": "Decoding the JSON written for a catalog gives a catalog with the same lookups.", "quantifier": "every catalog and iteration order", "why_tests_cant": "All message maps and map orders.", "anchors": ["catalog/json.go:jsonCatalog.MarshalJSON", "catalog/json.go:jsonCatalog.UnmarshalJSON"]}
{"id": "C65", "title": "Writing a JSON message does not change it", "statement": "MarshalJSON leaves the message of the caller unchanged.", "quantifier": "every message", "why_tests_cant": "Aliasing of the map shows only for empty maps.", "anchors": ["catalog/json.go:JSONMessage.MarshalJSON"]}
{"id": "C66", "title": "JSON decoding returns a catalog or an error", "statement": "JSONDecoder.Decode never returns a nil catalog without an error.", "quantifier": "every JSON text", "why_tests_cant": "All JSON texts.", "anchors": ["catalog/json_decoder.go:JSONDecoder.Decode"]}
{"id": "C67", "title": "LocalizeError wraps the translation", "statement": "LocalizeError returns the error itself, or an error whose text is the translation of the message under the error context, and translates exactly if the localizer's own locale has a text.", "quantifier": "every error and localizer", "why_tests_cant": "All combinations of found and missing locales.", "anchors": ["localizer.go:Localizer.LocalizeError"]}
{"id": "C68", "title": "A localizer serves the matched language", "statement": "NewLocalizer gives a localizer for the language the matcher chose; without a match it uses the fallback locale.", "quantifier": "every bundle, matcher and list of languages", "why_tests_cant": "All matchers and bundles.", "anchors": ["localizer.go:NewLocalizerForDomain", "localizer.go:newLocalizerFromTag"]}
{"id": "C69", "title": "Domains and languages of a bundle", "statement": "The languages given to matcher and printer are those with a locale; Domains lists once each domain with a catalog in at least one language.", "quantifier": "every option list and loader behaviour", "why_tests_cant": "All loader outcomes.", "anchors": ["bundle.go:Bundle.Domains", "bundle.go:Bundle.SupportedLanguages"]}
{"id": "C70", "title": "KeyLocalizer returns the key if nothing is found", "statement": "A plural lookup by key gives the catalog's text for the number, or the key itself whatever the number.", "quantifier": "every bundle, key and number", "why_tests_cant": "All numbers and rules.", "anchors": ["localizer.go:KeyLocalizer"]}
{"id": "C71", "title": "Parse always returns", "statement": "Parse never panics and always returns, whatever the input.", "quantifier": "every byte string", "why_tests_cant": "The inputs that hang are texts with a backslash in front of the closing quote; fuzzing would need a timeout to notice.", "anchors": ["catalog/po/parser.go:Parser.Parse", "catalog/po/scanner.go:scanner.scan"]}
{"id": "C72", "title": "Creating a filesystem loader", "statement": "NewFilesystemLoader succeeds exactly if a file system is given and neither a nil option nor a second file system or resolver; the decoders are those given, in their order, or PO, MO and JSON; Load uses for each extension its own decoder and never panics.", "quantifier": "every list of options, every resolver", "why_tests_cant": "All option sequences.", "anchors": ["loader.go:NewFilesystemLoader", "loader.go:FilesystemLoader.Load"]}
{"id": "C73", "title": "TimeSince of a time that is not past", "statement": "TimeSince of a time that is not before now, and TimeUntil of a time that is not after now, is '0 minutes', whatever the zones and the leap days in between.", "quantifier": "every pair of times within 2^62 seconds, every option", "why_tests_cant": "The leap day correction is subtracted from a negative difference; a wrong sign shows only over particular years.", "anchors": ["humanize/date.go:Humanizer.TimeSince", "humanize/date.go:Humanizer.TimeUntil"]}
{"id": "C74", "title": "Every format letter of a date", "statement": "Each letter of a date format prints its part of the date: day and month numbers, names, the English ordinal suffix, year, ISO week and year, day of the year, clock and zone parts.", "quantifier": "every time within 2^62 seconds, every zone and localizer", "why_tests_cant": "Twelve hour clocks, ISO weeks at the turn of the year and century years are easy to get wrong on single days.", "anchors": ["humanize/dateformat.go:timeFormatter.format", "humanize/dates.go"]}
{"id": "C75", "title": "NaturalDay names today, tomorrow and yesterday", "statement": "NaturalDay says today, tomorrow or yesterday exactly for the calendar day of now, the next and the previous one in the zone of the given time, and formats any other day as a date.", "quantifier": "every pair of times, every zone", "why_tests_cant": "Days that are not 24 hours long occur twice a year.", "anchors": ["humanize/date.go:Humanizer.NaturalDay"]}
{"id": "C76", "title": "A humanizer has complete formats", "statement": "FormatTime applies the format a keyword names and any other text as a format; a humanizer uses the formats of the last locale registered for its language with gaps filled from the fallback; New fails exactly for a locale file that cannot be decoded, and supports English and the languages with a catalog.", "quantifier": "every list of locales, every iteration order, every decoder", "why_tests_cant": "All combinations of gaps, repeated languages and map orders.", "anchors": ["humanize/humanizer.go:New", "humanize/humanizer.go:Collection.CreateHumanizer", "humanize/humanizer.go:FormatData.setDefaults", "humanize/date.go:Humanizer.FormatTime", "humanize/locale.go:localeLoader.Load"]}
{"id": "C77", "title": "The default order of messages", "statement": "DefaultSortFunction changes its sign if the messages are exchanged; different smallest references decide by path, line and column; without references in one of the messages context and id decide; a file whose messages all have different smallest references is written in the order of these references.", "quantifier": "every pair of messages, every file, every sorting algorithm", "why_tests_cant": "Three-way comparisons with one wrong branch still sort most lists.", "anchors": ["catalog/po/encoder.go:DefaultSortFunction", "catalog/po/encoder.go:Encoder.Encode"]}
{"id": "C78", "title": "From the file to the text", "statement": "If a bundle is created with a loader that reads a file system, a localizer for a supported language returns without error exactly the translations that the first existing file for language and domain has: for PO, MO and JSON files, chosen by the plural rule of the file or of the language, and also for files that were written by the encoder of the package.", "quantifier": "every bundle, every option sequence, file system, content and lookup", "why_tests_cant": "Composition of resolver, decoder, catalog, bundle and localizer over all file contents.", "anchors": ["loader.go:FilesystemLoader.Load", "catalog/po_decoder.go:poDecoder.DecodeReader", "catalog/po_decoder.go:moDecoder.DecodeReader", "catalog/json_decoder.go:JSONDecoder.Decode", "bundle.go:NewBundle", "locale.go:locale.lookupSingularTranslation", "locale.go:locale.lookupPluralTranslation"]}
{"id": "C79", "title": "No load failure is passed over", "statement": "If NewBundle succeeds, the loaders of all requested languages returned a catalog or 'not found' (ErrMissingLanguage excepted); a file that exists and cannot be decoded prevents the creation of every bundle that asks for its language.", "quantifier": "every option sequence, loader and iteration order", "why_tests_cant": "Which failure is hidden depends on the order of loaders and options.", "anchors": ["bundle.go:NewBundle", "bundle.go:bundleBuilder.preloadLanguages", "bundle.go:bundleBuilder.createLocale", "loader.go:FilesystemLoader.Load"]}
{"id": "C80", "title": "Reading, writing and reading again", "statement": "A PO file that was read is written without a panic, and reading what was written gives the same file again: the header with its fields and its comment, and all messages with texts, translations and comments.", "quantifier": "every valid UTF-8 text the parser accepts whose parts all have a place in the output, every encoder that writes header and references and does not wrap, every sorting algorithm", "why_tests_cant": "What the parser accepts is much more than what the encoder writes; every normal form the parser produces must be one the encoder keeps.", "anchors": ["catalog/po/parser.go:Parse", "catalog/po/encoder.go:Encoder.Encode", "catalog/po/encoder.go:Marshal"]}
{"id": "C81", "title": "Saving again changes nothing", "statement": "If a PO file is read, written, read and written again, the second text is the first one byte for byte.", "quantifier": "every valid UTF-8 text the parser accepts, under the conditions of C80 and if the default order puts the messages in a fixed order; every pair of sorting algorithms", "why_tests_cant": "Stability concerns the composition of parser, sort function and encoder for all files.", "anchors": ["catalog/po/parser.go:Parse", "catalog/po/encoder.go:Encoder.Encode", "catalog/po/encoder.go:DefaultSortFunction", "catalog/po/encoder.go:Marshal"]}
{"id": "C82", "title": "What bundles and localizers say is true", "statement": "HasDomain, Domains, HasLocale, Language, CanLocalize, SupportedLanguages and IsLanguageSupported agree with what lookups and new localizers do: a domain that is reported as present is never reported missing, one that is absent always is; a localizer has a locale exactly if the language is supported, and then its language is a supported one; CanLocalize says whether there is a catalog.", "quantifier": "every option sequence, loader, matcher and lookup", "why_tests_cant": "The accessors and the lookups read different parts of the state; that they agree concerns all ways to build a bundle.", "anchors": ["bundle.go:Bundle.CanLocalize", "bundle.go:Bundle.SupportedLanguages", "bundle.go:Bundle.IsLanguageSupported", "localizer.go:Localizer.HasDomain", "localizer.go:Localizer.Domains", "localizer.go:Localizer.HasLocale", "localizer.go:Localizer.Language", "localizer.go:NewLocalizer", "localizer.go:NewKeyLocalizer"]}
{"id": "C83", "title": "The placeholder header survives", "statement": "A file with the header of PlaceholderHeader is written and read back with exactly the same header: package name, address, date and comment, whatever the time and zone.", "quantifier": "every time and zone, all names that are one trimmed line without quotes and backslashes, every set of messages", "why_tests_cant": "The date depends on the clock and the zone; names come from the user.", "anchors": ["catalog/po/file.go:PlaceholderHeader", "catalog/po/encoder.go:Encoder.Encode", "catalog/po/parser.go:Parse"]}
{"id": "C84", "title": "JSON files are written as the tree they stand for", "statement": "The text of a JSON message or catalog is JSON for exactly the tree of its texts (or an error if there is none), laid out with one member per line, valid UTF-8 and free of bytes with a meaning in HTML; the decoder reads that tree back, so a written catalog gives the same lookups.", "quantifier": "every catalog, every text including invalid UTF-8, every order of map iteration", "why_tests_cant": "Escapes, surrogates, separators and the hand-written MarshalJSON interact for all byte strings.", "anchors": ["catalog/json.go:jsonCatalog.MarshalJSON", "catalog/json.go:JSONMessage.MarshalJSON", "catalog/json_encoder.go:JSONEncoder.Encode", "catalog/json_decoder.go:JSONDecoder.Decode"]}
{"id": "C85", "title": "Saving a JSON file that was read", "statement": "Every file the JSON decoder accepts can be written; what is written is accepted again and gives the same lookups, and saving that once more gives the same bytes.", "quantifier": "every file content, every order of map iteration at each step", "why_tests_cant": "Concerns all files an author may write, with all spellings of keys, escapes, duplicates and missing categories.", "anchors": ["catalog/json_decoder.go:JSONDecoder.Decode", "catalog/json_encoder.go:JSONEncoder.Encode", "catalog/json.go:jsonCatalog.UnmarshalJSON", "catalog/json.go:jsonCatalog.MarshalJSON", "catalog/json.go:applyCategoriesToJSONMessage"]}
{"id": "C86", "title": "A parser can be used again", "statement": "Parse gives the same result whether the parser is new or was used before: for other files, with other settings, ending with a result, an error or a panic. Parse keeps the setting of SetIgnoreComments.", "quantifier": "every sequence of calls of SetIgnoreComments and Parse, every content", "why_tests_cant": "The parser keeps a token, a literal, a line and flags between calls; a leftover shows only after particular sequences.", "anchors": ["catalog/po/parser.go:Parser.Parse", "catalog/po/parser.go:Parser.reset", "catalog/po/parser.go:Parser.scan", "catalog/po/parser.go:Parser.unscan", "catalog/po/scanner.go:scanner.scan", "catalog/po/scanner.go:scanner.read", "catalog/po/scanner.go:scanner.unread"]}
{"id": "C87", "title": "Parse errors show the offending line", "statement": "The line number (and line) in an error of Parse is that of the line at fault: every file that starts with the lines up to it is rejected for the same reason, and no shorter beginning is.", "quantifier": "every file, every history of the parser", "why_tests_cant": "The scanner reads ahead over blank lines and the parser puts tokens back, so the line number may be off for particular layouts.", "anchors": ["catalog/po/parser.go:Parser.buildPosError", "catalog/po/parser.go:Parser.parseFile", "catalog/po/parser.go:Parser.parseMessage", "catalog/po/scanner.go:scanner.scanWhitespace", "catalog/po/scanner.go:scanner.currentLine"]}
{"id": "C88", "title": "Generated CLDR conditions mean the rule", "statement": "The Go condition that the generator writes for a CLDR plural rule compiles and is true exactly for the numbers for which the rule holds by UTS 35.", "quantifier": "every rule of the UTS 35 grammar, every decimal that a float64 holds exactly enough", "why_tests_cant": "Parentheses, negation, ranges and lists combine in unboundedly many ways, and a generated file shows only the rules of one CLDR version.", "anchors": ["catalog/cldrplural/generator/compiler.go:compileNode", "catalog/cldrplural/generator/compiler.go:goOperandName", "catalog/cldrplural/generator/main.go:ConvertToGo", "catalog/cldrplural/ast/walk.go:Walk"]}
{"id": "C89", "title": "Generated gettext functions compute the formula", "statement": "The Go function that the generator writes for a Plural-Forms value compiles and returns the value of the C expression for every n.", "quantifier": "every formula, every int64", "why_tests_cant": "Precedence and nesting differ between C formulas and the generated statements; only all expressions show a lost parenthesis.", "anchors": ["catalog/poplural/generator/compiler.go:newRuleData", "catalog/poplural/generator/compiler.go:compileForms", "catalog/poplural/generator/compiler.go:compileBinaryPluralNode", "catalog/poplural/generator/compiler.go:compileNode"]}
{"id": "C90", "title": "The generated CLDR file follows the published rules", "statement": "The text of every function in builtin_gen.go, read as Go, chooses the category of the published rules of its languages, and is what the model of the function returns.", "quantifier": "every function of the file, every decimal that a float64 holds exactly enough (the model: all operands)", "why_tests_cant": "The functions have infinitely many arguments; the model could have been transcribed wrongly.", "anchors": ["catalog/cldrplural/builtin_gen.go:getBuiltInForLanguage", "catalog/cldrplural/evaluation.go:isFloatInRange", "catalog/cldrplural/evaluation.go:isFloatOneOf"]}
{"id": "C91", "title": "The generated gettext file computes the formulas", "statement": "The text of every function in builtin_gen.go, read as Go, compiles and returns the value in C of the formula it is for, and the table of raw rules leads from every formula to its function.", "quantifier": "every function of the file, every int64", "why_tests_cant": "The functions have infinitely many arguments; the model could have been transcribed wrongly.", "anchors": ["catalog/poplural/builtin_gen.go:getBuiltInForRawRule"]}
{"id": "C92", "title": "Shipped formats tell dates apart", "statement": "In every locale that comes with the humanizer, two times that a format shows with the same text agree on what the format is for: the date, the time of day, both, the month of a year, the day of a month.", "quantifier": "every locale package, each of its seven formats, all times in the years 0 to 9999, every environment that has the texts of the locale", "why_tests_cant": "97 locales times 7 formats times all pairs of times; whether names and digits run into each other depends on the translations.", "anchors": ["humanize/dateformat.go:DateFormatter.Format", "humanize/date.go:Humanizer.FormatTime", "humanize/humanizer.go:FormatData.setDefaults", "humanize/locale/vi/locale.go:New", "humanize/locale/hi/locale.go:New", "humanize/locale/hy/locale.go:New"]}
{"id": "C93", "title": "Locale packages register their own language", "statement": "The package in the directory of a language registers that language, and in a collection of packages a humanizer for the language of a directory uses the formats and texts of the package in it.", "quantifier": "every locale package, every collection of packages in every order, every visiting order of the map", "why_tests_cant": "There are 2^97 collections; a package that registers the wrong language shows only with another package beside it.", "anchors": ["humanize/locale/lt/locale.go:New", "humanize/locale/lv/locale.go:New", "humanize/humanizer.go:New", "humanize/locale.go:newLoader"]}
{"id": "C94", "title": "Shipped catalogs have a text for every number", "statement": "The plural rule in the catalog of every locale is accepted and chooses for every number one of the declared forms, and every plural message that is translated has a text for it.", "quantifier": "every locale package, every integer", "why_tests_cant": "A missing form shows only for the numbers that choose it, in one of 97 catalogs.", "anchors": ["humanize/locale/he/django.po:Plural-Forms", "catalog/poplural/rule.go:Parse", "catalog/po.go:GettextCatalog.getMessage"]}
{"id": "C95", "title": "PO and MO files of the same messages are served alike", "statement": "A PO file and the MO file compiled from it are both accepted or both rejected, and the two catalogs answer every lookup, singular or plural, with the same text.", "quantifier": "all PO files of well-formed entries, all MO images of the compiled entries in any order, layout and byte order, all contexts, ids and numbers", "why_tests_cant": "The decoders have separate parsers for entries and headers; tests compare a few files.", "anchors": ["catalog/po_decoder.go:poDecoder.Decode", "catalog/po_decoder.go:moDecoder.Decode", "catalog/po_decoder.go:buildGettextCatalog", "catalog/po/parser.go:Parser.parseHeader", "internal/mo/parser.go:parser.parseMessageHeader"]}
{"id": "C96", "title": "The CLDR generator gives every language its own rules", "statement": "In the generated file every language of plurals.json leads to exactly one function, which tests the rules of the language and returns the CLDR category; the functions have different names, no case is there twice, and the file does not depend on the order in which the map of the languages is visited.", "quantifier": "all tables of languages and rules, every visiting order, every decimal number", "why_tests_cant": "The file was generated once from one table; rules are grouped by a hash and functions named after language lists, which clash only for other tables.", "anchors": ["catalog/cldrplural/generator/main.go:main", "catalog/cldrplural/generator/json.go:ruleJSON.hash", "catalog/cldrplural/generator/json.go:dataSet.Name", "catalog/cldrplural/generator/json.go:ruleJSON.ToData"]}
{"id": "C97", "title": "The gettext generator gives every language its own formula", "statement": "In the generated file every language of plurals.json leads to exactly one function, which returns the value of the formula of the language, with the number of plurals of the language; every rule is found by its compiled string; the functions have different names and the file does not depend on the order in which the map is visited.", "quantifier": "all tables of languages and formulas, every visiting order, every integer", "why_tests_cant": "The file was generated once from one table; clashes of formulas, names and case labels show only for other tables.", "anchors": ["catalog/poplural/generator/main.go:main", "catalog/poplural/generator/json.go:readJSONRules", "catalog/poplural/generator/json.go:ruleData.Name", "catalog/poplural/generator/extra.go:getExtraRules"]}
{"id": "C98", "title": "Shipped translations show what they are given", "statement": "In every locale, the text for a count, size, number word or ordinal shows the argument it is printed with, or is used for one number only.", "quantifier": "every locale package, every message with an argument, every number, every localizer that serves the catalog, every way to write numbers", "why_tests_cant": "There are 8537 texts in 97 catalogs; a text without its number is only wrong for some of the numbers that choose it.", "anchors": ["utils.go:defaultPrintFunc", "humanize/date.go:naturalTimeStrings", "humanize/numbers.go:ordinalTemplates", "humanize/numbers.go:intwordConverters", "humanize/locale/srLatn/django.po:a minute ago", "humanize/locale/be/django.po:%[1]s billion", "humanize/locale/sq/django.po:ordinal 2", "humanize/locale/mr/django.po:ordinal 9"]}
{"id": "C99", "title": "Names of languages tell languages apart", "statement": "The names of the languages in the table of codes are different in every locale; a code that is not in the table has no name, a known one has the translation of its English name, and the language of every locale is in the table.", "quantifier": "every locale package, every pair of codes, every localizer that serves the names of the catalog", "why_tests_cant": "There are 97 catalogs with 4950 pairs of names each.", "anchors": ["humanize/helper.go:Humanizer.LanguageName", "humanize/helper.go:Humanizer.LanguageNameByCode", "humanize/helper_table.go:LocaleInfos", "humanize/locale/sv/django.po:Lithuanian"]}
{"id": "C100", "title": "A humanizer says what the file of its locale has", "statement": "A humanizer for a language of a collection prints every message with the translation that the language's django.po has for it, in the plural form of the number, as in that language; a message without translation, or marked fuzzy, is printed in English, singular for 1; a humanizer for English or an unknown language says everything in English.", "quantifier": "all collections, all PO texts that parse, all contexts, messages, arguments and numbers from 0 to 2^53, every order of the loops over maps", "why_tests_cant": "It takes the parser, the decoder, the loader, the bundle, the localizer and the humanizer together; tests compare single texts.", "anchors": ["humanize/humanizer.go:New", "humanize/humanizer.go:Collection.CreateHumanizer", "humanize/locale.go:localeLoader.Load", "localizer.go:Localizer.lookupSingularTranslation", "localizer.go:Localizer.lookupPluralTranslation", "localizer.go:Localizer.Print", "locale.go:locale.printSourceMessage", "catalog/poplural/builtin.go:ForLanguage", "humanize/locale/kab/django.po:Plural-Forms"]}
{"id": "C101", "title": "Samples of a plural rule are read completely", "statement": "A rule of the UTS 35 grammar followed by its samples is parsed to the same condition as without them, together with all samples, in which every range is written out from its first to its last number; parsing ends exactly if every range goes upwards with the same number of places on both sides.", "quantifier": "all conditions of the grammar, all lists of samples with integers, decimals, compact numbers and ranges of any length", "why_tests_cant": "The samples are an unbounded language and the enumeration of a range is a loop without a bound.", "anchors": ["catalog/cldrplural/ast/parser.go:parser.samples", "catalog/cldrplural/ast/parser.go:parseSampleRange", "catalog/cldrplural/ast/parser.go:increment", "catalog/cldrplural/ast/scanner.go:scanner.Scan"]}
{"id": "C102", "title": "The text of an error says which lookup failed", "statement": "Errors with the same text are equal: of the same kind, for the same language, domain, context, id and form, whatever characters these have; the texts are one line of printable characters; two failing lookups in a catalog with the same text were for the same context and id.", "quantifier": "all errors of lookups and loaders, all byte sequences as names, contexts and ids, all catalogs", "why_tests_cant": "Whether two texts can coincide depends on quotes, blanks and keywords inside of the names; tests look at single texts.", "anchors": ["catalog/catalog.go:ErrMissingContext.String", "catalog/catalog.go:ErrMissingMessageID.String", "catalog/catalog.go:ErrMissingTranslation.String", "utils.go:ErrNotFound.String", "utils.go:ErrMissingLanguage.String", "utils.go:ErrMissingDomain.String", "catalog/json.go:JSONCatalog.getTranslation", "loader.go:FilesystemLoader.Load"]}
{"id": "C103", "title": "References are read as they are written", "statement": "The references of the `#:` lines of an entry, each a path with or without the number of a line and separated by a blank, are the references of its message, in their order, with path and line; two references are equal if and only if all their parts are; the printed form of a reference says which reference it is and is read back.", "quantifier": "all lists of references with paths of any characters, all numbers of lines, all files around the entry", "why_tests_cant": "Paths and lists of references are unbounded; colons and blanks inside of paths are rare in tests.", "anchors": ["catalog/po/parser.go:Parser.parseComment", "catalog/po/comment.go:Reference.String", "catalog/po/comment.go:Reference.Equal", "catalog/po/encoder.go:Encoder.encodeComment"]}
{"id": "C104", "title": "A JSON catalog is not changed from outside", "statement": "Whatever a program does with messages, maps of texts and maps of messages that it made or got from the package, also while they are shared: a catalog made from them keeps its messages and its answers, unless UnmarshalJSON is called on it; it has what the messages had when it was made; Messages gives copies; writing a catalog changes nothing; UnmarshalJSON either fills the catalog as the function on values does or leaves it as it was.", "quantifier": "all programs, that is all finite sequences of allocations, writes, reads and calls, with any sharing of pointers and any order of the loops over maps", "why_tests_cant": "Aliasing shows only if a program keeps a pointer and writes to it later; the ways to get one are unbounded.", "anchors": ["catalog/json.go:NewJSONCatalogWithMessages", "catalog/json.go:jsonCatalog.setMessage", "catalog/json.go:jsonCatalog.Messages", "catalog/json.go:JSONMessage.Clone", "catalog/json.go:jsonCatalog.UnmarshalJSON", "catalog/json.go:jsonCatalog.MarshalJSON"]}
{"id": "C105", "title": "Messages can be made fit for a language", "statement": "ApplyPluralCategoriesToJSONMessage leaves a text for exactly the categories of the language, the old one or an empty one, unless the only text is that for Other; it changes nothing else in memory, a second call changes nothing, and the message is then accepted by catalogs, which get the same from it as before.", "quantifier": "all memories and messages, nil ones included, all languages, every order of the map of categories", "why_tests_cant": "Languages, sets of texts and sharing of maps are many; tests look at single messages.", "anchors": ["catalog/json.go:ApplyPluralCategoriesToJSONMessage", "catalog/json.go:applyCategoriesToJSONMessage"]}
{"id": "C106", "title": "A PO file keeps pointers to its messages and touches no others", "statement": "po.File.AddMessage keeps the pointer it is given; GetMessage returns the pointer that was added first for a context and an ID. A later message with the same key is merged into that object, as documented unless the references of the two overlap in one array without being the same slice, and no message that shares no memory with it changes: neither the argument nor other messages nor other files. Messages that share no memory give the same file as if they were values.", "quantifier": "every memory, sequence of messages, sharing of messages, comments and arrays, and capacity chosen by append", "why_tests_cant": "Whether two slices share an array depends on earlier calls and on the capacity that append chose; tests use fresh messages.", "anchors": ["catalog/po/file.go:AddMessage", "catalog/po/file.go:Messages.Add", "catalog/po/message.go:Message.Merge", "catalog/po/comment.go:Merge"]}
{"id": "C107", "title": "Changing a comment changes no other comment", "statement": "AddReference, AddFlag, Merge and the sorting by the encoder change the comment as documented (Merge if the references of the two comments are the same slice or share no array element) and leave every comment alone that shares no array with it, also the other comment of a merge, after any sequence of calls.", "quantifier": "every memory, comment, sequence of calls, and capacity chosen by append", "why_tests_cant": "append and sort work in place, so that it depends on the history of the slices which comments are affected.", "anchors": ["catalog/po/comment.go:AddReference", "catalog/po/comment.go:AddFlag", "catalog/po/comment.go:Merge", "catalog/po/comment.go:sort"]}
{"id": "C108", "title": "When NewBundle succeeds and what the bundle has", "statement": "With loaders that do not return ErrMissingLanguage themselves, NewBundle succeeds exactly if no option is nil or fails, no domain has two loaders, and every language that is asked for can be read as a tag and served: an optional one if each domain has a readable catalog or no file; a required, fallback or source one if it is the source language, or is in every domain, or was optional before and is in some domain. The bundle then supports exactly the source language and the languages asked for that have a catalog, in the order in which they are asked for first; its source and fallback languages are those set last.", "quantifier": "every option list, loader behaviour, and iteration order over the loaders", "why_tests_cant": "All combinations of options, languages and loader outcomes.", "anchors": ["bundle.go:NewBundle", "bundle.go:bundleBuilder.preloadLanguages", "bundle.go:bundleBuilder.createLocale", "bundle.go:WithLanguage", "bundle.go:WithFallbackLanguage"]}
{"id": "C109", "title": "The order of the options does not matter", "statement": "Options that set at most one source language and name no language as both optional and required unless it is in every domain give, in any order, the same outcome: no bundle, or a bundle with the same source, languages and catalogs.", "quantifier": "every option list and permutation of it, loaders that do not return ErrMissingLanguage, iteration orders", "why_tests_cant": "All permutations.", "anchors": ["bundle.go:NewBundle", "bundle.go:bundleBuilder.createLocale"]}
{"id": "C110", "title": "A bundle cannot be edited after creation", "statement": "Whatever programs do with the results of Domains and SupportedLanguages and with slices of their own, the bundle keeps its domains, languages and locales, unless the printer or the matcher keeps the slice of languages that it was given; even then only the languages of the matcher can be exchanged, not their number, no localizer that could be created panics, and Domains and SupportedLanguages give the same.", "quantifier": "every bundle, memory, capacity chosen by append, and sequence of calls, appends and writes to slices", "why_tests_cant": "Sharing of arrays shows only if a program writes to a slice it got and uses the bundle afterwards; the sequences are unbounded.", "anchors": ["bundle.go:Bundle.Domains", "bundle.go:Bundle.SupportedLanguages", "bundle.go:NewBundle", "localizer.go:newLocalizer"]}
{"id": "C111", "title": "Saving a PO file changes only the order of flags and references", "statement": "Encode writes every message of the file once, in the order of the comparison of the messages as they were before saving, although comparing sorts their comments in place; it changes nothing of any message but the order of the flags and references in the comments of the file, nothing at all of messages that share no comment with it, and GetMessage finds the same pointers; saving again writes the same text and changes nothing more. The writer gets the whole text in one call or nothing; there is an error exactly for a nil file or if the writer has one.", "quantifier": "every memory and file whose comments are equal or share no array, every comparison sort, encoder, header and writer", "why_tests_cant": "The sort function changes what it compares, so that the result depends on all comparisons of a sort that is not specified.", "anchors": ["catalog/po/encoder.go:Encoder.Encode", "catalog/po/encoder.go:Encoder.encode", "catalog/po/encoder.go:DefaultSortFunction", "catalog/po/comment.go:sort"]}
{"id": "C112", "title": "Every language prints in its own language", "statement": "GetPrintFunc of the default printer returns the function of the language asked for after any calls of Init and GetPrintFunc, also before the first Init and if bundles share the printer, so every locale of a new bundle prints in its language; a function of WithPrintFunction is used for every language. Without values a text is returned as it is in the catalog or the source. Of several printer options the last counts; a nil one is an error.", "quantifier": "every sequence of calls, formatting of a language, bundle, option list, catalog and text", "why_tests_cant": "The printer has state that depends on the sequence of calls, which is unbounded; the bundle calls it in an order of its own (C45).", "anchors": ["utils.go:defaultPrinter.Init", "utils.go:defaultPrinter.GetPrintFunc", "utils.go:defaultPrintFunc", "utils.go:printFunctionWrapper", "bundle.go:WithPrinter", "bundle.go:WithPrintFunction"]}
{"id": "C113", "title": "Where EncodePoString ends a line", "statement": "EncodePoString writes the paragraphs of the text, and with a positive width in each paragraph as many words with their blanks as fit on a line: no line is longer than the width but for single words, the newline character and the last word of a paragraph, which is added unchecked; a line ends only at a newline character or at a blank before a word, and only if it is full up to one character or that word with its blanks does not fit. An empty last line is left out, one line stands alone, several stand below an empty one.", "quantifier": "every text without control characters that have no escape, every width", "why_tests_cant": "Every combination of word lengths, blanks, newlines and widths; a wrong break changes neither the text read back nor the shape of the lines.", "anchors": ["catalog/po/po_string.go:EncodePoString", "catalog/po/po_string.go:encodePoStringWithWrap", "catalog/po/po_string.go:encodePoStringWithoutWrap", "internal/util/string_buffer.go:StringBuffer"]}
{"id": "C114", "title": "Where a comment is broken", "statement": "A comment is wrapped paragraph by paragraph: words stay on the line as long as they fit with the blanks before them, otherwise they start the next line; blanks at a break and at the end of a paragraph are dropped, blanks at its beginning stay, and then a first word that is more than one character too long is cut where the line is full. Without a positive width only newline characters end a line. Lines of a comment whose paragraphs do not start with blanks stay as they are when wrapped again.", "quantifier": "every comment text and every width", "why_tests_cant": "Every combination of word lengths, blanks, newlines and widths.", "anchors": ["catalog/po/wrap.go:wrapString", "catalog/po/encoder.go:Encoder.encodeComment", "internal/util/string_buffer.go:StringBuffer"]}
{"id": "C115", "title": "The generated tests use the examples of the data", "statement": "extractExamples stores for every case that has examples, at the index of its first occurrence in the list of cases, the examples of its text up to the part ' …': all numbers of a range a~b, other parts without surrounding white space and with e for c; cases that are not listed are dropped. The order in which the map is visited does not matter. The program ends with an error exactly if an end of a range is no int, and it does not end if the upper one is the greatest int. Omission points without exactly one blank before them are taken for an example.", "quantifier": "every list of cases and every map of texts", "why_tests_cant": "The texts of the data are unbounded and the map is visited in any order.", "anchors": ["catalog/poplural/generator/json.go:extractExamples"]}
{"id": "C116", "title": "The previous message of an entry is kept", "statement": "Previous texts in the comments of an entry (lines #| msgctxt and #| msgid with their continuation lines) are found as the previous context and the previous ID of its comment, wherever they stand among the other comment lines; a previous plural is not mixed up with the previous ID. With comments ignored they have no effect.", "quantifier": "every entry, every list of comment lines and previous texts, every surrounding text", "why_tests_cant": "The meaning of a continuation line depends on the lines before it, of which there is any number.", "anchors": ["catalog/po/parser.go:Parser.parseComment", "catalog/po/scanner.go:scanner.scanComment"]}
{"id": "C117", "title": "A PO file is the same from any reader", "statement": "DecodeReader of the PO decoder and Parse give for a reader what they give for its content in memory, in whatever pieces the reader delivers it (also with io.EOF together with the last bytes and with empty reads), as long as the reader does not return nothing more than a hundred times in a row. A reader that fails is reported. No reader makes the parser see a line that is not in the content, or a line without those before it.", "quantifier": "every content, every division into pieces, every end of the reader", "why_tests_cant": "Pieces may break a line, a CRLF or a character anywhere; tests read from memory.", "anchors": ["catalog/po_decoder.go:poDecoder.DecodeReader", "catalog/po/parser.go:Parser.Parse", "catalog/po/scanner.go:scanner.read", "catalog/po/scanner.go:newScanner"]}
{"id": "C118", "title": "An MO file is the same from any reader", "statement": "DecodeReader of the MO decoder gives for a reader without Seek what Decode gives for its content, in whatever pieces it is delivered and however append enlarges buffers, and an error if the reader fails. For an io.ReadSeeker at the beginning of the file it gives the same as Decode, and a failing call of Read or Seek is never ignored.", "quantifier": "every content, every division into pieces, every reader and every pattern of failing calls", "why_tests_cant": "Readers may deliver fewer bytes than asked for at any call; tests read from memory.", "anchors": ["catalog/po_decoder.go:moDecoder.DecodeReader", "catalog/po_decoder.go:readerToReadSeeker", "internal/mo/parser.go:ParseReader", "internal/mo/parser.go:parser.read", "internal/mo/parser.go:parser.binaryRead"]}
{"id": "C119", "title": "What the time functions accept", "statement": "NaturalTime, NaturalDay, TimeSince, TimeUntil, TimeSinceFrom and TimeUntilFrom treat a duration like the time that is that far from the moment of the call, a number like the time that many whole seconds after the Unix epoch, and a pointer like what it points to; anything else is answered with an error text. Now, Time and Date show the moment of the call in the formats of the language.", "quantifier": "every argument, every time of the call, every zone", "why_tests_cant": "Arguments are of any type; durations carry over seconds; numbers are converted through float64.", "anchors": ["internal/cast/time.go:ToTime", "internal/cast/number.go:Indirect", "humanize/date.go:Humanizer.NaturalTime", "humanize/date.go:Humanizer.NaturalDay", "humanize/date.go:Humanizer.TimeSince", "humanize/date.go:Humanizer.Now"]}
{"id": "C120", "title": "The header of a PO file as it is written", "statement": "Encode writes the header as an entry with an empty id whose lines are the fields with the names and in the order of gettext, followed by the unknown fields; MIME-Version, Plural-Forms and X-Generator are left out without a value, no other field is. Without any value the entry is left out exactly if SetWriteEmptyHeader(false) was called. A value is read back as the value of its field.", "quantifier": "every header, every encoder", "why_tests_cant": "Any combination of empty and filled fields and any values.", "anchors": ["catalog/po/encoder.go:Encoder.encodeHeader", "catalog/po/file.go:Header"]}
{"id": "C121", "title": "The CLDR rule parser accepts exactly the rules", "statement": "Parse of catalog/cldrplural/ast returns a rule exactly for the texts that consist of a condition, of samples behind @integer or @decimal, or of a condition followed by samples, and the tree and the samples are those of the text; every other text is rejected. ParseRules accepts a map exactly if every text of it is accepted, and MustParse and MustParseRules panic where these return an error. The documented relations is, in, within and not, and relations without spaces, belong to the accepted ones.", "quantifier": "every text", "why_tests_cant": "Texts of any length; the scanner joins words and the regular expressions overlap.", "anchors": ["catalog/cldrplural/ast/parser.go:Parse", "catalog/cldrplural/ast/scanner.go:scanner.Scan", "catalog/cldrplural/ast/scanner.go:generateTokens", "catalog/cldrplural/evaluation.go:ParseRules", "catalog/cldrplural/evaluation.go:MustParseRules", "catalog/cldrplural/ast/parser.go:MustParse"]}
{"id": "C122", "title": "The gettext rule and the CLDR rules of a language agree on the integers", "statement": "For every language of which poplural has a built-in rule, cldrplural has built-in rules, and ForLanguage of both packages finds them for the same tags (apart from the old codes jw and mo and the root und). For every count up to 2^53 the form number of the gettext rule is the position of the CLDR category of the count among the categories that counts have, in the order zero, one, two, few, many, other; the number of forms is the number of these categories. So two counts get the same form exactly if they have the same category.", "quantifier": "every language of the tables, every tag, every pair of counts below 2^53", "why_tests_cant": "The two tables are written by two generators from different sources, and rules depend on the last digits of counts of any size.", "anchors": ["catalog/poplural/builtin_gen.go:getBuiltInForLanguage", "catalog/cldrplural/builtin_gen.go:getBuiltInForLanguage", "catalog/poplural/builtin.go:ForLanguage", "catalog/cldrplural/builtin.go:ForLanguage"]}
{"id": "C123", "title": "Which texts are accepted as Plural-Forms", "statement": "Parse of catalog/poplural returns a rule exactly for the texts nplurals=k; plural=e; where e is an expression of the C grammar of gettext, in any case of letters and with any white space between the tokens. Every other text is an error of Parse and a panic of MustParse.", "quantifier": "every text", "why_tests_cant": "Texts of any length with any bytes; the scanner and the parser are written by hand.", "anchors": ["catalog/poplural/rule.go:Parse", "catalog/poplural/rule.go:MustParse", "catalog/poplural/ast/parser.go:Parse", "catalog/poplural/ast/parser.go:MustParse", "catalog/poplural/ast/scanner.go:scanner.Scan"]}
{"id": "C124", "title": "Walking over the tree of a plural rule", "statement": "Walk of catalog/cldrplural/ast calls Visit with the node; if a visitor is returned, it walks the children of the node in the order of their fields and is then called without a node. Inspect so visits exactly the nodes above which the function has said yes everywhere, each once, a node before its children. The evaluation of a rule and the generator, which use Inspect with captured variables, see every value and range of a relation.", "quantifier": "every tree, every visitor with any state", "why_tests_cant": "Trees of any shape and visitors that change, stop at any node and keep a state.", "anchors": ["catalog/cldrplural/ast/walk.go:Walk", "catalog/cldrplural/ast/walk.go:Inspect", "catalog/cldrplural/evaluation.go:evaluateNode", "catalog/cldrplural/generator/compiler.go:compileNode"]}
