# Formal model of aclindsa/ofxgo in Lean 4

(Generated by `tools/design.py` from `tools/design.md`, `properties.jsonl` and
`MANIFEST.json`.)

## 1. Approach

The Go code of /repo is read as text and modelled by total, computable Lean functions; the
properties of `properties.jsonl` are theorems about those functions.  Nothing of /repo is
executed.

| layer | modules under `lean/Verif/` | content |
|---|---|---|
| Go | `Go/Str` | strings, strconv and fmt fragments |
| Model | `Model/*` | ofxgo itself, function by function, with file and line citations, and the fragments of math/big, time, regexp, bufio, net/http it runs on |
| Codec | `Codec/*` | the XML library (github.com/aclindsa/xml, a fork of encoding/xml, not in /repo): lexer, element tree, struct encoding and decoding driven by schemas, printing |
| Gen | `Gen/*` | tables generated from /repo by `tools/gen_*.py`: enumerations, status codes, leaf elements, all structs with their tags, schemas |
| Spec | `Spec/*` | small independent specifications used in statements: numerals, decimals, calendar, headers, documents, the elements of each structure as read (`Elements`) and as written (`Written`), layouts of SGML documents, HTTP framing, printed texts |
| Lemmas | `Lemmas/*` | helper lemmas |
| Props | `Props/*` | the property theorems (`Cnn_...`), each with an `example` meeting its hypotheses or stating a concrete instance, beside it or in `Props/Cases` |

Representation

* Go `string` is `List Char` (valid UTF-8 text); `len` is the UTF-8 byte length (`blen`),
  indexing is on the UTF-8 bytes.  Files, HTTP bodies and headers are `List UInt8`.
* `int`/`int64` are `Int` with range checks where the code parses them; enumeration values
  (`uint`) are `Nat`.
* `big.Rat` is `Rat`.
* `time.Time` is an instant (nanoseconds, `Int`) with zone name and offset.
* `(value, error)` results are `Except` or explicit pairs; nil pointers are `Option`; panics
  are outcomes (`Outcome`, `Printed`) where a property is about them.
* A `Message` is an arbitrary implementation of the interface (`MessageImpl`) in C24-C26 and
  C36, and one of the library's thirteen message types elsewhere.
* Methods that modify their receiver return the modified value.
* HTTP, TLS, clock, entropy, URL parsing, file creation, the local time zone and the currency
  table are parameters about which nothing is assumed except where a theorem says so.  What a
  client does is recorded in a trace of events.

## 2. Trusted base

* Lean's kernel (4.33.0).  `vcheck` replays every declaration.
* Axioms: at most `propext`, `Classical.choice` and `Quot.sound`, for every theorem named in
  `MANIFEST.json` (checked with `#print axioms`; `vcheck` prints the union).  No axiom is
  added, and no `sorry`, `admit`, `native_decide`, `bv_decide`, `implemented_by` or `unsafe`
  occurs.  Finite tables are settled by `decide +kernel` over the whole table, which reduces
  in the kernel.
* That the Lean definitions in `Model`, `Codec` and `Gen` say what the Go code says.  Every
  definition cites the lines it models.
* That the Go standard library and the XML fork behave as section 3 assumes.
* The generators `tools/gen_*.py`, in so far as the tables in `Gen` are taken to be those of
  /repo; the tables themselves are ordinary Lean definitions and can be compared with the
  cited lines.

### 2.1 Parts of /repo that are modelled

| file | modelled |
|---|---|
| types.go | all: Int, Amount, Date, String, Boolean, UID, RandomUID, CurrSymbol, with marshalling, validity, equality and String and the date constructors with Go's time.Date (not `String.String`/`Boolean.String`) |
| constants.go | all 40 enumerations: tables, Valid, String, FromString, MarshalXML, UnmarshalXML, New* |
| common.go | all: writeHeader, Message, messageType, status table, Status, accounts, Currency |
| leaf_elements.go | the list |
| bank.go, creditcard.go, invstmt.go, profile.go, seclist.go, signon.go, signup.go | every struct with its tags, every Valid, Name and Type method, every hand-written MarshalXML/UnmarshalXML |
| request.go, response.go, util.go | all |
| basic_client.go, client.go, discovercard_client.go, vanguard_client.go | all, except the choice of TLS cipher suites |
| cmd/ofx | all nine commands, checking of flags, printing, saving, exit status, detect-settings, sub-commands, flags and their parsing by package flag |

### 2.2 Parts of /repo that are not modelled

* `String()` of account infos in signup.go (`%+v`).
* Nil entries in the lists inside messages (transactions, positions, orders, securities), on which
  Marshal panics.  Nil entries in the lists of messages are in C100 only.
* The result `(false, nil)` from a `Valid` method: no method of the library returns it.
* Which of several errors is reported, and the texts of errors other than those of the
  properties; an error is a value, its text matters only where a property mentions it.
* The TLS cipher suites of the Vanguard client; what package
  flag prints on standard error; arguments that are not UTF-8; the texts of operating system errors.
* Concurrency: the library starts no goroutines and has no mutable package state that is
  written after initialisation; calls are modelled as sequential functions, except in C72 and C97, where
  calls of Request are programs of single accesses to shared clients, requests and messages.
  Callers that change a client while it is in use are outside the model.  Accesses are atomic
  and in order, as Go's memory model promises where there are no data races: see C72_no_race and
  C97_no_race_partial.
* The tests (`*_test.go`) and generator/constants program (`generate_constants.py`).

## 3. Assumptions on code outside /repo

* encoding/xml: in Go the decoder is a fork with the fields `AutoCloseAfterCharData` and the
  methods `SetDisableAutoClose` and `CarriageReturn`.  Their behaviour is assumed: an open
  element of the list is closed by anything but text and its own end tag; end tags of listed
  elements are left out when writing; newlines of the indentation become CR LF.
* Lexing follows encoding/xml's `rawToken`; names with a colon are refused (namespaces are not
  used by OFX); attributes are checked for syntax and dropped, so that in documents with an xmlns
  attribute the name space the library would note in XMLName fields is not in the model; invalid UTF-8 anywhere is an error (encoding/xml does not look at it
  inside comments and processing instructions); characters for names beyond ASCII are a
  parameter.
* Struct decoding matches element names exactly (encoding/xml does too); unknown elements are
  skipped; the last of several elements for a non-slice field wins.
* `time.Parse`, `Format`, regexp, big.Rat, bufio, strconv, strings are transcribed from Go's
  source.  Range checks of time.Parse are those of Go 1.20 and later.
* A bufio.Reader gives up after 100 consecutive empty reads; C32 and C63 exclude readers that
  do so.  xml.NewDecoder reads byte by byte from the bufio.Reader it is given.
* net/http: at most ten redirections by default, POST repeated for 307/308; CheckRedirect of
  a user-supplied client is arbitrary but stops after a bounded number.  Headers and cookies of
  requests made while following redirections and cookie jars are not modelled.  Errors while a
  response body is read are modelled for the library (C69); for the commands the body is the bytes
  received.  Once a redirection dropped the body it is
  not sent again, as in current versions of Go; older ones send it again on a later 307 or 308.
* Stack and memory are not modelled: a document nested deeply enough exhausts Go's stack, while
  here it is read like any other.
* A TLS connection that fails to transmit fails for good.  net/url is a
  parameter: nothing is assumed about the path and host it delivers, except in C98, C104 and the
  theorems of C48 in Props/Url, where it does what Model/Url transcribes (`Net.ParsesUrls`: Parse,
  Hostname and Port as of Go 1.21, for https URLs; nothing is said about paths that are not UTF-8).
* Package flag is transcribed (`FlagSet.Parse`, `ParseBool`, `ParseUint`); asking for help exits
  with 0, as since Go 1.15.
* http.Client, http.DefaultClient and tls.Dial may be used by goroutines at the same time (as they
  are documented to).
* net/http reads the body of a request once; if reading fails it returns an error, unless the server
  answered before.  Without a way to read it again it does not follow redirections with 307 or 308.
* crypto/rand either fails or delivers the bytes asked for.

## 4. Findings: where the code violates a property

Each is proved by a theorem with a concrete witness or for every input of the kind described;
the English property keeps its full statement and is claimed as `partial`.

| property | what the code does | theorem |
|---|---|---|
| C13, C15 | a zone between -1h and 0 (`[-0.30:XXX]`) is read as east of Greenwich; zones whose name Go cannot read are rejected | `C15_*`, `C13_*` |
| C14 | dates in zones whose abbreviation is numeric (`-03`) are written in a form that cannot be read | `C14_*` |
| C19 | Currency.Valid rejects rates that are nonzero multiples of 2^64 as zero | `C19_*` |
| C20 | bank.go 143: the test of the correction action is inverted | `C20_*` |
| C22 | credit card and investment messages are not version-gated | `C22_*` |
| C31 | Marshal ignores the error of writeHeader: with an undefined version the document has no header | `C31_no_header` |
| C32 | a header longer than 1024 bytes is accepted only from a bufio.Reader with a larger buffer | `C32_long_header` |
| C34 | in SGML mode a stray end tag of any name ends the document | `C34_sgml_other_end_tag` |
| C40 | LOANINFO is declared as VESTINFO: documents with LOANINFO are rejected, loans are written as VESTINFO | `C40_*` |
| C45 | the Vanguard client retries after an error response with cookies too | `C45_*` |
| C46 | bodies of responses with a status other than 200 and of first Vanguard responses are never closed | `C46_*` |
| C47 | the Discover client and the Vanguard retry return no response on an HTTP error | `C47_*` |
| C48 | the decoded path is put into the request line unescaped: CR LF in it breaks the framing | `C48_*` |
| C51 | detect-settings exits with 0 and without a word when every combination failed | `C51_failure_status` |
| C52 | statements without a transaction list (valid) crash the printing commands | `C52_valid_crash` |
| C55 | 89 value elements are missing from the leaf list and swallow what follows when left unclosed | `C55_*` |
| C56 | net/http re-sends the document to plain http when redirected there | `C56_*` |
| C79 | the Vanguard client's second post never names the user agent set, and the Vanguard and Discover clients ignore the HTTP client set (and Discover the user agent) | `C79_retry_agent`, `C79_vanguard_ignores`, `C79_discover_ignores`, `C56_guard_ignored` |
| C80 | optional amounts, dates and currencies that are not pointers are written although not set: unknown interest rates and rewards as zero, investment transactions with both a currency and an original currency | `C80_unset_amounts_written`, `C80_both_currencies_written` |
| C81 | detect-settings: no delay between the request with the user's login and the anonymous one; delays of 2^63 ns or more wrap around | `C81_no_pause`, `C81_too_long` |
| C84 | names and memos are printed with their line feeds, so one transaction can be listed as if it were two | `C84_forged` |
| C85 | the download commands empty an existing file before they have anything to put into it, so an earlier download is lost when writing fails | `C85_lost` |
| C86 | an amount written with an exponent is accepted, so nine characters (1e1000000) become an amount that is written with a million | `C86_amount_grows` |
| C89 | Neither the transaction ids nor the accounts of a response are compared with the request: a statement of another account is returned, and shown by the commands, without error | `C89_*` |
| C90 | An account read as the target of a transfer keeps its element name: a statement request for it has BANKACCTTO in place of BANKACCTFROM and is written without error. The commands have no flags for branches and account keys | `C90_*` |
| C91 | SGML documents say ENCODING:USASCII and CHARSET:1252, but letters outside ASCII are written in UTF-8. When reading, the encoding named is ignored: documents really in code page 1252 are refused at the first letter outside ASCII followed by an ASCII character | `C91_*` |
| C93 | A server refuses a bank statement with a status and no STMTRS. Then Valid fails (the currency is unset) and Request returns the error "Validation failed: Invalid CurrSymbol: XXX" in place of the response, so the status is lost. For credit cards and investments the response is returned, but the commands do not look at its status and dereference the missing list of transactions | `C93_*` |
| C95 | DecodeResponse puts its own bufio.Reader around the reader it is given and drops it: what has been read beyond the document (at least the rest of the first 1024 bytes) is lost to the next call. And a header is only recognised at the very first byte, so that SGML documents separated by a line break cannot be read one after another. | `C95_read_ahead`, `C95_second_lost`, `C95_blank_between` |
| C96 | DecodeResponse peeks at 1024 bytes before anything else, so a shorter response on an open connection is not returned until the other side sends more or closes it, although the whole document is there. | `C96_waits` |
| C97 | Valid of a profile request writes to it (profile.go 34), so goroutines that send the same profile request race. | `C97_race` |
| C98 | The Discover client drops the query of its URL, sends escaped characters of the path unescaped (a space ends the target, a question mark starts a query), leaves the port and IPv6 brackets out of the Host line and connects to "host::443" for "https://host:/". | `C98_query_lost`, `C98_space`, `C98_question`, `C98_port_unsaid`, `C98_brackets`, `C98_empty_port` |
| C99 | The Vanguard client returns every cookie set, also those it was told to forget (Max-Age=0) and both versions of one that was replaced; values in quotes lose them (net/http before Go 1.23). | `C99_expired`, `C99_twice`, `C99_quotes` |
| C100 | Marshal and Valid panic on nil entries and nil pointers in lists of messages instead of reporting them (a nil `*SecurityList` is written as nothing). | `C100_panics`, `C100_valid_panics` |
| C101 | A server may refer the client to any other (307, 308), which is then sent the document with the login, by the basic client unless its HTTP client is told otherwise and by the Vanguard client always. | `C101_elsewhere` |
| C102 | If the server named redirects, the Vanguard client takes the cookies from the answer of the server redirected to, and sends them to the one named. | `C102_foreign` |
| C103 | A comment in the text of a value ends the value in SGML documents; the value's end tag then ends all open elements, and the rest of the response is dropped without an error (the fork being as section 3 assumes). | `C103_comment` |
| C105 | Marshal panics on nil entries and nil pointers in lists of transactions, positions, open orders and securities. Pointers to the library's own types, which the interfaces admit, are refused. | `C105_panics`, `C105_securities_partial` |
| C78 | Valid of card, investment, profile, security list and account messages looks at the transaction id only (`TODO implement`): undefined statuses and empty card accounts are accepted | `C78_status_unchecked`, `C78_card_unchecked`, `C78_bad_parts_accepted` |
| C60 | transactions-inv prints the balance only when it is a whole number | `C60_no_balance` |
| C65 | arguments after the first that is not a flag are ignored, even -dryrun | `C65_ignored`, `C65_dryrun_ignored` |
| C63 | an error of the reader during the first 1024 bytes is dropped | `C63_dropped` |
| C74 | an hour of one digit, commas, fractions of any length and blanks before the zone are accepted in dates (the claim states exactly which texts are) | `C74_beyond_ofx` |
| C73 | hexadecimal, octal, exponent and fraction texts are accepted as amounts (the claim states exactly which texts are) | `C73_beyond_decimal` |

Other observations, not contradicting a listed property: "1,234" is read as 1.234 (the OFX
specification allows a decimal comma); tiny negative amounts print as "-0"; a preset
`XMLName.Local` overrides the element name; a message set named just "V1" fails to marshal;
characters not allowed in XML become U+FFFD when marshalled; the nil check in guessVersion
never fires; a dry run that fails to marshal prints the error and exits with 0; clientRequest
discards the decoded response when it is invalid; the Discover client drops the URL's query;
"WITHDRAWLS" is a misspelt field name.

## 5. Tests against wrong programs

`tools/mutate.py` copies the project, applies an edit to the model, rebuilds and records which
theorems fail, in `seeded/LOG.jsonl`.  The edits are in `tools/seeds/`.  A surviving edit that
breaks an English claim led to a stronger theorem (field `theorems_tightened`).

### 5.1 Evidence that the model is the program

The project's own tests are run against the model. `Verif/Props/RepoTests.lean` carries over the tests of the leaf
types, of `Valid`, of the signon request and of the error lists (types_test.go, common_test.go, parts of bank_test.go,
signon_test.go and response_test.go) as examples checked at every build. `tools/conform.py` reads the document tests
(bank, creditcard, invstmt, profile, signup, response) as text, evaluates the Go literals they build, and writes a Lean
program that marshals or parses the same data with the model and compares the outcome as the Go test does; it also
parses, marshals and re-parses the eight sample files of /repo/samples. All of them agree (16 document tests and 8 files).
These are tests of the model; no theorem depends on them.

## 6. Properties

### C01 Integer fields decode exactly or fail

Decoding an integer element succeeds exactly when its text, ignoring surrounding whitespace, is an optional sign followed by at least one decimal digit denoting a value in the signed 64-bit range; the decoded value is that number. Every Int that is encoded decodes to itself.

* Model and proof: `strings.TrimSpace`, `strconv.ParseInt/FormatInt` (Go/Str, Model/Types). Texts against the numerals of Spec/Numeral by induction on digits.
* Status: **proved**. Exact characterisation of accepted texts and value; round trip for all int64.
* Theorems: `C01_int_decode_error_iff`, `C01_int_decode_iff`, `C01_int_roundtrip`.

### C02 Plain decimal amounts decode to their exact value

For every amount text consisting of an optional sign, decimal digits and at most one fractional separator which is either '.' or ',', with any surrounding whitespace, decoding yields exactly the rational number the digits denote; no binary floating point rounding occurs.

* Model and proof: `strings.Replace`, `big.Rat.SetString` with its scanner (signs, fractions, base prefixes, underscores, exponents) in Model/Amount; the value of a plain decimal is Spec/Decimal; induction on digits.
* Status: **proved**. Every plain decimal text up to a million fractional digits; accepted plain texts are exactly those.
* Theorems: `C02_decimal_exact`, `C02_plain_accepted_only`.

### C03 Amounts survive a print/parse round trip exactly when they have at most 100 decimals, and are otherwise rounded to within half a unit of the 100th decimal

Parsing what Amount.String prints gives a value within 1/2*10^-100 of the original, and gives exactly the original if and only if the original is a multiple of 10^-100.

* Model and proof: `Rat.FloatString(100)` and `TrimRight`; arithmetic on rationals.
* Status: **proved**. Within half a unit of the 100th decimal, and exact iff the amount is a multiple of 10^-100.
* Theorems: `C03_roundtrip`.

### C04 Printed amounts are in canonical decimal form

Amount.String never prints an empty string, a trailing '.', trailing fractional zeros, an exponent or any character other than a leading '-', digits and one '.'; two amounts that are multiples of 10^-100 print the same text only if they are equal.

* Model and proof: As C03; shape by induction on the printed digits, injectivity from C03's error bound.
* Status: **proved**. Shape of the printed text and injectivity.
* Theorems: `C04_canonical`, `C04_injective`.

### C05 Amounts with grouping separators are never silently misread as another decimal

A text with two or more '.'/',' separators is rejected; a text with a single ',' is read with the comma as decimal point.

* Model and proof: As C02; case analysis of the scanner on a second separator.
* Status: **proved**. Two or more separators rejected; comma equals point.
* Theorems: `C05_comma_is_point`, `C05_two_separators_rejected`.

### C06 Booleans accept exactly Y and N

Decoding a Boolean succeeds only for Y (true) and N (false), ignoring surrounding whitespace; every encoded Boolean decodes to itself.

* Model and proof: Boolean's methods; case analysis.
* Status: **proved**. Exact characterisation of accepted texts; round trip.
* Theorems: `C06_boolean_decode_iff`, `C06_boolean_roundtrip`.

### C07 Strings and UIDs decode to their trimmed text

Decoding a String or UID never fails, yields the text without surrounding Unicode whitespace and without altering the interior; decoding is idempotent, and a value without surrounding whitespace round-trips unchanged.

* Model and proof: `TrimSpace` for String and UID; lemmas on trimming (Lemmas/Str).
* Status: **proved**. Decoding trims; round trip holds exactly for trimmed values.
* Theorems: `C07_string_decode`, `C07_string_roundtrip_iff`, `C07_uid_decode`, `C07_uid_roundtrip_iff`.

### C08 Recommended-format UIDs are valid UIDs

UID.Valid accepts exactly the UIDs of 1 to 36 bytes; UID.RecommendedFormat accepts exactly the 36 byte UIDs with '-' at byte offsets 8, 13, 18, 23; whenever RecommendedFormat holds Valid holds, and neither ever indexes out of range.

* Model and proof: UID.Valid and RecommendedFormat with byte indexing and its panic (`Outcome`).
* Status: **proved**. Validity and recommended format characterised; no panic.
* Theorems: `C08_recommended_implies_valid`, `C08_uid_recommended_iff`, `C08_uid_recommended_no_panic`, `C08_uid_valid_iff`.

### C09 Generated UIDs are well-formed and as unique as their entropy

RandomUID either reports an error (the entropy source failed or delivered fewer than 16 bytes) or returns a valid UID in the recommended format made of lower-case hex digits, and different 16 byte draws give different UIDs.

* Model and proof: RandomUID over every outcome of `rand.Read`; injectivity by inverting hexadecimal.
* Status: **proved**. For every entropy source outcome.
* Theorems: `C09_error_iff`, `C09_injective`, `C09_shape`, `C09_valid`.

### C10 Every enumeration's text form is a bijection on its valid values

For each enumerated OFX type: a value is valid exactly when it is one of the declared constants; printing a valid value and parsing it (with any surrounding whitespace) returns the value; parsing succeeds only for the declared names, case-sensitively; a failed parse reports an error and leaves an invalid value.

* Model and proof: One generic enum model over tables generated from constants.go; table facts by `decide` over complete tables, lifted to all texts and numbers by lemmas.
* Status: **proved**. All 40 generated enum tables, for every text and every number.
* Theorems: `C10_constant_text`, `C10_new_error`, `C10_new_unmarshal`, `C10_parse_error`, `C10_parse_iff`, `C10_roundtrip`, `C10_string_injective`, `C10_string_total`, `C10_valid_iff`.

### C11 Invalid enumeration values are omitted, valid ones round-trip

Encoding an enumeration value writes no element at all if it is invalid and otherwise exactly one element whose text decodes to the same value.

* Model and proof: As C10, through MarshalXML/UnmarshalXML.
* Status: **proved**. All 40 enums.
* Theorems: `C11_marshal`.

### C12 The order of OFX version constants is the numeric order of the versions

Comparing two OfxVersion values compares the version numbers they print as, so SGML/XML selection (below 200 / 200 and above), the 160 ceiling and the 203/210/220 feature gates mean what they say.

* Model and proof: As C10, for the version table.
* Status: **proved**. Version constants are ordered as the version numbers.
* Theorems: `C12_version_order`.

### C13 Dates decode to the instant they denote in all five precisions

For every calendar-valid date, decoding YYYYMMDD, YYYYMMDDHH, YYYYMMDDHHMM, YYYYMMDDHHMMSS and YYYYMMDDHHMMSS.mmm, with any zone suffix [h], [h.ff], [h:NAME] or [h.ff:NAME] or none, yields the corresponding instant (missing components zero); calendar-invalid dates (month 13, Feb 30, hour 24...) are rejected.

* Model and proof: regexp, the zone arithmetic and `time.Parse` for the five layouts (Model/Date); instants by the independent calendar Spec/Date; induction on digits and calendar lemmas.
* Status: **partial**. Every date text in the five precisions without a zone, and with a zone whose sign is unambiguous, decodes to its instant; invalid calendar dates are rejected. The full statement is false for zones between -1h and 0 and for named zones Go cannot read (witnesses proved).
* Theorems: `C13_decode_no_zone`, `C13_decode_zone_partial`, `C13_full_false`, `C13_invalid_rejected`, `C13_short_name_rejected`, `C13_utc_name_hides_offset`.

### C14 Dates survive a print/parse round trip

For every instant with millisecond precision in years 0-9999 in a zone whose offset is a multiple of 3 minutes and at least an hour away from or equal/after GMT, and whose zone abbreviation is empty or one that can be read back (three capitals, four or five capitals ending in T, WITA; UTC only for offset zero), printing a Date and parsing it gives the same instant and the same offset.

* Model and proof: `Format`, zone printing, then C13's parser; arithmetic on instants and offsets.
* Status: **proved**. All instants with millisecond precision in years 0-9999. C14_cut: others are read back as the last millisecond before them. Numeric abbreviations such as -03 are shown to print a date that cannot be decoded.
* Theorems: `C14_cut`, `C14_numeric_abbreviation_lost`, `C14_roundtrip`.

### C15 The sign of a date's zone offset is honoured

A zone suffix with a negative number denotes a zone west of GMT, and a Date west of GMT prints with a negative offset.

* Model and proof: As C13 with the sign as the variable; witnesses for the violated range.
* Status: **partial**. Proved for offsets of at least an hour west and all east; the code violates it in (-1h, 0), witnesses proved.
* Theorems: `C15_negative_is_west_false`, `C15_negative_is_west_partial`, `C15_positive_is_east`, `C15_west_prints_negative_false`, `C15_west_prints_negative_partial`.

### C16 A date without zone is GMT, and surrounding whitespace or text after the closing bracket is ignored

A date text with no zone suffix decodes as GMT; padding a date text with whitespace, or appending any text after its closing ']', does not change what it decodes to.

* Model and proof: As C13: the two splits and trims before parsing.
* Status: **proved**. Padding, trailing text after ']' and the GMT default, for every text.
* Theorems: `C16_default_gmt`, `C16_padding`, `C16_trailing`.

### C17 Currency symbols round-trip and 'XXX' is the only invalid one

Decoding accepts exactly the ISO currency codes known to the currency table, in any letter case and with surrounding whitespace; encoding then decoding gives an equal symbol; Valid fails only for XXX, including the zero value.

* Model and proof: The ISO table is a parameter (`CurrencyTable`).
* Status: **proved**. For every currency table of x/text containing XXX.
* Theorems: `C17_decode_iff`, `C17_new_iff`, `C17_roundtrip`, `C17_valid_iff`.

### C18 Status validity agrees with the code table

A STATUS is valid exactly when its severity is a defined one (INFO, WARN, ERROR) and its code is in the OFX code table with that severity; for every valid status CodeMeaning and CodeConditions succeed, and for every unknown code both fail.

* Model and proof: Table generated from common.go, linear lookup; `decide` over the table lifted to all codes.
* Status: **proved**. Exact, over the code table generated from the source (93 codes), for every status.
* Theorems: `C18_status_meaning`, `C18_status_valid_has_meaning`, `C18_status_valid_iff`.

### C19 Account and currency validation accepts exactly the complete values

A bank account is accepted exactly when bank id and account id are nonempty and the account type is one of the five defined ones, a card account exactly when its account id is nonempty, a currency exactly when its rate is not zero and its symbol is not the unset symbol XXX; everything else is rejected with an error.

* Model and proof: BankAcct/CCAcct/Currency.Valid; Currency through `big.Int.Int64`'s low 64 bits.
* Status: **partial**. Accounts exact. Currencies: exact except for rates that are nonzero whole multiples of 2^64, which the code rejects as zero (proved).
* Theorems: `C19_bankacct_valid_iff`, `C19_ccacct_valid_iff`, `C19_currency_huge_rate_rejected`, `C19_currency_valid_iff_partial`, `C19_currency_valid_iff_recognised`.

### C20 A transaction correction must name a valid correction action

A transaction that names a corrected transaction id is accepted only if its correction action is DELETE or REPLACE, and is not rejected because of the correction if it is.

* Model and proof: Transaction.Valid as written, with the inverted test.
* Status: **partial**. The code violates the property: the test of the action is inverted; both failures are proved for every transaction. Proved part: transactions without a corrected id are unaffected.
* Theorems: `C20_bad_correction_accepted`, `C20_good_correction_rejected`, `C20_no_correction_partial`.

### C21 Transaction validation enforces its exclusivity and presence rules

An accepted transaction has a valid type, a posting date, a nonempty id, at most one of name and payee, at most one destination account, at most one valid currency, at most two images, and every accepted nested element is itself valid; any transaction meeting the documented rules that is not a correction (see the previous property) is accepted. Likewise for transaction lists, pending transactions, balances and bank statements.

* Model and proof: Transaction.Valid and StatementResponse.Valid against the rules of Spec/Valid.
* Status: **proved**. Accepted transactions meet the rules; transactions correcting no other are accepted exactly when they do; bank statements likewise, exactly.
* Theorems: `C21_statement_accepted_iff`, `C21_transaction_accepted_iff`, `C21_transaction_accepted_meets_rules`.

### C22 Version-gated content is rejected below the version that introduced it, and validity never decreases with a newer version

Content introduced in OFX 2.1.0 and 2.2.0 (transaction images, pending transactions) is rejected for older versions; any message valid for some version is valid for every newer version.

* Model and proof: All Valid methods as functions of the version; monotone by case analysis of each.
* Status: **partial**. Monotonicity for every message type and pair of versions; gating exact for bank statements. The code does not gate credit card messages (proved).
* Theorems: `C22_bank_gating_partial`, `C22_card_not_gated`, `C22_valid_monotone`.

### C23 Signon validation accepts exactly the documented lengths and defaults the language once

A signon request is accepted exactly when user id has 1-32 bytes, exactly one of password (<=32) and key (<=64) is present, language is empty or 3 bytes, app id has 1-5 and app version 1-4 bytes; on acceptance the language is set (ENG if it was empty), nothing else changes, and validating again changes nothing.

* Model and proof: SignonRequest.Valid returning the modified receiver.
* Status: **proved**. Exact acceptance, language default, idempotence.
* Theorems: `C23_signon_changes_only_language`, `C23_signon_idempotent`, `C23_signon_language`, `C23_signon_response_valid_iff`, `C23_signon_valid_iff`.

### C24 A message placed in the wrong message set is never sent

Marshalling a request (response) that has, in any of its message-set lists, a message whose type belongs to another list returns an error and no document.

* Model and proof: encodeMessageSet over an interface of messages (`MessageImpl`): any implementation, induction on the lists.
* Status: **proved**. Requests and responses, for any message implementation.
* Theorems: `C24_request_wrong_set`, `C24_response_wrong_set`.

### C25 A marshalled request contains exactly the supplied messages, in order, in the right sets

When Request.Marshal succeeds the document body is one OFX element containing the signon set followed by exactly the nonempty message sets in specification order, each containing exactly the supplied messages in the supplied order.

* Model and proof: Request/Response.Marshal; names and order of the sets from Spec/Document.
* Status: **proved**. Requests and responses; names and order of the sets spelled out in Spec/Document.lean.
* Theorems: `C25_request_body`, `C25_response_body`.

### C26 Marshalling is all-or-nothing and succeeds exactly on valid requests

Request.Marshal returns either a complete document or an error, never both nor neither; it succeeds exactly when the signon and every message are valid for the version and filed in the right list.

* Model and proof: As C25: success iff every part is valid, in its set and encodable.
* Status: **proved**. Exact success condition for requests and responses (for responses also profiles with version 1 sets only).
* Theorems: `C26_request_marshal_iff`, `C26_response_marshal_iff`.

### C27 Marshalling twice gives the same document

Marshalling has no effect on later marshalling: after any number of Marshal calls on the same request the result is the same.

* Model and proof: Marshal as a state transformer on the request; idempotence of the modifications made by Valid.
* Status: **proved**. The result and the request itself are unchanged by earlier calls, including failing ones.
* Theorems: `C27_marshal_again`, `C27_marshal_many`, `C27_response_again`, `C27_response_many`.

### C28 Every header the library writes is read back as the same version

For every OFX version and both line-ending settings, the header written by Marshal is classified correctly (SGML below 200, XML from 200 on) and parsed back to exactly that version, whatever body follows.

* Model and proof: writeHeader, then guessVersion and the header readers on the printed bytes.
* Status: **proved**. All versions, both line ends, every body.
* Theorems: `C28_header_roundtrip`, `C28_version`.

### C29 An SGML response is accepted only with a supported header

If an SGML header is accepted then it stated OFXHEADER:100, DATA:OFXSGML, a known VERSION of at most 160, SECURITY NONE or TYPE1 and COMPRESSION NONE, and the resulting version is the one stated; and any header with these values is accepted whatever ASCII whitespace separates the fields (within the 1024 byte window).

* Model and proof: The regular expression as a backtracking matcher, against the header grammar of Spec/Header.
* Status: **proved**. Exact characterisation of the accepted headers, for the header check and for whole documents.
* Theorems: `C29_accepted`, `C29_header_iff`, `C29_reads`.

### C30 An XML response is accepted only with a supported header

If an XML header is accepted then the document started with an xml and then an OFX processing instruction, the latter stating OFXHEADER 200 and a known VERSION of at least 200, security NONE and no unknown attribute; the attributes may come in any order.

* Model and proof: readXMLHeaders' loop over the instruction's text, against Spec/Header.
* Status: **proved**. Exact characterisation of the accepted instructions; documents in both directions; order of attributes.
* Theorems: `C30_accepted`, `C30_header_iff`, `C30_order`, `C30_reads`.

### C31 Marshalling never emits a document without header

Whenever Marshal succeeds, the document starts with a valid OFX header for the request's version.

* Model and proof: Marshal with the ignored error of writeHeader.
* Status: **partial**. Proved for the eleven defined versions. The code violates it for any other version number: the error of writeHeader is ignored (proved).
* Theorems: `C31_header_partial`, `C31_no_header`.

### C32 Parsing does not depend on how the input stream is chunked

Reading the same bytes from any reader, through any sequence of partial reads, gives the same response (or a failure in both cases).

* Model and proof: io.Readers delivering arbitrary pieces, and bufio.Reader (fill, Peek, ReadSlice, UnreadByte, ReadByte), in Model/Bufio; an invariant (`Good`) relates the buffer and the reader to the bytes still to come.
* Status: **partial**. Proved for every schedule of reads (with fewer than 100 consecutive empty ones) from readers that are not a bufio.Reader, and for bufio.Readers if the first tag is in the first 1024 bytes. The code violates the rest: a header longer than 1024 bytes is accepted from a bufio.Reader with a larger buffer only (proved for every SGML document).
* Theorems: `C32_bufio_larger`, `C32_bufio_partial`, `C32_chunks`, `C32_long_header`, `C32_parse`, `C32_same`.

### C33 Decoded messages are filed under their own message set, in document order

After a successful decode, every message in a response list has the type of that list, the messages appear in document order (concatenating repeated sets), and every message element of the document is represented exactly once.

* Model and proof: decodeMessageSet on element trees; induction on the children.
* Status: **proved**. For every element tree.
* Theorems: `C33_decoded_messages`.

### C34 Truncated documents are rejected

If a document decodes successfully, then cutting it anywhere before the final closing OFX tag makes decoding fail; input after that tag is ignored.

* Model and proof: Lexer and tree builder on every prefix of a document (Lemmas/Prefix, Cut, Truncate, Stray).
* Status: **partial**. For every document that decodes there is exactly one end tag up to whose end it must be present and after which everything is ignored; in XML it is that of OFX. Marshalled responses, and SGML documents whose elements are laid out properly, decode at no cut. The code violates the rest: in SGML a stray end tag of any other name ends the document too (proved for every SGML document).
* Theorems: `C34_parse`, `C34_sgml`, `C34_sgml_other_end_tag`, `C34_truncated_partial`, `C34_written`.

### C35 ParseResponse distinguishes undecodable from invalid

ParseResponse returns no response exactly when decoding failed; it returns a response with an error exactly when the document decoded but is invalid; it returns a nil error exactly when the document decoded and every part is valid.

* Model and proof: ParseResponse on byte strings: lexing, tree, structs and validation end to end.
* Status: **proved**. For every byte string.
* Theorems: `C35_decodable`, `C35_invalid`, `C35_no_error`, `C35_undecodable`.

### C36 Response validation reports every problem

Response.Valid accepts exactly when the signon and all messages are valid, and otherwise its error contains one entry per failing part in document order, with nested validation lists flattened.

* Model and proof: Response.Valid and errInvalid; induction on lists.
* Status: **proved**. For any message implementation; exact list of entries in order.
* Theorems: `C36_valid_errors`, `C36_valid_iff`, `C36_valid_reports_all`.

### C37 Responses survive a marshal/decode round trip

Decoding the elements that Response.Marshal writes gives a response with the same version, signon and messages.

* Model and proof: Marshal, print (indentation, escaping), lex, build, decode: composition of C25, C28, C38 and the text round trip (Lemmas/Written, Props/Text).
* Status: **partial**. From bytes to bytes, for every version and any data after the document, for all responses whose values can be carried; missing: 401(k) loans, for which the code violates the property (C40).
* Theorems: `C37_text_roundtrip_eq_partial`, `C37_text_roundtrip_partial`, `C37_tree_roundtrip`, `C37_tree_roundtrip_eq`, `C37_written_read`.

### C38 Every message type survives an encode/decode round trip

For each request and response message type (and every struct nested in it) encoding a value and decoding the elements gives back an equal value, provided its leaf values are exactly representable and its enumerations valid or zero.

* Model and proof: Schema-driven encoder and decoder; one generic round-trip theorem by induction on schemas, instances generated from the struct tags of /repo and checked by `decide` over whole schemas.
* Status: **partial**. All 95 structs and the list types, and all thirteen message types, for every value whose leaves can be carried; missing: 401(k) loans, for which the code violates the property (C40).
* Theorems: `C38_message_roundtrip_partial`, `C38_roundtrip_partial`, `C38_signon_request_roundtrip`, `C38_signon_response_roundtrip`.

### C39 Heterogeneous lists keep their elements, kinds and order

Security lists, investment transaction lists, position lists, open-order lists and profile message-set lists decode each element to the kind named by its tag, keep order, reject unknown kinds, and survive a round trip.

* Model and proof: The hand-written UnmarshalXML/MarshalXML of the list types as `closed` schemas; relation to Spec/Lists by induction.
* Status: **proved**. Exact characterisation of decoding and round trip for all five list types.
* Theorems: `C39_investment_transaction_list`, `C39_investment_transaction_list_iff`, `C39_lists_roundtrip`, `C39_message_set_list`, `C39_open_order_list`, `C39_position_list`, `C39_security_list`.

### C40 Every 401(k) statement element written is read back as the same kind of element

Loan information in a 401(k) account statement is written as, and accepted from, LOANINFO elements.

* Model and proof: As C38: the schema of LoanInfo with its wrong XMLName.
* Status: **partial**. The code violates the property (XMLName of LoanInfo says VESTINFO): every document with LOANINFO is rejected and loans are written as VESTINFO, both proved. 401(k) statements without loans round-trip.
* Theorems: `C40_loan_written_as_vestinfo`, `C40_loaninfo_rejected`, `C40_no_loans_partial`.

### C41 Unknown elements are ignored and element order is irrelevant inside message structures

Inserting elements with unknown names into a message structure, reordering elements of different names, or writing a value in another of its accepted notations (white space around it and comments inside it included), does not change the decoded value.

* Model and proof: Relation `Alike` on element trees (Spec/Alike); decoding respects it, by induction on schemas.
* Status: **proved**. For all struct and list types at any depth, and for whole response documents; Alike also covers other ways to write a value (white space, notation, comments inside); unknown elements in the closed lists are errors (C39).
* Theorems: `C41_alike`, `C41_document`.

### C42 Requests to URLs that are not HTTPS are refused

Whatever the client, request and URL, no bytes are sent to a server unless the URL starts with https://; otherwise an error is returned.

* Model and proof: The three clients over an arbitrary network (`Net`) with an event trace.
* Status: **proved**. All three methods of every client kind: error, no response, no network event. For whole commands: nothing on the network (detect-settings still pauses between the attempts it cannot make).
* Theorems: `C42_command`, `C42_command_line`, `C42_https`, `C42_raw_refused`, `C42_request_refused`.

### C43 Client settings fall back to working defaults and always override the request

For every client value the effective version is valid, the app id and version nonempty (defaults 203, OFXGO, 0001), and the document sent by Request carries exactly those, whatever the caller had put in the request.

* Model and proof: As C42: SetClientFields and the documents in the trace.
* Status: **proved**. Every document posted or written, including redirections and the Vanguard retry.
* Theorems: `C43_defaults`, `C43_sent`.

### C44 A special client is chosen exactly for its institution's URL

GetClient returns the Discover (Vanguard) client exactly when the URL, ignoring leading and trailing slashes, is that institution's URL; otherwise it returns the basic client.

* Model and proof: GetClient's table and `strings.Trim`.
* Status: **proved**. Every URL.
* Theorems: `C44_getClient`.

### C45 The Vanguard client retries at most once and only after a cookie-setting empty response

Any call results in at most two posts with identical bodies, the second only if the first got a successful response without length and with cookies, and it carries exactly those cookies.

* Model and proof: As C42: VanguardClient.RequestNoParse, trace by cases.
* Status: **partial**. The code violates the property: an error response with cookies is retried too (proved for every request). Everything else is proved: at most two posts, same URL and body, exactly the cookies of the first response, and the exact retry condition.
* Theorems: `C45_retry_after_error`, `C45_retry_made`, `C45_retry_partial`.

### C46 Request closes every response body it obtained

After Client.Request returns, every HTTP response body obtained during the call has been closed.

* Model and proof: As C42: opened and closed bodies in the trace.
* Status: **partial**. The code violates the property: bodies of responses with a status other than 200 and of first Vanguard responses stay open (both proved). All other bodies are closed.
* Theorems: `C46_closed_partial`, `C46_error_leak`, `C46_ids`, `C46_retry_leak`.

### C47 HTTP errors are reported

If the server's final answer has a status other than 200, Request returns an error and no response; RequestNoParse returns the error together with the raw response.

* Model and proof: As C42: results by cases.
* Status: **partial**. Errors are always reported by Request; RequestNoParse returns the response with the error except with the Discover client and after a Vanguard retry, which return none (both proved).
* Theorems: `C47_discover_no_response`, `C47_error_reported`, `C47_never_nil`, `C47_raw_partial`, `C47_retry_no_response`, `C47_success`.

### C48 The hand-built Discover HTTP request frames the body correctly

The Discover client writes headers whose Content-Length is the byte length of the body, followed by a blank line and exactly the body.

* Model and proof: discoverCardHTTPPost's bytes against an HTTP/1.1 framing specification (Spec/Client); for URLs with the parser of C98.
* Status: **partial**. For all URLs whose decoded path and host have no CR or LF; in terms of URLs, for those with no %0D or %0A and only ASCII escapes in the path (C48_urls_partial). With CR LF CR LF in the path, that is with %0D%0A%0D%0A in the URL, the framing is broken (C48_broken_path, C48_break).
* Theorems: `C48_break`, `C48_broken_path`, `C48_framed_partial`, `C48_urls_partial`.

### C49 SGML leaf list and message structures agree

No element the library treats as auto-closing leaf has children in any message structure, so no nested data is lost when reading SGML; unclosed and closed leaf elements read the same.

* Model and proof: Leaf list generated from leaf_elements.go against the schemas (`decide` over all); layouts of trees (Spec/Layout) are lexed and built back, by induction on the tree.
* Status: **proved**. Table fact over all structures; every SGML document, whatever its white space and whether leaves are closed or not, is read as the tree it lays out.
* Theorems: `C49_closed_or_not`, `C49_no_container_is_leaf`, `C49_request_layout`, `C49_response_leaves`, `C49_sgml_reads`, `C49_written_leaves`.

### C50 Nested validation errors are flattened without loss

Adding errors to a validation error list never drops, duplicates or reorders any error, and the list is reported as an error exactly when nonempty.

* Model and proof: errInvalid.AddErr/ErrOrNil; induction on the sequence.
* Status: **proved**. For every sequence of additions.
* Theorems: `C50_adderr_flat`, `C50_adderr_no_loss`, `C50_error_text`, `C50_errornil`.

### C51 detect-settings tries every combination until one works

The detect-settings command tries every combination of client program, program version, OFX version and carriage returns, each once and in a fixed order, stops at the first that works and prints exactly its settings; if every combination fails it says so and exits with a status other than zero.

* Model and proof: detectSettings' loops over its tables with an arbitrary server; a loop lemma for early exit.
* Status: **partial**. Order, completeness (594 combinations, none twice), stopping at the first success and the printed text are proved for every server. The code violates the rest: after all combinations failed it prints nothing more and exits with 0 (C51_detect_partial in general, C51_failure_status for an example).
* Theorems: `C51_combinations`, `C51_detect_partial`, `C51_failure_status`.

### C52 The command-line transaction printers handle every valid response

For every response that passes validation the transactions-bank, transactions-cc and transactions-inv commands print without crashing.

* Model and proof: The printing code with nil dereferences as an outcome (`Printed`).
* Status: **partial**. The code violates the property: statements without a transaction list (or balance) are valid and crash all three commands (proved end to end). It is proved that they crash in no other case.
* Theorems: `C52_crash`, `C52_panics_partial`, `C52_valid_crash`.

### C53 Equality of OFX values is an equivalence on the denoted value

Equal on Int, Amount, Date, String, Boolean, UID and CurrSymbol is reflexive, symmetric and transitive and agrees with the denoted value (amount value, instant, text).

* Model and proof: The Equal methods against denoted values (Spec/Equal).
* Status: **proved**. Equality of the denoted values, hence an equivalence relation, for Amount, Date, Currency and the scalar types.
* Theorems: `C53_amount_equal`, `C53_currency_equal`, `C53_date_equal`, `C53_simple_equal`.

### C54 A message-set profile list round-trips exactly when all its sets are version 1

Encoding a profile's message set list fails exactly if some set's name does not end in V1; otherwise decoding it gives back the same sets in order.

* Model and proof: MessageSetList's MarshalXML/UnmarshalXML with the V1 suffix.
* Status: **proved**. Exact success condition, and exact round trip.
* Theorems: `C54_encode_iff`, `C54_roundtrip`, `C54_written`.

### C55 Every element holding a value may be left unclosed in SGML documents

In an SGML document the end tag of any element holding a value (no child elements) may be left out, as OFX 1.x allows, without changing what is decoded.

* Model and proof: As C49, for the value elements missing from the list.
* Status: **partial**. The code violates the property: 89 value elements are missing from the list of leaf elements, and such an element left unclosed swallows the element after it (proved, with a transaction losing its memo). For all other elements it holds.
* Theorems: `C55_listed_partial`, `C55_memo_lost`, `C55_unclosed_swallows`, `C55_unlisted`.

### C56 Request documents never travel over plain HTTP

No HTTP request made during a call, including those made because a server redirected the client, goes to a URL that does not start with https://.

* Model and proof: As C42 with net/http's redirections.
* Status: **partial**. The code violates the property: net/http follows redirections to plain http and sends the document there (proved for every request). Without redirections it holds, and with any for a basic client whose HTTP client refuses to follow to other than https URLs (C56_guarded_partial); the Vanguard client ignores such an HTTP client (C56_guard_ignored).
* Theorems: `C56_guard_ignored`, `C56_guarded_partial`, `C56_no_redirects_partial`, `C56_redirect_leak`.

### C57 A dry run sends nothing and shows the document that would be sent

With the dry-run flag a command makes no network request and writes no file, and prints the document that the same command would have sent without it.

* Model and proof: The commands of cmd/ofx over a `World`; trace and output by cases on the command.
* Status: **proved**. All eight commands that make one request, every client kind.
* Theorems: `C57_command_line`, `C57_dryrun_quiet`, `C57_dryrun_same`.

### C58 Downloads save exactly what the server answered

When a download command succeeds, the named file holds exactly the body of the server's last answer, which had status 200; when it fails the file was not created or holds a beginning of that body.

* Model and proof: As C57: files written.
* Status: **proved**. All four download commands.
* Theorems: `C58_failed`, `C58_saved`.

### C59 The commands' exit status tells whether the query worked

A printing command that is not a dry run exits with status 0 only if the server answered with status 200, the answer parsed and was valid, and the signon status was 0.

* Model and proof: As C57: exit status.
* Status: **proved**. All four printing commands.
* Theorems: `C59_otherwise`, `C59_success`.

### C60 The printing commands show what the response says

A printing command that exits with status 0 prints, for the first statement (or account list) of the server's last answer, the balance and one line per transaction in order with date, amount, currency, kind and name (or one paragraph per account), or a message that there is none; nothing else.

* Model and proof: As C57: output against the text of Spec/Cli.
* Status: **partial**. Proved for bank and credit card transactions and accounts. The code violates it for investments: the balance is left out unless it is a whole number (and not a multiple of 2^64); proved that exactly that line is missing, with a concrete server.
* Theorems: `C60_inv_partial`, `C60_no_balance`, `C60_shown`.

### C61 Commands check their flags before doing anything

A command given no server URL, no user name (profiles may be downloaded without one, as the anonymous user) or, if it saves to a file, no file name sends nothing, writes nothing and exits with status 1; a missing password is asked for, and if it cannot be read the command likewise stops; otherwise it runs with exactly the flags given.

* Model and proof: As C57: CheckFlags.
* Status: **proved**. All nine commands.
* Theorems: `C61_complete`, `C61_incomplete`.

### C62 The commands ask the server for exactly what the flags say

Every document a command sends has the OFX version, line layout, login, institution, application and client id given by the flags, and exactly one message, with a fresh identifier, that asks for the account (or profile or account list) the flags name. detect-settings asks, for one combination of settings after the other, for the profile with the settings of that combination, first with the login of the flags and then anonymously, and sends nothing else.

* Model and proof: As C57: the element tree of the posted document against Spec/Cli; for detect-settings by induction over the failed attempts, with C67 for the request that is sent twice.
* Status: **proved**. All nine commands, every client kind; whole element tree of the document. For detect-settings also the order: the run is split into one part per combination tried.
* Theorems: `C62_asks`, `C62_detect`.

### C63 Errors of the input stream are reported

If the reader passed to DecodeResponse or ParseResponse returns an error before the document is complete, decoding fails; an error after its last end tag makes no difference.

* Model and proof: As C32 with readers that fail.
* Status: **partial**. Proved for readers that fail for good. The code violates the rest: an error returned while the first 1024 bytes are read is dropped and reading goes on (proved for every SGML document).
* Theorems: `C63_dropped`, `C63_reported_partial`.

### C64 The command line runs the sub-command named and nothing else

The program runs exactly the sub-command its first argument names; without one of the nine names it sends and writes nothing, prints the list of all sub-commands and exits with 0 if help was asked for and 1 otherwise.

* Model and proof: Model/Main: `main` over the list of arguments.
* Status: **proved**. All argument lists; all nine sub-commands.
* Theorems: `C64_named`, `C64_no_command`, `C64_usage`.

### C65 Every command line argument is honoured or refused

Arguments after the sub-command either give flags of that sub-command values, in any of the usual spellings, and the sub-command runs with exactly these values (the last one counting) and the defaults for the rest; or nothing is sent or written and the program fails or shows help.

* Model and proof: Model/Main: package flag's parser as a recursive function on the arguments; Spec/Main says inductively how flags are spelled; induction both ways.
* Status: **partial**. Every argument list is characterised: flags in any spelling up to the first argument that is not a flag take effect, the last one counting (delays are given as integer literals of Go below 2^64: Spec/Number); otherwise the program exits with 2 (or 0 for help) having done nothing. The code violates the rest: everything after the first argument that is not a flag is ignored, even -dryrun (proved).
* Theorems: `C65_arguments_partial`, `C65_delay`, `C65_dryrun_ignored`, `C65_ignored`, `C65_spelled`.

### C66 Dates made from numbers are the instants those numbers name

NewDate with the fields of a reading that exists returns an instant at which the clock of the given location shows that reading, whenever there is one, and otherwise the reading taken with an offset in force nearby; fields beyond their range carry over into the next larger one. NewDateGMT encodes as the digits of the reading followed by [0:GMT], which decodes to the same instant.

* Model and proof: Model/NewDate: time.Date with its carrying and two zone lookups; a location is any function from instants to zones; Spec/NewDate says what the clock of a location shows.
* Status: **proved**. All readings and locations; integers do not overflow.
* Theorems: `C66_carry`, `C66_fixed`, `C66_gmt`, `C66_location`, `C66_nearby`.

### C67 A request may be sent again

However often a request has been marshalled or sent before, with whatever clients, servers and outcomes, sending it does what sending it for the first time does: the same bytes go to the same server and the same response or error comes back. The destination, the credentials and the messages the caller put in stay; only the date, the application, the version and an empty language are filled in.

* Model and proof: Spec/Reuse: the inductive relation Used over all calls taking a request; an equivalence of requests that every call stays within and that no client tells apart.
* Status: **proved**. Histories are an inductive relation over SetClientFields, Marshal, RequestNoParse and Request with any clients and outcomes.
* Theorems: `C67_document`, `C67_left`, `C67_messages`, `C67_messages_kept`, `C67_request`, `C67_send`.

### C68 What transactions, positions, orders and securities say about themselves is what the document says

For each element of the lists of investment transactions, positions, open orders and securities, the type method returns the name of the element it is read from and written as, and the methods InvTransaction, InvPosition and SecurityInfo return what the INVTRAN, INVPOS or SECINFO element of it holds, wherever that element is nested.

* Model and proof: Gen/Accessors: the methods generated from /repo; Spec/Access: finding the first element of a name in a written element; first fields are written first.
* Status: **proved**. A Currency is written under any name its XMLName holds, so a caller can add further INVTRAN elements after the first; the first one is meant.
* Theorems: `C68_orders`, `C68_position_says`, `C68_positions`, `C68_read_orders`, `C68_read_positions`, `C68_read_securities`, `C68_read_transactions`, `C68_securities`, `C68_security_says`, `C68_transaction_says`, `C68_transactions`.

### C69 A broken download is never taken for a complete one

In whatever pieces the network delivers the body of a response, Request returns the same response. If the connection breaks off, Request fails or returns exactly what it would have returned for the complete body; if the server sent a response marshalled by this library, it fails whenever a byte is missing.

* Model and proof: Model/Delivery: Request with the body as an io.Reader; C32, C34 and C63 composed with the clients of Model/Client.
* Status: **proved**. Errors that come with the last bytes delivered or after them; fewer than 100 empty reads in a row.
* Theorems: `C69_broken`, `C69_incomplete`, `C69_pieces`.

### C70 What was read can be saved and read again

A response that ParseResponse returned without error, whatever document it came from, can be marshalled, and the document written parses without error as the same response; if its dates name their zones, marshalling that one again gives the same document byte for byte. (Amounts of more than 100 decimals, dates OFX cannot express and profile message sets of versions other than 1 excepted.)

* Model and proof: Lemmas/Read: an invariant of decoding (texts trimmed and made of XML characters, integers in range, currencies and constants from their tables, XMLNames right or unset), from the lexer up; with C37 it gives the round trip, and an encoder congruence the fixed point.
* Status: **proved**. All documents, laid out in any way; the exceptions are those of the statement (Spec/Saved).
* Theorems: `C70_saved_again`, `C70_saved_and_read`.

### C71 The document sent means exactly what the request says, whatever the texts in it

The bytes of a marshalled request lay out one element tree only, and that tree says the version, the signon (in English unless a language is given) and the messages of the request, in their sets and their order, and nothing else. No text in it, such as a password containing tags or references, can be taken for markup or end an element early, in SGML with its unclosed leaf elements or in XML. Two requests with the same bytes mean the same.

* Model and proof: Spec/Meaning: what a document says, by its header, its layouts and its elements; two layouts of one text are read as one tree (C49), so the tree is unique up to white space, and the values with it; C38 and C49 give that requests say what they hold.
* Status: **proved**. What a document says is defined by the layout rules of Spec/Layout and by what elements say (Spec/Says).
* Theorems: `C71_one_meaning`, `C71_one_tree`, `C71_request_says`, `C71_same_bytes`.

### C72 A client may be shared by goroutines

If goroutines call Request at the same time, each on a request of its own and on clients they may share, then in every interleaving of their steps each returns, leaves in its request and does on the network exactly what it would with nobody else about; none waits for another, no client and no other request is changed, and there is no data race. (Sharing a request is not safe: the settings of another client can get into the document.)

* Model and proof: Model/Concurrent: Request as a program of single accesses to shared memory, schedules as lists of goroutine numbers. The outcome of each goroutine were it left alone is invariant under every step of every goroutine (a program touches its own request only), and alone the program is the sequential model. C72_no_race, that there are no data races, is about the finer model of C97.
* Status: **proved**. Goroutines are programs of single accesses to shared clients, requests and messages (Model/Concurrent; Model/Sharing for C72_no_race); a round trip of net/http is one step.
* Theorems: `C72_as_alone`, `C72_finishes`, `C72_no_race`, `C72_shared_request`, `C72_so_far`, `C72_untouched`.

### C73 Exactly the notations of Go's rational numbers are amounts

The text of an amount element is accepted exactly if, without surrounding white space, it is an optionally signed number: a decimal numeral (also to base 2, 8 or 16 after 0b, 0o, 0x) with at most one point or comma, underscores only between digits and an optional exponent of ten or two, or a fraction of two whole numbers. It is accepted as exactly the number it denotes; every other text is an error. (Wider than OFX, which knows decimal numerals only: a bank writing 010/4 gets 2.)

* Model and proof: Spec/AmountText: a grammar with values. Lemmas/AmountText: inversion and completeness of each scanner of math/big (digit loop, whole numbers, exponent) against it; the comma is the first separator of an accepted text.
* Status: **proved**. An equivalence with the grammar of Spec/AmountText, which includes math/big's limits on exponents; that more than OFX's decimal numerals is accepted is C73_beyond_decimal.
* Theorems: `C73_accepted_iff`, `C73_beyond_decimal`, `C73_rejected_iff`, `C73_unambiguous`.

### C74 Exactly the texts of one notation are dates

The text of a date element is accepted exactly if, without what follows the first closing bracket and without surrounding white space, it is a date that exists in the calendar (4, 2 and 2 digits), optionally an hour, minutes, seconds and a fraction of a second, then optionally blanks and a zone suffix of at most 24 hours, with hundredths and a name that are optional, the name being one Go can read. It is accepted as exactly the instant and offset it denotes, on every machine, with the zone name it gives (GMT without a zone; the machine's own name for a nameless offset only if the offsets agree); every other text is an error. (Wider than OFX: an hour of one digit at the end, commas, fractions of any length and blanks before the zone are accepted.)

* Model and proof: Spec/DateText: the notation and the instant it denotes. Lemmas/DateText*: each layout element inverted and completed, the zone tail by counting blanks, unambiguity by lengths; the first layout that succeeds therefore gives the only meaning.
* Status: **proved**. An equivalence with the notation of Spec/DateText (the offset is the one the code reads, which for zones just west of Greenwich is not the one OFX means, see C15); that more than OFX's notation is accepted is C74_beyond_ofx.
* Theorems: `C74_accepted_iff`, `C74_beyond_ofx`, `C74_machine`, `C74_rejected_iff`, `C74_unambiguous`.

### C75 A response read is exactly what the elements of the document say

A document with a supported header, its elements laid out in any way, is read as a response exactly if that response has the header's version and its signon and messages are what the elements say, and is refused exactly if they do not say anything. What elements say: each field is about the elements of its name at its place; a text denotes a string, number, amount, date, currency or enumeration value by the rules of that type; of several elements for a single value the last counts, each being readable; without an element a value is zero or absent; a list has one value for each element, in order; where only certain elements are allowed nothing else but white space may appear; elements of other names say nothing.

* Model and proof: Spec/Elements: for each structure, the element each field is about (generated once from the declarations in /repo by tools/gen_elements.py); Lemmas/Elements proves each equal to what Lemmas/SchemaSays says by recursion on the schema. Lemmas/Says*: the decoder's event-by-event updates of a struct are regrouped into one run for each field (each element reaches exactly one field, by a decidable check of the schemas), then mutual induction on the schema; documents by C49 and by lexing any XML header.
* Status: **proved**. An equivalence with Spec/Says, which lists for each structure the element each field is about (Spec/Elements), mentioning neither the schemas of the model nor the decoder; Layout (Spec/Layout) covers white space, references, line ends and unclosed leaf elements, but not attributes, comments, CDATA sections or further instructions between the elements: for these see C76.
* Theorems: `C75_message_iff`, `C75_refused_iff`, `C75_response_iff`, `C75_sgml_and_xml`, `C75_sgml_document`, `C75_signon_iff`, `C75_transaction`, `C75_unambiguous`, `C75_xml_document`.

### C76 Exactly the documents of one grammar are read

A sequence of bytes is read as a response exactly if it starts with a document of this grammar, and then as what the document's elements say: an SGML header, whose first '<' is among the first 1024 bytes, and one element in which elements may be left open before another element's end tag and OFX leaf elements before any tag; or, if the first 1024 bytes look like XML, an xml declaration of no other version than 1.0, an OFX instruction with a supported header and one well-nested element; tags may have attributes (also unquoted or without values in SGML), and there may be character data with references, CDATA sections, comments, instructions and directives between tags. What follows the element does not matter. Nothing else is read, and no bytes are documents in two ways.

* Model and proof: Spec/Grammar: the grammar as inductive predicates over texts, pieces and bytes. Lemmas/GrammarChars, GrammarData, GrammarTag, GrammarMarkup: each function of the lexer accepts exactly the texts of one predicate; GrammarTree: the stack machine building elements accepts exactly Content; GrammarDoc: pieces read up to a tag, UTF-8 and the guess of the kind of document, put together.
* Status: **proved**. An equivalence between the model of DecodeResponse on bytes and the grammar of Spec/Grammar, which does not mention the lexer or the tree builder. As in the whole model, names with a colon are refused, where encoding/xml is more generous; the tables of letters beyond ASCII are a parameter.
* Theorems: `C76_document_iff`, `C76_kind`, `C76_parse_iff`, `C76_refused_iff`, `C76_unambiguous`.

### C77 Exactly the messages meeting the rules for their kind are accepted

A bank statement and a request for one is accepted for a version exactly when its fields meet the documented rules, any other message exactly when its transaction id has 1 to 36 bytes, a list of securities always. A request or response is written exactly when its signon meets the signon rules and each of its lists holds only accepted messages of its own message set (and profiles list only version 1 message sets); a document is parsed without error exactly when it can be read and the signon and messages read are accepted. Validation changes nothing but the routing of accepted profile requests and the empty language of signons.

* Model and proof: Spec/Accept: acceptance of each of the thirteen kinds and the message set of each, by fields. Equivalence by case analysis of the Valid methods (C21, C19, C18), lifted to Marshal by C26 and to ParseResponse by C35.
* Status: **proved**. Equivalences with the rules of Spec/Valid and Spec/Accept, which mention fields only. That corrections stating their action are refused (C20) is part of the rule for transactions.
* Theorems: `C77_left_as`, `C77_message_iff`, `C77_parsed_iff`, `C77_request_written_iff`, `C77_response_written_iff`.

### C78 The parts of an accepted message meet their own rules

If a message is accepted, the status it reports is a defined one, the bank or card account it names is complete and its transactions meet the transaction rules.

* Model and proof: From C77 for bank messages; for the others that Valid does not depend on the parts, and a witness.
* Status: **partial**. Proved for bank statements and requests for them. Violated by all other kinds: Valid of card, investment, profile, security list and account information messages looks at the transaction id only, so undefined statuses, empty card accounts and bad transactions pass (C78_status_unchecked, C78_card_unchecked, C78_bad_parts_accepted).
* Theorems: `C78_bad_parts_accepted`, `C78_bank_partial`, `C78_card_unchecked`, `C78_status_unchecked`.

### C79 Requests are posted the way the client is set up

Every post a client makes is a POST of the whole document of the request to the URL of the request with exactly one Content-Type, application/x-ofx; it names the User-Agent the client is set to, once, and none if it is set to none. The HTTP client set decides about redirections: none is followed that it does not allow, and no more than it permits.

* Model and proof: As C42: the requests of a call are determined by cases over the clients; that redirections are allowed by induction over net/http's loop. C56_guarded_partial uses it: a policy that follows to https only makes C56 hold for the basic client.
* Status: **partial**. Method, URL, content type and body are proved for every post of all clients, the user agent for the first post of each call. Violated: the Vanguard client's second post never names a user agent, and the Vanguard and Discover clients ignore the HTTP client set (the Discover client the user agent, too): C79_retry_agent, C79_vanguard_ignores, C79_discover_ignores. The policy about redirections is proved for the basic client.
* Theorems: `C79_agent_partial`, `C79_discover_ignores`, `C79_posted`, `C79_redirections_partial`, `C79_retry_agent`, `C79_vanguard_ignores`.

### C80 Documents are written element by element in the order of the standard

The body of the document written for a request or response consists of exactly the elements that Spec/Written lists for its signon and messages, in that order and nested that way: each required element always, each optional one exactly when its value is set.

* Model and proof: Spec/Written lists the elements of each structure in plain lists (generated once from the declarations in /repo by tools/gen_written.py, independently of Gen/Schema). Lemmas/WrittenElements proves for each structure that the generic encoder over its schema writes this list, by one lemma for each kind of field and by computing how encoding/xml opens and closes the parents named in tags; messages and documents by C25.
* Status: **partial**. The bodies of all documents are proved equal to those of Spec/Written, a list of elements for each structure. Violated for optional amounts, dates and aggregates that are not pointers, which are written although not set (Spec/Written says always): C80_unset_amounts_written, C80_both_currencies_written.
* Theorems: `C80_both_currencies_written`, `C80_message_iff`, `C80_request_body_partial`, `C80_response_body_partial`, `C80_unset_amounts_written`.

### C81 detect-settings waits between requests as long as it is told

Between any two requests that detect-settings sends there is a pause of the number of milliseconds given with -delay: it waits after each failed attempt, says so in the line about the attempt, and waits at no other time.

* Model and proof: Pauses are events of the history (`Event.paused`, in nanoseconds as int64, which wraps around). Lemmas/Pause proves that no client pauses; the rest is the loop lemma of C51.
* Status: **partial**. The whole history of a run is characterised: one attempt without pauses per combination, followed by exactly one pause if it failed, and as many pauses as failures reported, all of the length asked for if that is less than 2^63 nanoseconds. Violated: the request with the user's login and the one with the anonymous login follow each other without a pause (C81_no_pause), and longer delays wrap around, 2^58 ms to no pause at all (C81_too_long).
* Theorems: `C81_count`, `C81_no_pause`, `C81_pauses_partial`, `C81_too_long`.

### C82 Passwords are not shown

Outside of dry runs a password, given as a flag or typed in, goes nowhere but into the document sent: what a command prints, how it ends, the files it writes, and the URLs, headers, cookies, hosts and order of everything it sends are the same for any two passwords (both missing, both acceptable or both too long) if the server does not react to the document. For programs using the library the same holds of what Request and RequestNoParse return.

* Model and proof: Two runs are related by equality of everything but the documents (`outline`); Lemmas/Secret carries the relation through net/http's loop, the three clients, Marshal and ParseResponse, Props/Secret through flags, commands and the loops of detect-settings.
* Status: **proved**. Non-interference, for all nine commands, all clients and any redirection policy that does not look at bodies. Dry runs print the document and with it the password (C57). The texts of errors of net/http, crypto/tls and the operating system are not modelled: they are taken not to quote the body.
* Theorems: `C82_password_unseen`, `C82_request`, `C82_request_no_parse`.

### C83 What a document says does not depend on where it is read

A document is refused on all machines with the same error, or read on all machines as the same response with the same verdict on its validity, whatever their time zone: every text, amount, instant and offset is the same. Only a zone abbreviation that a date lacks is supplied by the machine, and only if its own clocks show the date's offset at that instant. The same holds of the responses a client's Request returns, and what it sends does not depend on the time zone at all.

* Model and proof: Decoding on a machine equals decoding on a machine whose zone has no abbreviation, followed by `known` on every date: mutual induction over schemas (Lemmas/Place). Valid only looks at instants, so its verdict is the same.
* Status: **proved**. The local time zone is a function from instants to abbreviations and offsets, so changes of offset are included. C83_everywhere gives identity of what is read if no date lacks its abbreviation. What the commands print shows abbreviations and so may differ in them.
* Theorems: `C83_date`, `C83_everywhere`, `C83_instants`, `C83_read`, `C83_request`.

### C84 A listing of transactions has a line for each transaction

When transactions-bank or transactions-cc succeeds, it has printed a line about the balance, a headline and exactly one line for each transaction the server sent, so that the number of transactions can be told from the listing and a name or memo cannot pass for another transaction.

* Model and proof: Line feeds are counted in the text C60 says is printed (Lemmas/Lines): dates, amounts and kinds have none of their own. The counterexample is run through ParseResponse and the command.
* Status: **partial**. C84_lines_partial: there are never fewer lines, and exactly as many if and only if no text shown as the server sent it (name, memo, currency, zone abbreviation) has a line feed. Missing: that there are never more, which is false: C84_forged gives two valid responses, with two transactions and with one, listed alike.
* Theorems: `C84_forged`, `C84_lines_partial`.

### C85 Downloads that fail do not harm files

Commands change no file but the one a download is to be saved to, at whatever moment they are interrupted. That file stays as it was unless the download succeeds; when it has succeeded, the file has exactly the server's answer. If the download is cut short, whoever reads the file notices.

* Model and proof: The disk is a function from names to contents; a run is a list of file operations (create, then writes as io.Copy gets them), a crash a prefix of it (Model/Disk). Induction on the writes; C34 for what can be read.
* Status: **partial**. C85_interrupted_partial: at every point other files are untouched and the file is as it was or has the beginning of an answer with status 200; C85_no_answer: nothing is touched without such an answer; C85_complete: after success the file has the whole answer; C85_noticed: what was cut short cannot be read. Missing: that the file keeps what was in it if the download fails, which is false: C85_lost (os.Create empties it first).
* Theorems: `C85_complete`, `C85_interrupted_partial`, `C85_lost`, `C85_no_answer`, `C85_noticed`.

### C86 What is read is no larger than the document

Reading does not amplify: all texts of a response, its messages, the entries of its lists and its optional structures together are no more than the bytes of the document it was read from, and writing a value that was read takes no more room than its text did. A small document cannot make a program hold or write a large response.

* Model and proof: A size for values and element trees (Spec/Size); induction on schemas for decoding, on the grammar of documents for parsing. Amounts: bounds from their notation (Spec/AmountText) and the digits printed.
* Status: **partial**. C86_size_partial: texts, messages, list entries and optional structures together are at most the bytes of the document; C86_counts: so are the messages of each set and the transactions of a bank statement; C86_amount_limit: an amount is written with at most four times its text and thirteen million characters. Missing: that amounts take no more room than their texts, which is false: C86_amount_grows (1e1000000).
* Theorems: `C86_amount_grows`, `C86_amount_limit`, `C86_counts`, `C86_size_partial`.

### C87 A server's answer gets through

Whatever the client, Request on a valid request to an https URL whose server answers it with status 200 and a document the library writes for a response returns that response and no error. The client for Vanguard also gets it if the server first answers with cookies and no content and gives its answer only to who comes back with the cookies.

* Model and proof: A server is any network that answers posts of a given document (Spec/Answered); clients function by function, then the round trip of C37.
* Status: **proved**. C87_answered: for every client, after any history, for servers that answer however the document is posted; C87_vanguard_cookies: for Vanguard's round of cookies. The texts of the response as in C37.
* Theorems: `C87_answered`, `C87_vanguard_cookies`.

### C88 Commands with usable flags work

A command whose flags name an https URL, an existing version, a login and program names of allowed sizes and, for bank accounts, the bank, the account and a known kind of account, succeeds if the server answers: a command that saves writes exactly the server's document to the file and exits with status 0; one that shows exits with status 0 after showing what the response says if it says that the login succeeded, unless it crashes. With other flags nothing is sent or written and the status is 1.

* Model and proof: The conditions under which the request of a command is written, from C77; then C87's servers and the cases of the commands.
* Status: **proved**. C88_saves and C88_shows: usable flags (Spec/CliWorks) and a server that answers what the command asks (C62) give status 0, the file, and what is shown (for investments see C60; crashes are C59's). C88_refused: all other flags send and write nothing, status 1.
* Theorems: `C88_refused`, `C88_saves`, `C88_shows`.

### C89 A response is to the request it is returned for

The response Request returns, and the one a command shows, answers the request that was sent: its messages carry the transaction ids of the request's, and its statements are of the accounts asked about.

* Model and proof: From C28 and the trace of documents sent; the violation by C87's servers answering with a statement of another account.
* Status: **partial**. C89_answer_partial: the response is what the last answer says, and only this request's document was sent. Missing because false: nothing compares ids or accounts (C89_not_checked: for every client and request there is a server whose statement of another account is returned without error; C89_command: the command shows it).
* Theorems: `C89_answer_partial`, `C89_command`, `C89_not_checked`.

### C90 An account that was read can be asked about

A bank, credit card or investment account taken from a response that was read (listed in it, the subject of a statement in it, or the target of a transfer) and put into a statement request gives a request that asks about the account described as it was read, and is refused only if the account is incomplete. The commands can ask about every account get-accounts lists.

* Model and proof: The element names that reading leaves in the accounts, from the specification of C75; the elements written for the questions; C77 for when they are written.
* Status: **partial**. C90_bank_partial, C90_card, C90_investment: accounts listed or with statements are asked about as they were read, and the requests are refused exactly for incomplete bank accounts and bad signons or ids; C90_statement: accounts of statements parsed without error are never refused. Missing because false: targets of transfers are written as BANKACCTTO in the request, without error (C90_transfer_target), and the commands cannot ask about accounts with a branch or a key (C90_command).
* Theorems: `C90_bank_partial`, `C90_card`, `C90_command`, `C90_investment`, `C90_statement`, `C90_transfer_target`.

### C91 Documents are written and read in the encoding their header names

The bytes of a document marshalled are its text in the character encoding its header names, and a document read is understood in the encoding its header names.

* Model and proof: Induction on the rendering of trees for ASCII; for reading, the decoding of UTF-8 stops at the first bytes that are no character, and headers are ASCII; refusal from C34.
* Status: **partial**. C91_written_partial, C91_response_written_partial: documents of version 1.x name US-ASCII and code page 1252 and are in it exactly if all texts in them are ASCII. Missing because false: other texts are written in UTF-8 (C91_written_wrong). Reading ignores the encoding named (C91_declaration_ignored, C91_xml_declaration_ignored) and takes everything for UTF-8 (C91_read_as_utf8), so documents in the encoding named are cut at the first letter outside ASCII (C91_1252_cut) and refused (C91_1252_refused).
* Theorems: `C91_1252_cut`, `C91_1252_refused`, `C91_declaration_ignored`, `C91_read_as_utf8`, `C91_response_written_partial`, `C91_written_partial`, `C91_written_wrong`, `C91_xml_declaration_ignored`.

### C92 Nothing a server sends makes the library panic

Whatever bytes a server sends, ParseResponse returns: no slice is indexed out of range, no nil pointer is dereferenced and the loops over headers end. The same holds for reading the text of a date and for Valid, whichever of a response's optional parts are missing.

* Model and proof: Each checked function equals .ret of the unchecked one: the header expression has nine groups (soundness of matchAll), SplitN with 2 is cut, the loop over XML attributes shortens the text; pointers by cases.
* Status: **proved**. Model/Checked.lean has the code with slice indices, pointers and loops that can panic; C92_parse, C92_date and C92_valid say none does, and that the results are those of the model without panics. UIDs: C08_uid_recommended_no_panic; names of enumerations: C10. Panics inside the Go library (encoding/xml, math/big, regexp) are outside the model, as is a nil interface put into a list of messages by the caller.
* Theorems: `C92_date`, `C92_parse`, `C92_valid`.

### C93 Refusals by the server are reported

If the server answers a request with a status and without what was asked for, as the specification says it does when it refuses the request, then the caller of Request gets a response with that status, and the user of the command line client is told.

* Model and proof: From the meaning of documents (C75, C76): an element without the content asked for is read as a message whose fields are unset, with the status; then the rules of Valid (C77) and what the commands do with such messages (C88).
* Status: **partial**. C93_decoded: the refusal is in the response decoded, with its status. C93_returned_partial: Request returns it, unless it is about a bank account. Missing because false: a refusal about a bank account makes Request return no response (C93_bank_lost), with an error that is the same whatever the status (C93_bank_error), so transactions-bank fails (C93_bank_command); transactions-cc and transactions-inv crash (C93_crash) and get-accounts says that it found no accounts (C93_no_accounts).
* Theorems: `C93_bank_command`, `C93_bank_error`, `C93_bank_lost`, `C93_crash`, `C93_decoded`, `C93_no_accounts`, `C93_returned_partial`.

### C94 RawRequest sends what the reader delivers

Whatever reader RawRequest is given, and in whatever pieces it delivers the document, the server gets exactly what it delivers, once, and RawRequest returns what it would return for a buffer with these bytes; only a redirection that demands the document a second time is not followed but returned with an error. If the reader fails, no more than what it delivered before is sent, and nothing at all by the client for Discover, which returns an error.

* Model and proof: Model/Upload: RawRequest with a reader instead of a buffer, net/http's redirections for bodies that cannot be read again. Induction on the reader and on the redirections followed.
* Status: **proved**. Readers are sequences of results of Read (Spec/Upload). C94_pieces: only the bytes and the error count. C94_as_buffer: the same result and events as for a buffer, unless a server answers 307 or 308, for which C94_demanded_again gives the response and the error. C94_posted: one request with the document, all others without body; also for readers that fail. C94_broken: Discover. C94_answer: the response returned is the last one, the others are closed. That net/http may return an answer the server gives before the reader fails is a parameter.
* Theorems: `C94_answer`, `C94_as_buffer`, `C94_broken`, `C94_demanded_again`, `C94_pieces`, `C94_posted`.

### C95 Documents that follow one another are decoded one after another

DecodeResponse takes exactly one document from its reader: if documents follow one another in the reader, calling DecodeResponse (or ParseResponse) again and again with that reader returns their responses in that order, and then an error.

* Model and proof: The model is extended by the reader as it is left (Model/Stream): the tokens not read when the OFX element ends, the input after the tokens read, and the bufio.Reader after so many calls of ReadByte.  It is proved that the tokens, characters and bytes taken are the shortest that decode, by induction over the open elements and the input; then by induction over the documents.
* Status: **partial**. Proved for bufio.Readers with a buffer of at least 1024 bytes (C95_one_partial, C95_all_partial, C95_written_partial). Missing because false: from any other reader at least 1024 bytes are taken and those beyond the document are lost (C95_read_ahead, C95_second_lost); and an SGML document after a line break or other blanks is not decoded from any reader (C95_blank_between).
* Theorems: `C95_all_partial`, `C95_blank_between`, `C95_one_partial`, `C95_read_ahead`, `C95_second_lost`, `C95_written_partial`.

### C96 DecodeResponse does not wait for what comes after the document

When the reader (an open connection, say) has delivered a whole document, DecodeResponse returns its response without calling Read again for bytes that have yet to be sent.

* Model and proof: The call of Read that waits is the last piece of the source.  Invariant of the bufio.Reader (Open): that piece has not been read; kept by Peek, ReadSlice, UnreadByte and ReadByte as long as what they look for is still to come.  For the violation: the number of pieces never grows, and Peek leaves none.
* Status: **partial**. Proved if at least 1024 bytes, the document and whatever follows it, have been delivered (C96_returns_partial). Missing because false: with less than 1024 bytes the version is not guessed before the reader has been asked for more (C96_waits).
* Theorems: `C96_returns_partial`, `C96_waits`.

### C97 Goroutines may send the same messages

If goroutines call Request at the same time on different requests that hold some of the same messages, then in every interleaving of their steps each returns and does on the network what it would with nobody else about, the messages are afterwards as a single call leaves them, and there is no data race: two goroutines are never about to access the same memory with one of them writing it.

* Model and proof: Model/Sharing: as Model/Concurrent, with messages at addresses of their own.  A simulation by goroutines with messages of their own: a shared message is as it was or as Valid leaves it, and neither its type nor the verdict of Valid tells the two apart.  A race is a reachable state in which two goroutines are about to access the same place and one writes (Spec/Race); the simulation relation says what each goroutine may access.
* Status: **partial**. C97_as_alone, C97_so_far, C97_finishes and C97_messages_kept for all messages; C97_no_race_partial for all but profile requests. Missing because false: sharing a profile request is a data race, since its Valid writes to it (C97_race). Accesses are atomic in the model, which Go promises only where there is no race.
* Theorems: `C97_as_alone`, `C97_finishes`, `C97_messages_kept`, `C97_no_race_partial`, `C97_race`, `C97_so_far`.

### C98 The Discover client asks for what its URL names

RawRequest of the Discover client, which writes its HTTP request by hand, makes one connection, to the host and port of the URL (443 if it names none), and posts the body to the URL: the first line asks for the path and query as the URL writes them, and one Host line names the host, with the port unless it is 443.

* Model and proof: Model/Url has net/url's Parse, Hostname and Port for https URLs; Spec/Url writes URLs and the request line and Host line as RFC 3986 and RFC 7230 do.  Parsing a written URL gives its parts (induction on the text); the lines of what is written are unique, so that they can be compared with what the RFC says.
* Status: **partial**. C98_discover: for every URL for which GetClient chooses the Discover client. C98_connects_partial, C98_asks_partial: for URLs with a host name, no port or 443, no query and no percent signs in the path. Missing because false: the query is dropped (C98_query_lost), percent signs in the path are undone (C98_space, C98_question), ports and the brackets of IPv6 addresses are left out of the Host line (C98_port_unsaid, C98_brackets), an empty port is misread (C98_empty_port). URLs with an escaped ASCII character in the name of the host are refused (C98_host_refused); other escapes in it are not stated.
* Theorems: `C98_asks_partial`, `C98_brackets`, `C98_connects_partial`, `C98_discover`, `C98_empty_port`, `C98_host_refused`, `C98_port_unsaid`, `C98_query_lost`, `C98_question`, `C98_space`.

### C99 The Vanguard client returns the cookies the server set

When the Vanguard client asks again because the answer to its first request was empty and set cookies, the Cookie line of the second request returns the cookies of that answer's Set-Cookie lines, names and values as the server wrote them and in order, without those the server has replaced or told the client to forget.

* Model and proof: Model/Cookie has net/http's reading of Set-Cookie lines and its writing of the Cookie line; Spec/Cookie the syntax of RFC 6265 and which cookies are to be returned.  Reading a line that was written gives back name and value; the line written is the values joined, by induction on the cookies; composed with C45.
* Status: **partial**. C99_returned_partial: for all cookies with different names, values without quotes and no Expires, Max-Age, Path or Domain. Missing because false: cookies to be forgotten at once (C99_expired), replaced ones (C99_twice) and values without their quotes (C99_quotes) are sent.
* Theorems: `C99_expired`, `C99_quotes`, `C99_returned_partial`, `C99_twice`.

### C100 Marshal and Valid return whatever the lists of messages hold

Whatever a program puts in the lists of messages of a request or response, Marshal and Valid return: what cannot be written or is not valid is reported as an error and does not make the program panic, and nothing is silently left out of a request.

* Model and proof: Model/Nil has lists of entries that may be nil or nil pointers, and Marshal and Valid on them with panics; Spec/Nil says which entry is the first that is not a valid message.  Case distinction by induction over the list and over the sets: written, error or panic, according to that first entry.
* Status: **partial**. C100_request_partial, C100_response_partial, C100_valid_partial: lists that hold messages only; C100_never_skipped: no request with a nil entry is marshalled without it. Missing because false: C100_panics and C100_response_panics say exactly which requests and responses make Marshal panic, C100_valid_panics which responses make Valid panic. Lists inside messages (positions, transactions, securities) hold values only here; see C105.
* Theorems: `C100_never_skipped`, `C100_panics`, `C100_request_partial`, `C100_response_panics`, `C100_response_partial`, `C100_valid_panics`, `C100_valid_partial`.

### C101 Documents go to the server named only

A request's document, with the user's login in it, is sent to no server but the one the request's URL names, whatever that server answers.

* Model and proof: Spec/Entrust says inductively who may get a document: the URL named, and whomever an answer 307 or 308 to a message with the document names.  Induction on the redirections still allowed by net/http (Model/Client httpLoop), composed over first and second posts.
* Status: **partial**. C101_entrusted_partial: the document only goes to the URL named and to those a server that got it referred to with status 307 or 308; C101_named_partial: without such answers to the URL named only; C101_guarded_partial: a basic client whose HTTP client follows to trusted URLs only sends nothing elsewhere. Missing because false: C101_elsewhere, for every request and every other URL. The Discover client follows no redirections; for where it connects to see C98.
* Theorems: `C101_elsewhere`, `C101_entrusted_partial`, `C101_guarded_partial`, `C101_named_partial`.

### C102 Cookies go back to the server that set them

The cookies a client sends with a request are those the server they are sent to set in an answer to that same request; no server is sent cookies set by another.

* Model and proof: A message and the answer to it are adjacent in the trace.  Without redirections each post has one of each (the case analysis of httpLoop), so the answer whose cookies the second post carries (C45) follows the first post.  The violation is a network built from the other URL and the cookies.
* Status: **partial**. C102_own_partial: unless a server redirects, cookies are sent to the URL named only and are those of an answer to a message sent to that URL. Missing because false: C102_foreign, for every request, other URL and cookies: after a redirection the cookies of the last server go to the one named.
* Theorems: `C102_foreign`, `C102_own_partial`.

### C103 The kind of header does not change what well-formed elements say

Whatever text is read as the elements of a response after an XML header is read as the same response, but for its version, after an SGML header, as long as the elements that hold values hold nothing but text.

* Model and proof: Every rule of the grammar (Spec/Grammar) for XML is one for SGML, so what is read in strict mode is a prefix of what is read otherwise; elements are built the same since only value elements, which hold text only, are closed implicitly.  Counterexample for other values computed by the grammar.
* Status: **proved**. C103_document: the same elements; C103_same: the same response or refusal. C103_comment: the condition on values is needed; a comment in a value of an SGML document makes the reader drop all that follows, without an error.
* Theorems: `C103_comment`, `C103_document`, `C103_same`.

### C104 URLs are refused or lead to their host

A request to a URL with control characters before its fragment, with percent signs outside its query that are not followed by two hexadecimal digits, or with other characters in its user name than are allowed, fails before anything is sent or connected to. With any other URL the request is made, and the Discover client connects to what follows the last '@' before the path, in the zone given if that is an IPv6 address with one, whatever the other parts contain.

* Model and proof: Model/Url again, for parts that RFC 3986 does not allow (Spec/Loose: the URL is given by its parts, cut at delimiters only) and for zones (Spec/Zone). Inductions on the texts; the tables of characters are compared by decide over all ASCII characters, others being excluded by their range.
* Status: **proved**. C104_refused (all clients), C104_posted (basic and Vanguard clients), C104_connects (Discover; a colon without port is C98_empty_port), C104_zone and C104_zone_refused (IPv6 zones, other parts as RFC 3986 allows). net/url is modelled (Model/Url), not assumed.
* Theorems: `C104_connects`, `C104_posted`, `C104_refused`, `C104_zone`, `C104_zone_refused`.

### C105 Lists are written whole or not at all

Whatever a program puts in the lists of transactions, positions, open orders and securities of a response, writing them returns: either the list's element holds every entry, in order, or an error says that it cannot be written. No entry is silently left out.

* Model and proof: Model/Listed models the four loops over slices of interface values, with entries that are values, pointers, nil pointers, nil or of foreign types. A list is either all values or has a first entry that is not (induction); the loop is followed up to it. For values it is compared with the codec of the other properties.
* Status: **partial**. C105_securities_partial, C105_positions_partial, C105_orders_partial, C105_transactions_partial say exactly which lists are written (and as what: as encodeAs writes them, which the other properties are about), which are refused and which panic. Missing because false: a nil entry or nil pointer makes the program panic if no entry before it is refused (C105_panics); pointers to the library's types, which the compiler accepts, are refused with an error. Methods of the program's own types are taken to return.
* Theorems: `C105_orders_partial`, `C105_panics`, `C105_positions_partial`, `C105_securities_partial`, `C105_transactions_partial`.

### C106 Dates in one zone sort as texts

The texts written for two dates in the same time zone, of the years 0 to 9999, compare, character by character, as the dates do in time, to the millisecond: the earlier date has the smaller text, and the texts are the same only if the dates are. So sorting or comparing the texts, as file names or database columns say, is sorting the dates.

* Model and proof: Model/Date. Numbers of equally many digits compare as texts (induction), and readings of calendar and clock, field by field, as the instants they are of (Spec/Date counts days by year and month lengths).
* Status: **proved**. C106_sorts and C106_same, for times of any precision (what is less than a millisecond is not written). time.Time.Format is modelled (Model/Date), not assumed. An example shows that texts of dates in different zones need not sort.
* Theorems: `C106_same`, `C106_sorts`.

