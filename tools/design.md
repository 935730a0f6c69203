# Formal model of aclindsa/ofxgo in Lean 4

(Generated by `tools/design.py` from `tools/design.md`, `properties.jsonl` and
`MANIFEST.json`.)

## 1. Approach

The Go code of /repo is read as text and modelled by total, computable Lean functions; the
properties of `properties.jsonl` are theorems about those functions.  Nothing of /repo is
executed.

| layer | modules under `lean/Verif/` | content |
|---|---|---|
| Go | `Go/Str` | strings, strconv and fmt fragments |
| Model | `Model/*` | ofxgo itself, function by function, with file and line citations, and the fragments of math/big, time, regexp, bufio, net/http it runs on |
| Codec | `Codec/*` | the XML library (github.com/aclindsa/xml, a fork of encoding/xml, not in /repo): lexer, element tree, struct encoding and decoding driven by schemas, printing |
| Gen | `Gen/*` | tables generated from /repo by `tools/gen_*.py`: enumerations, status codes, leaf elements, all structs with their tags, schemas |
| Spec | `Spec/*` | small independent specifications used in statements: numerals, decimals, calendar, headers, documents, the elements of each structure as read (`Elements`) and as written (`Written`), layouts of SGML documents, HTTP framing, printed texts |
| Lemmas | `Lemmas/*` | helper lemmas |
| Props | `Props/*` | the property theorems (`Cnn_...`), each with an `example` meeting its hypotheses or stating a concrete instance, beside it or in `Props/Cases` |

Representation

* Go `string` is `List Char` (valid UTF-8 text); `len` is the UTF-8 byte length (`blen`),
  indexing is on the UTF-8 bytes.  Files, HTTP bodies and headers are `List UInt8`.
* `int`/`int64` are `Int` with range checks where the code parses them; enumeration values
  (`uint`) are `Nat`.
* `big.Rat` is `Rat`.
* `time.Time` is an instant (nanoseconds, `Int`) with zone name and offset.
* `(value, error)` results are `Except` or explicit pairs; nil pointers are `Option`; panics
  are outcomes (`Outcome`, `Printed`) where a property is about them.
* A `Message` is an arbitrary implementation of the interface (`MessageImpl`) in C24-C26 and
  C36, and one of the library's thirteen message types elsewhere.
* Methods that modify their receiver return the modified value.
* HTTP, TLS, clock, entropy, URL parsing, file creation, the local time zone and the currency
  table are parameters about which nothing is assumed except where a theorem says so.  What a
  client does is recorded in a trace of events.

## 2. Trusted base

* Lean's kernel (4.33.0).  `vcheck` replays every declaration.
* Axioms: at most `propext`, `Classical.choice` and `Quot.sound`, for every theorem named in
  `MANIFEST.json` (checked with `#print axioms`; `vcheck` prints the union).  No axiom is
  added, and no `sorry`, `admit`, `native_decide`, `bv_decide`, `implemented_by` or `unsafe`
  occurs.  Finite tables are settled by `decide +kernel` over the whole table, which reduces
  in the kernel.
* That the Lean definitions in `Model`, `Codec` and `Gen` say what the Go code says.  Every
  definition cites the lines it models.
* That the Go standard library and the XML fork behave as section 3 assumes.
* The generators `tools/gen_*.py`, in so far as the tables in `Gen` are taken to be those of
  /repo; the tables themselves are ordinary Lean definitions and can be compared with the
  cited lines.

### 2.1 Parts of /repo that are modelled

| file | modelled |
|---|---|
| types.go | all: Int, Amount, Date, String, Boolean, UID, RandomUID, CurrSymbol, with marshalling, validity, equality and String and the date constructors with Go's time.Date (not `String.String`/`Boolean.String`) |
| constants.go | all 40 enumerations: tables, Valid, String, FromString, MarshalXML, UnmarshalXML, New* |
| common.go | all: writeHeader, Message, messageType, status table, Status, accounts, Currency |
| leaf_elements.go | the list |
| bank.go, creditcard.go, invstmt.go, profile.go, seclist.go, signon.go, signup.go | every struct with its tags, every Valid, Name and Type method, every hand-written MarshalXML/UnmarshalXML |
| request.go, response.go, util.go | all |
| basic_client.go, client.go, discovercard_client.go, vanguard_client.go | all, except the choice of TLS cipher suites |
| cmd/ofx | all nine commands, checking of flags, printing, saving, exit status, detect-settings, sub-commands, flags and their parsing by package flag |

### 2.2 Parts of /repo that are not modelled

* `String()` of account infos in signup.go (`%+v`).
* Nil entries in the lists inside messages (transactions, positions, orders, securities), on which
  Marshal panics.  Nil entries in the lists of messages are in C100 only.
* The result `(false, nil)` from a `Valid` method: no method of the library returns it.
* Which of several errors is reported, and the texts of errors other than those of the
  properties; an error is a value, its text matters only where a property mentions it.
* The TLS cipher suites of the Vanguard client; what package
  flag prints on standard error; arguments that are not UTF-8; the texts of operating system errors.
* Concurrency: the library starts no goroutines and has no mutable package state that is
  written after initialisation; calls are modelled as sequential functions, except in C72 and C97, where
  calls of Request are programs of single accesses to shared clients, requests and messages.
  Callers that change a client while it is in use are outside the model.  Accesses are atomic
  and in order, as Go's memory model promises where there are no data races: see C72_no_race and
  C97_no_race_partial.
* The tests (`*_test.go`) and generator/constants program (`generate_constants.py`).

## 3. Assumptions on code outside /repo

* encoding/xml: in Go the decoder is a fork with the fields `AutoCloseAfterCharData` and the
  methods `SetDisableAutoClose` and `CarriageReturn`.  Their behaviour is assumed: an open
  element of the list is closed by anything but text and its own end tag; end tags of listed
  elements are left out when writing; newlines of the indentation become CR LF.
* Lexing follows encoding/xml's `rawToken`; names with a colon are refused (namespaces are not
  used by OFX); attributes are checked for syntax and dropped, so that in documents with an xmlns
  attribute the name space the library would note in XMLName fields is not in the model; invalid UTF-8 anywhere is an error (encoding/xml does not look at it
  inside comments and processing instructions); characters for names beyond ASCII are a
  parameter.
* Struct decoding matches element names exactly (encoding/xml does too); unknown elements are
  skipped; the last of several elements for a non-slice field wins.
* `time.Parse`, `Format`, regexp, big.Rat, bufio, strconv, strings are transcribed from Go's
  source.  Range checks of time.Parse are those of Go 1.20 and later.
* A bufio.Reader gives up after 100 consecutive empty reads; C32 and C63 exclude readers that
  do so.  xml.NewDecoder reads byte by byte from the bufio.Reader it is given.
* net/http: at most ten redirections by default, POST repeated for 307/308; CheckRedirect of
  a user-supplied client is arbitrary but stops after a bounded number.  Headers and cookies of
  requests made while following redirections and cookie jars are not modelled.  Errors while a
  response body is read are modelled for the library (C69); for the commands the body is the bytes
  received.  Once a redirection dropped the body it is
  not sent again, as in current versions of Go; older ones send it again on a later 307 or 308.
* Stack and memory are not modelled: a document nested deeply enough exhausts Go's stack, while
  here it is read like any other.
* A TLS connection that fails to transmit fails for good.  net/url is a
  parameter: nothing is assumed about the path and host it delivers, except in C98, C104 and the
  theorems of C48 in Props/Url, where it does what Model/Url transcribes (`Net.ParsesUrls`: Parse,
  Hostname and Port as of Go 1.21, for https URLs; nothing is said about paths that are not UTF-8).
* Package flag is transcribed (`FlagSet.Parse`, `ParseBool`, `ParseUint`); asking for help exits
  with 0, as since Go 1.15.
* http.Client, http.DefaultClient and tls.Dial may be used by goroutines at the same time (as they
  are documented to).
* net/http reads the body of a request once; if reading fails it returns an error, unless the server
  answered before.  Without a way to read it again it does not follow redirections with 307 or 308.
* crypto/rand either fails or delivers the bytes asked for.

## 4. Findings: where the code violates a property

Each is proved by a theorem with a concrete witness or for every input of the kind described;
the English property keeps its full statement and is claimed as `partial`.

| property | what the code does | theorem |
|---|---|---|
| C13, C15 | a zone between -1h and 0 (`[-0.30:XXX]`) is read as east of Greenwich; zones whose name Go cannot read are rejected | `C15_*`, `C13_*` |
| C14 | dates in zones whose abbreviation is numeric (`-03`) are written in a form that cannot be read | `C14_*` |
| C19 | Currency.Valid rejects rates that are nonzero multiples of 2^64 as zero | `C19_*` |
| C20 | bank.go 143: the test of the correction action is inverted | `C20_*` |
| C22 | credit card and investment messages are not version-gated | `C22_*` |
| C31 | Marshal ignores the error of writeHeader: with an undefined version the document has no header | `C31_no_header` |
| C32 | a header longer than 1024 bytes is accepted only from a bufio.Reader with a larger buffer | `C32_long_header` |
| C34 | in SGML mode a stray end tag of any name ends the document | `C34_sgml_other_end_tag` |
| C40 | LOANINFO is declared as VESTINFO: documents with LOANINFO are rejected, loans are written as VESTINFO | `C40_*` |
| C45 | the Vanguard client retries after an error response with cookies too | `C45_*` |
| C46 | bodies of responses with a status other than 200 and of first Vanguard responses are never closed | `C46_*` |
| C47 | the Discover client and the Vanguard retry return no response on an HTTP error | `C47_*` |
| C48 | the decoded path is put into the request line unescaped: CR LF in it breaks the framing | `C48_*` |
| C51 | detect-settings exits with 0 and without a word when every combination failed | `C51_failure_status` |
| C52 | statements without a transaction list (valid) crash the printing commands | `C52_valid_crash` |
| C55 | 89 value elements are missing from the leaf list and swallow what follows when left unclosed | `C55_*` |
| C56 | net/http re-sends the document to plain http when redirected there | `C56_*` |
| C79 | the Vanguard client's second post never names the user agent set, and the Vanguard and Discover clients ignore the HTTP client set (and Discover the user agent) | `C79_retry_agent`, `C79_vanguard_ignores`, `C79_discover_ignores`, `C56_guard_ignored` |
| C80 | optional amounts, dates and currencies that are not pointers are written although not set: unknown interest rates and rewards as zero, investment transactions with both a currency and an original currency | `C80_unset_amounts_written`, `C80_both_currencies_written` |
| C81 | detect-settings: no delay between the request with the user's login and the anonymous one; delays of 2^63 ns or more wrap around | `C81_no_pause`, `C81_too_long` |
| C84 | names and memos are printed with their line feeds, so one transaction can be listed as if it were two | `C84_forged` |
| C85 | the download commands empty an existing file before they have anything to put into it, so an earlier download is lost when writing fails | `C85_lost` |
| C86 | an amount written with an exponent is accepted, so nine characters (1e1000000) become an amount that is written with a million | `C86_amount_grows` |
| C89 | Neither the transaction ids nor the accounts of a response are compared with the request: a statement of another account is returned, and shown by the commands, without error | `C89_*` |
| C90 | An account read as the target of a transfer keeps its element name: a statement request for it has BANKACCTTO in place of BANKACCTFROM and is written without error. The commands have no flags for branches and account keys | `C90_*` |
| C91 | SGML documents say ENCODING:USASCII and CHARSET:1252, but letters outside ASCII are written in UTF-8. When reading, the encoding named is ignored: documents really in code page 1252 are refused at the first letter outside ASCII followed by an ASCII character | `C91_*` |
| C93 | A server refuses a bank statement with a status and no STMTRS. Then Valid fails (the currency is unset) and Request returns the error "Validation failed: Invalid CurrSymbol: XXX" in place of the response, so the status is lost. For credit cards and investments the response is returned, but the commands do not look at its status and dereference the missing list of transactions | `C93_*` |
| C95 | DecodeResponse puts its own bufio.Reader around the reader it is given and drops it: what has been read beyond the document (at least the rest of the first 1024 bytes) is lost to the next call. And a header is only recognised at the very first byte, so that SGML documents separated by a line break cannot be read one after another. | `C95_read_ahead`, `C95_second_lost`, `C95_blank_between` |
| C96 | DecodeResponse peeks at 1024 bytes before anything else, so a shorter response on an open connection is not returned until the other side sends more or closes it, although the whole document is there. | `C96_waits` |
| C97 | Valid of a profile request writes to it (profile.go 34), so goroutines that send the same profile request race. | `C97_race` |
| C98 | The Discover client drops the query of its URL, sends escaped characters of the path unescaped (a space ends the target, a question mark starts a query), leaves the port and IPv6 brackets out of the Host line and connects to "host::443" for "https://host:/". | `C98_query_lost`, `C98_space`, `C98_question`, `C98_port_unsaid`, `C98_brackets`, `C98_empty_port` |
| C99 | The Vanguard client returns every cookie set, also those it was told to forget (Max-Age=0) and both versions of one that was replaced; values in quotes lose them (net/http before Go 1.23). | `C99_expired`, `C99_twice`, `C99_quotes` |
| C100 | Marshal and Valid panic on nil entries and nil pointers in lists of messages instead of reporting them (a nil `*SecurityList` is written as nothing). | `C100_panics`, `C100_valid_panics` |
| C101 | A server may refer the client to any other (307, 308), which is then sent the document with the login, by the basic client unless its HTTP client is told otherwise and by the Vanguard client always. | `C101_elsewhere` |
| C102 | If the server named redirects, the Vanguard client takes the cookies from the answer of the server redirected to, and sends them to the one named. | `C102_foreign` |
| C103 | A comment in the text of a value ends the value in SGML documents; the value's end tag then ends all open elements, and the rest of the response is dropped without an error (the fork being as section 3 assumes). | `C103_comment` |
| C105 | Marshal panics on nil entries and nil pointers in lists of transactions, positions, open orders and securities. Pointers to the library's own types, which the interfaces admit, are refused. | `C105_panics`, `C105_securities_partial` |
| C78 | Valid of card, investment, profile, security list and account messages looks at the transaction id only (`TODO implement`): undefined statuses and empty card accounts are accepted | `C78_status_unchecked`, `C78_card_unchecked`, `C78_bad_parts_accepted` |
| C60 | transactions-inv prints the balance only when it is a whole number | `C60_no_balance` |
| C65 | arguments after the first that is not a flag are ignored, even -dryrun | `C65_ignored`, `C65_dryrun_ignored` |
| C63 | an error of the reader during the first 1024 bytes is dropped | `C63_dropped` |
| C74 | an hour of one digit, commas, fractions of any length and blanks before the zone are accepted in dates (the claim states exactly which texts are) | `C74_beyond_ofx` |
| C73 | hexadecimal, octal, exponent and fraction texts are accepted as amounts (the claim states exactly which texts are) | `C73_beyond_decimal` |

Other observations, not contradicting a listed property: "1,234" is read as 1.234 (the OFX
specification allows a decimal comma); tiny negative amounts print as "-0"; a preset
`XMLName.Local` overrides the element name; a message set named just "V1" fails to marshal;
characters not allowed in XML become U+FFFD when marshalled; the nil check in guessVersion
never fires; a dry run that fails to marshal prints the error and exits with 0; clientRequest
discards the decoded response when it is invalid; the Discover client drops the URL's query;
"WITHDRAWLS" is a misspelt field name.

## 5. Tests against wrong programs

`tools/mutate.py` copies the project, applies an edit to the model, rebuilds and records which
theorems fail, in `seeded/LOG.jsonl`.  The edits are in `tools/seeds/`.  A surviving edit that
breaks an English claim led to a stronger theorem (field `theorems_tightened`).

### 5.1 Evidence that the model is the program

The project's own tests are run against the model. `Verif/Props/RepoTests.lean` carries over the tests of the leaf
types, of `Valid`, of the signon request and of the error lists (types_test.go, common_test.go, parts of bank_test.go,
signon_test.go and response_test.go) as examples checked at every build. `tools/conform.py` reads the document tests
(bank, creditcard, invstmt, profile, signup, response) as text, evaluates the Go literals they build, and writes a Lean
program that marshals or parses the same data with the model and compares the outcome as the Go test does; it also
parses, marshals and re-parses the eight sample files of /repo/samples. All of them agree (16 document tests and 8 files).
These are tests of the model; no theorem depends on them.

## 6. Properties

{{PROPERTIES}}
