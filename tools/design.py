#!/usr/bin/env python3
"""Writes DESIGN.md: the text of tools/design.md with the per-property section generated from
properties.jsonl, MANIFEST.json and the table HOW below."""
import json, os
base = os.path.join(os.path.dirname(os.path.abspath(__file__)), "..")
HOW = {
"C01": "`strings.TrimSpace`, `strconv.ParseInt/FormatInt` (Go/Str, Model/Types). Texts against the numerals of Spec/Numeral by induction on digits.",
"C02": "`strings.Replace`, `big.Rat.SetString` with its scanner (signs, fractions, base prefixes, underscores, exponents) in Model/Amount; the value of a plain decimal is Spec/Decimal; induction on digits.",
"C03": "`Rat.FloatString(100)` and `TrimRight`; arithmetic on rationals.",
"C04": "As C03; shape by induction on the printed digits, injectivity from C03's error bound.",
"C05": "As C02; case analysis of the scanner on a second separator.",
"C06": "Boolean's methods; case analysis.",
"C07": "`TrimSpace` for String and UID; lemmas on trimming (Lemmas/Str).",
"C08": "UID.Valid and RecommendedFormat with byte indexing and its panic (`Outcome`).",
"C09": "RandomUID over every outcome of `rand.Read`; injectivity by inverting hexadecimal.",
"C10": "One generic enum model over tables generated from constants.go; table facts by `decide` over complete tables, lifted to all texts and numbers by lemmas.",
"C11": "As C10, through MarshalXML/UnmarshalXML.",
"C12": "As C10, for the version table.",
"C13": "regexp, the zone arithmetic and `time.Parse` for the five layouts (Model/Date); instants by the independent calendar Spec/Date; induction on digits and calendar lemmas.",
"C14": "`Format`, zone printing, then C13's parser; arithmetic on instants and offsets.",
"C15": "As C13 with the sign as the variable; witnesses for the violated range.",
"C16": "As C13: the two splits and trims before parsing.",
"C17": "The ISO table is a parameter (`CurrencyTable`).",
"C18": "Table generated from common.go, linear lookup; `decide` over the table lifted to all codes.",
"C19": "BankAcct/CCAcct/Currency.Valid; Currency through `big.Int.Int64`'s low 64 bits.",
"C20": "Transaction.Valid as written, with the inverted test.",
"C21": "Transaction.Valid and StatementResponse.Valid against the rules of Spec/Valid.",
"C22": "All Valid methods as functions of the version; monotone by case analysis of each.",
"C23": "SignonRequest.Valid returning the modified receiver.",
"C24": "encodeMessageSet over an interface of messages (`MessageImpl`): any implementation, induction on the lists.",
"C25": "Request/Response.Marshal; names and order of the sets from Spec/Document.",
"C26": "As C25: success iff every part is valid, in its set and encodable.",
"C27": "Marshal as a state transformer on the request; idempotence of the modifications made by Valid.",
"C28": "writeHeader, then guessVersion and the header readers on the printed bytes.",
"C29": "The regular expression as a backtracking matcher, against the header grammar of Spec/Header.",
"C30": "readXMLHeaders' loop over the instruction's text, against Spec/Header.",
"C31": "Marshal with the ignored error of writeHeader.",
"C32": "io.Readers delivering arbitrary pieces, and bufio.Reader (fill, Peek, ReadSlice, UnreadByte, ReadByte), in Model/Bufio; an invariant (`Good`) relates the buffer and the reader to the bytes still to come.",
"C33": "decodeMessageSet on element trees; induction on the children.",
"C34": "Lexer and tree builder on every prefix of a document (Lemmas/Prefix, Cut, Truncate, Stray).",
"C35": "ParseResponse on byte strings: lexing, tree, structs and validation end to end.",
"C36": "Response.Valid and errInvalid; induction on lists.",
"C37": "Marshal, print (indentation, escaping), lex, build, decode: composition of C25, C28, C38 and the text round trip (Lemmas/Written, Props/Text).",
"C38": "Schema-driven encoder and decoder; one generic round-trip theorem by induction on schemas, instances generated from the struct tags of /repo and checked by `decide` over whole schemas.",
"C39": "The hand-written UnmarshalXML/MarshalXML of the list types as `closed` schemas; relation to Spec/Lists by induction.",
"C40": "As C38: the schema of LoanInfo with its wrong XMLName.",
"C41": "Relation `Alike` on element trees (Spec/Alike); decoding respects it, by induction on schemas.",
"C42": "The three clients over an arbitrary network (`Net`) with an event trace.",
"C43": "As C42: SetClientFields and the documents in the trace.",
"C44": "GetClient's table and `strings.Trim`.",
"C45": "As C42: VanguardClient.RequestNoParse, trace by cases.",
"C46": "As C42: opened and closed bodies in the trace.",
"C47": "As C42: results by cases.",
"C48": "discoverCardHTTPPost's bytes against an HTTP/1.1 framing specification (Spec/Client); for URLs with the parser of C98.",
"C49": "Leaf list generated from leaf_elements.go against the schemas (`decide` over all); layouts of trees (Spec/Layout) are lexed and built back, by induction on the tree.",
"C50": "errInvalid.AddErr/ErrOrNil; induction on the sequence.",
"C51": "detectSettings' loops over its tables with an arbitrary server; a loop lemma for early exit.",
"C52": "The printing code with nil dereferences as an outcome (`Printed`).",
"C53": "The Equal methods against denoted values (Spec/Equal).",
"C54": "MessageSetList's MarshalXML/UnmarshalXML with the V1 suffix.",
"C55": "As C49, for the value elements missing from the list.",
"C56": "As C42 with net/http's redirections.",
"C57": "The commands of cmd/ofx over a `World`; trace and output by cases on the command.",
"C58": "As C57: files written.",
"C59": "As C57: exit status.",
"C60": "As C57: output against the text of Spec/Cli.",
"C61": "As C57: CheckFlags.",
"C62": "As C57: the element tree of the posted document against Spec/Cli; for detect-settings by induction over the failed attempts, with C67 for the request that is sent twice.",
"C64": "Model/Main: `main` over the list of arguments.",
"C65": "Model/Main: package flag's parser as a recursive function on the arguments; Spec/Main says inductively how flags are spelled; induction both ways.",
"C66": "Model/NewDate: time.Date with its carrying and two zone lookups; a location is any function from instants to zones; Spec/NewDate says what the clock of a location shows.",
"C67": "Spec/Reuse: the inductive relation Used over all calls taking a request; an equivalence of requests that every call stays within and that no client tells apart.",
"C68": "Gen/Accessors: the methods generated from /repo; Spec/Access: finding the first element of a name in a written element; first fields are written first.",
"C69": "Model/Delivery: Request with the body as an io.Reader; C32, C34 and C63 composed with the clients of Model/Client.",
"C70": "Lemmas/Read: an invariant of decoding (texts trimmed and made of XML characters, integers in range, currencies and constants from their tables, XMLNames right or unset), from the lexer up; with C37 it gives the round trip, and an encoder congruence the fixed point.",
"C71": "Spec/Meaning: what a document says, by its header, its layouts and its elements; two layouts of one text are read as one tree (C49), so the tree is unique up to white space, and the values with it; C38 and C49 give that requests say what they hold.",
"C72": "Model/Concurrent: Request as a program of single accesses to shared memory, schedules as lists of goroutine numbers. The outcome of each goroutine were it left alone is invariant under every step of every goroutine (a program touches its own request only), and alone the program is the sequential model. C72_no_race, that there are no data races, is about the finer model of C97.",
"C73": "Spec/AmountText: a grammar with values. Lemmas/AmountText: inversion and completeness of each scanner of math/big (digit loop, whole numbers, exponent) against it; the comma is the first separator of an accepted text.",
"C74": "Spec/DateText: the notation and the instant it denotes. Lemmas/DateText*: each layout element inverted and completed, the zone tail by counting blanks, unambiguity by lengths; the first layout that succeeds therefore gives the only meaning.",
"C75": "Spec/Elements: for each structure, the element each field is about (generated once from the declarations in /repo by tools/gen_elements.py); Lemmas/Elements proves each equal to what Lemmas/SchemaSays says by recursion on the schema. Lemmas/Says*: the decoder's event-by-event updates of a struct are regrouped into one run for each field (each element reaches exactly one field, by a decidable check of the schemas), then mutual induction on the schema; documents by C49 and by lexing any XML header.",
"C76": "Spec/Grammar: the grammar as inductive predicates over texts, pieces and bytes. Lemmas/GrammarChars, GrammarData, GrammarTag, GrammarMarkup: each function of the lexer accepts exactly the texts of one predicate; GrammarTree: the stack machine building elements accepts exactly Content; GrammarDoc: pieces read up to a tag, UTF-8 and the guess of the kind of document, put together.",
"C77": "Spec/Accept: acceptance of each of the thirteen kinds and the message set of each, by fields. Equivalence by case analysis of the Valid methods (C21, C19, C18), lifted to Marshal by C26 and to ParseResponse by C35.",
"C78": "From C77 for bank messages; for the others that Valid does not depend on the parts, and a witness.",
"C79": "As C42: the requests of a call are determined by cases over the clients; that redirections are allowed by induction over net/http's loop. C56_guarded_partial uses it: a policy that follows to https only makes C56 hold for the basic client.",
"C80": "Spec/Written lists the elements of each structure in plain lists (generated once from the declarations in /repo by tools/gen_written.py, independently of Gen/Schema). Lemmas/WrittenElements proves for each structure that the generic encoder over its schema writes this list, by one lemma for each kind of field and by computing how encoding/xml opens and closes the parents named in tags; messages and documents by C25.",
"C81": "Pauses are events of the history (`Event.paused`, in nanoseconds as int64, which wraps around). Lemmas/Pause proves that no client pauses; the rest is the loop lemma of C51.",
"C82": "Two runs are related by equality of everything but the documents (`outline`); Lemmas/Secret carries the relation through net/http's loop, the three clients, Marshal and ParseResponse, Props/Secret through flags, commands and the loops of detect-settings.",
"C83": "Decoding on a machine equals decoding on a machine whose zone has no abbreviation, followed by `known` on every date: mutual induction over schemas (Lemmas/Place). Valid only looks at instants, so its verdict is the same.",
"C84": "Line feeds are counted in the text C60 says is printed (Lemmas/Lines): dates, amounts and kinds have none of their own. The counterexample is run through ParseResponse and the command.",
"C85": "The disk is a function from names to contents; a run is a list of file operations (create, then writes as io.Copy gets them), a crash a prefix of it (Model/Disk). Induction on the writes; C34 for what can be read.",
"C86": "A size for values and element trees (Spec/Size); induction on schemas for decoding, on the grammar of documents for parsing. Amounts: bounds from their notation (Spec/AmountText) and the digits printed.",
"C87": "A server is any network that answers posts of a given document (Spec/Answered); clients function by function, then the round trip of C37.",
"C88": "The conditions under which the request of a command is written, from C77; then C87's servers and the cases of the commands.",
"C89": "From C28 and the trace of documents sent; the violation by C87's servers answering with a statement of another account.",
"C90": "The element names that reading leaves in the accounts, from the specification of C75; the elements written for the questions; C77 for when they are written.",
"C91": "Induction on the rendering of trees for ASCII; for reading, the decoding of UTF-8 stops at the first bytes that are no character, and headers are ASCII; refusal from C34.",
"C92": "Each checked function equals .ret of the unchecked one: the header expression has nine groups (soundness of matchAll), SplitN with 2 is cut, the loop over XML attributes shortens the text; pointers by cases.",
"C93": "From the meaning of documents (C75, C76): an element without the content asked for is read as a message whose fields are unset, with the status; then the rules of Valid (C77) and what the commands do with such messages (C88).",
"C94": "Model/Upload: RawRequest with a reader instead of a buffer, net/http's redirections for bodies that cannot be read again. Induction on the reader and on the redirections followed.",
"C95": "The model is extended by the reader as it is left (Model/Stream): the tokens not read when the OFX element ends, the input after the tokens read, and the bufio.Reader after so many calls of ReadByte.  It is proved that the tokens, characters and bytes taken are the shortest that decode, by induction over the open elements and the input; then by induction over the documents.",
"C96": "The call of Read that waits is the last piece of the source.  Invariant of the bufio.Reader (Open): that piece has not been read; kept by Peek, ReadSlice, UnreadByte and ReadByte as long as what they look for is still to come.  For the violation: the number of pieces never grows, and Peek leaves none.",
"C97": "Model/Sharing: as Model/Concurrent, with messages at addresses of their own.  A simulation by goroutines with messages of their own: a shared message is as it was or as Valid leaves it, and neither its type nor the verdict of Valid tells the two apart.  A race is a reachable state in which two goroutines are about to access the same place and one writes (Spec/Race); the simulation relation says what each goroutine may access.",
"C98": "Model/Url has net/url's Parse, Hostname and Port for https URLs; Spec/Url writes URLs and the request line and Host line as RFC 3986 and RFC 7230 do.  Parsing a written URL gives its parts (induction on the text); the lines of what is written are unique, so that they can be compared with what the RFC says.",
"C99": "Model/Cookie has net/http's reading of Set-Cookie lines and its writing of the Cookie line; Spec/Cookie the syntax of RFC 6265 and which cookies are to be returned.  Reading a line that was written gives back name and value; the line written is the values joined, by induction on the cookies; composed with C45.",
"C100": "Model/Nil has lists of entries that may be nil or nil pointers, and Marshal and Valid on them with panics; Spec/Nil says which entry is the first that is not a valid message.  Case distinction by induction over the list and over the sets: written, error or panic, according to that first entry.",
"C101": "Spec/Entrust says inductively who may get a document: the URL named, and whomever an answer 307 or 308 to a message with the document names.  Induction on the redirections still allowed by net/http (Model/Client httpLoop), composed over first and second posts.",
"C102": "A message and the answer to it are adjacent in the trace.  Without redirections each post has one of each (the case analysis of httpLoop), so the answer whose cookies the second post carries (C45) follows the first post.  The violation is a network built from the other URL and the cookies.",
"C103": "Every rule of the grammar (Spec/Grammar) for XML is one for SGML, so what is read in strict mode is a prefix of what is read otherwise; elements are built the same since only value elements, which hold text only, are closed implicitly.  Counterexample for other values computed by the grammar.",
"C104": "Model/Url again, for parts that RFC 3986 does not allow (Spec/Loose: the URL is given by its parts, cut at delimiters only) and for zones (Spec/Zone). Inductions on the texts; the tables of characters are compared by decide over all ASCII characters, others being excluded by their range.",
"C105": "Model/Listed models the four loops over slices of interface values, with entries that are values, pointers, nil pointers, nil or of foreign types. A list is either all values or has a first entry that is not (induction); the loop is followed up to it. For values it is compared with the codec of the other properties.",
"C106": "Model/Date. Numbers of equally many digits compare as texts (induction), and readings of calendar and clock, field by field, as the instants they are of (Spec/Date counts days by year and month lengths).",
"C63": "As C32 with readers that fail.",
}
exec(open(os.path.join(base, "tools", "how.py")).read()) if os.path.exists(os.path.join(base, "tools", "how.py")) else None
props = [json.loads(l) for l in open(os.path.join(base, "properties.jsonl"))]
claims = {c["property"]: c for c in json.load(open(os.path.join(base, "MANIFEST.json")))["claims"]}
out = []
for p in props:
    c = claims.get(p["id"])
    out.append(f'### {p["id"]} {p["title"]}')
    out.append("")
    out.append(p["statement"])
    out.append("")
    out.append("* Model and proof: " + HOW.get(p["id"], "(missing)"))
    if p["id"] not in HOW:
        print("no HOW for", p["id"])
    if c:
        out.append(f'* Status: **{c["status"]}**. {c["note"]}')
        out.append("* Theorems: " + ", ".join("`" + t.split(".")[-1] + "`" for t in c["theorems"]) + ".")
    else:
        out.append("* Status: planned.")
    out.append("")
t = open(os.path.join(base, "tools", "design.md")).read()
open(os.path.join(base, "DESIGN.md"), "w").write(t.replace("{{PROPERTIES}}", "\n".join(out)))
