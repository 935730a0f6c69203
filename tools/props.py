#!/usr/bin/env python3
# Writes /verif/properties.jsonl (kept as a script so that anchors stay consistent).
import json
P=[]
def p(title, statement, quantifier, why, anchors):
    P.append(dict(id="C%02d"%(len(P)+1), title=title, statement=statement, quantifier=quantifier, why_tests_cant=why, anchors=anchors))

p("Integer fields decode exactly or fail",
  "Decoding an integer element succeeds exactly when its text, ignoring surrounding whitespace, is an optional sign followed by at least one decimal digit denoting a value in the signed 64-bit range; the decoded value is that number. Every Int that is encoded decodes to itself.",
  "every element text and every 64-bit value", "the boundary is a property of all digit strings of any length; tests sample a few", ["types.go: Int.UnmarshalXML, Int.Equal"])
p("Plain decimal amounts decode to their exact value",
  "For every amount text consisting of an optional sign, decimal digits and at most one fractional separator which is either '.' or ',', with any surrounding whitespace, decoding yields exactly the rational number the digits denote; no binary floating point rounding occurs.",
  "every decimal numeral with at most 10^6 fractional digits, both separators, all whitespace paddings", "unbounded digit strings", ["types.go: Amount.UnmarshalXML"])
p("Amounts survive a print/parse round trip exactly when they have at most 100 decimals, and are otherwise rounded to within half a unit of the 100th decimal",
  "Parsing what Amount.String prints gives a value within 1/2*10^-100 of the original, and gives exactly the original if and only if the original is a multiple of 10^-100.",
  "every rational amount", "a statement about all rationals", ["types.go: Amount.String, Amount.MarshalXML, Amount.UnmarshalXML"])
p("Printed amounts are in canonical decimal form",
  "Amount.String never prints an empty string, a trailing '.', trailing fractional zeros, an exponent or any character other than a leading '-', digits and one '.'; two amounts that are multiples of 10^-100 print the same text only if they are equal.",
  "every rational amount", "all rationals", ["types.go: Amount.String"])
p("Amounts with grouping separators are never silently misread as another decimal",
  "A text with two or more '.'/',' separators is rejected; a text with a single ',' is read with the comma as decimal point.",
  "every numeral text", "all texts", ["types.go: Amount.UnmarshalXML"])
p("Booleans accept exactly Y and N",
  "Decoding a Boolean succeeds only for Y (true) and N (false), ignoring surrounding whitespace; every encoded Boolean decodes to itself.",
  "every element text", "all texts", ["types.go: Boolean.UnmarshalXML, Boolean.MarshalXML"])
p("Strings and UIDs decode to their trimmed text",
  "Decoding a String or UID never fails, yields the text without surrounding Unicode whitespace and without altering the interior; decoding is idempotent, and a value without surrounding whitespace round-trips unchanged.",
  "every element text", "all texts", ["types.go: String.UnmarshalXML, UID.UnmarshalXML"])
p("Recommended-format UIDs are valid UIDs",
  "UID.Valid accepts exactly the UIDs of 1 to 36 bytes; UID.RecommendedFormat accepts exactly the 36 byte UIDs with '-' at byte offsets 8, 13, 18, 23; whenever RecommendedFormat holds Valid holds, and neither ever indexes out of range.",
  "every UID string", "all strings incl. multi-byte text", ["types.go: UID.Valid, UID.RecommendedFormat"])
p("Generated UIDs are well-formed and as unique as their entropy",
  "RandomUID either reports an error (the entropy source failed or delivered fewer than 16 bytes) or returns a valid UID in the recommended format made of lower-case hex digits, and different 16 byte draws give different UIDs.",
  "every 16 byte draw of the entropy source and every outcome of the read", "2^128 draws", ["types.go: RandomUID"])
p("Every enumeration's text form is a bijection on its valid values",
  "For each enumerated OFX type: a value is valid exactly when it is one of the declared constants; printing a valid value and parsing it (with any surrounding whitespace) returns the value; parsing succeeds only for the declared names, case-sensitively; a failed parse reports an error and leaves an invalid value.",
  "all 40 enumerations, every numeric value, every text", "the joint quantification over tables, all integers and all strings", ["constants.go: all enums (Valid, String, FromString, New*)", "generate_constants.py"])
p("Invalid enumeration values are omitted, valid ones round-trip",
  "Encoding an enumeration value writes no element at all if it is invalid and otherwise exactly one element whose text decodes to the same value.",
  "all 40 enumerations, every numeric value", "all values", ["constants.go: MarshalXML, UnmarshalXML"])
p("The order of OFX version constants is the numeric order of the versions",
  "Comparing two OfxVersion values compares the version numbers they print as, so SGML/XML selection (below 200 / 200 and above), the 160 ceiling and the 203/210/220 feature gates mean what they say.",
  "all pairs of OFX versions", "exhaustive pairs", ["constants.go: ofxVersion", "common.go: writeHeader", "request.go: Marshal", "response.go: readSGMLHeaders"])
p("Dates decode to the instant they denote in all five precisions",
  "For every calendar-valid date, decoding YYYYMMDD, YYYYMMDDHH, YYYYMMDDHHMM, YYYYMMDDHHMMSS and YYYYMMDDHHMMSS.mmm, with any zone suffix [h], [h.ff], [h:NAME] or [h.ff:NAME] or none, yields the corresponding instant (missing components zero); calendar-invalid dates (month 13, Feb 30, hour 24...) are rejected.",
  "every year 0-9999, month, day, time, millisecond, all zone offsets up to 24h in hundredths of an hour", "about 10^18 combinations incl. leap years", ["types.go: Date.UnmarshalXML"])
p("Dates survive a print/parse round trip",
  "For every instant with millisecond precision in years 0-9999 in a zone whose offset is a multiple of 3 minutes and at least an hour away from or equal/after GMT, and whose zone abbreviation is empty or one that can be read back (three capitals, four or five capitals ending in T, WITA; UTC only for offset zero), printing a Date and parsing it gives the same instant and the same offset.",
  "every instant and zone", "all instants and offsets", ["types.go: Date.String, Date.MarshalXML, Date.UnmarshalXML"])
p("The sign of a date's zone offset is honoured",
  "A zone suffix with a negative number denotes a zone west of GMT, and a Date west of GMT prints with a negative offset.",
  "every zone offset", "the failing cases are an interval of offsets nobody samples (between -1h and 0)", ["types.go: Date.UnmarshalXML, Date.String"])
p("A date without zone is GMT, and surrounding whitespace or text after the closing bracket is ignored",
  "A date text with no zone suffix decodes as GMT; padding a date text with whitespace, or appending any text after its closing ']', does not change what it decodes to.",
  "every date text, every padding and every trailing text", "all texts", ["types.go: Date.UnmarshalXML"])
p("Currency symbols round-trip and 'XXX' is the only invalid one",
  "Decoding accepts exactly the ISO currency codes known to the currency table, in any letter case and with surrounding whitespace; encoding then decoding gives an equal symbol; Valid fails only for XXX, including the zero value.",
  "every text and every currency table", "all texts", ["types.go: CurrSymbol"])
p("Status validity agrees with the code table",
  "A STATUS is valid exactly when its severity is a defined one (INFO, WARN, ERROR) and its code is in the OFX code table with that severity; for every valid status CodeMeaning and CodeConditions succeed, and for every unknown code both fail.",
  "every status code and severity text", "all 64-bit codes", ["common.go: Status.Valid, CodeMeaning, CodeConditions, statusMeanings"])
p("Account and currency validation accepts exactly the complete values",
  "A bank account is accepted exactly when bank id and account id are nonempty and the account type is one of the five defined ones, a card account exactly when its account id is nonempty, a currency exactly when its rate is not zero and its symbol is not the unset symbol XXX; everything else is rejected with an error.",
  "every account and currency value", "all strings and amounts", ["common.go: BankAcct.Valid, CCAcct.Valid, Currency.Valid"])
p("A transaction correction must name a valid correction action",
  "A transaction that names a corrected transaction id is accepted only if its correction action is DELETE or REPLACE, and is not rejected because of the correction if it is.",
  "every transaction", "all transactions; the existing tests never set the field", ["bank.go: Transaction.Valid"])
p("Transaction validation enforces its exclusivity and presence rules",
  "An accepted transaction has a valid type, a posting date, a nonempty id, at most one of name and payee, at most one destination account, at most one valid currency, at most two images, and every accepted nested element is itself valid; any transaction meeting the documented rules that is not a correction (see the previous property) is accepted. Likewise for transaction lists, pending transactions, balances and bank statements.",
  "every transaction and version", "combinatorial", ["bank.go: Transaction.Valid, Payee.Valid, PendingTransaction.Valid, TransactionList.Valid, Balance.Valid, StatementResponse.Valid"])
p("Version-gated content is rejected below the version that introduced it, and validity never decreases with a newer version",
  "Content introduced in OFX 2.1.0 and 2.2.0 (transaction images, pending transactions) is rejected for older versions; any message valid for some version is valid for every newer version.",
  "every message of every type and every pair of versions", "all messages x version pairs", ["bank.go", "creditcard.go", "invstmt.go", "profile.go", "seclist.go", "signon.go", "signup.go: *.Valid"])
p("Signon validation accepts exactly the documented lengths and defaults the language once",
  "A signon request is accepted exactly when user id has 1-32 bytes, exactly one of password (<=32) and key (<=64) is present, language is empty or 3 bytes, app id has 1-5 and app version 1-4 bytes; on acceptance the language is set (ENG if it was empty), nothing else changes, and validating again changes nothing.",
  "every signon request", "all strings", ["signon.go: SignonRequest.Valid"])
p("A message placed in the wrong message set is never sent",
  "Marshalling a request (response) that has, in any of its message-set lists, a message whose type belongs to another list returns an error and no document.",
  "every request and every possible message implementation", "all messages in all positions", ["request.go: Request.encodeMessageSet, Marshal", "response.go: Response.Marshal"])
p("A marshalled request contains exactly the supplied messages, in order, in the right sets",
  "When Request.Marshal succeeds the document body is one OFX element containing the signon set followed by exactly the nonempty message sets in specification order, each containing exactly the supplied messages in the supplied order.",
  "every request", "all combinations of 14 lists", ["request.go: Request.Marshal, encodeMessageSet"])
p("Marshalling is all-or-nothing and succeeds exactly on valid requests",
  "Request.Marshal returns either a complete document or an error, never both nor neither; it succeeds exactly when the signon and every message are valid for the version and filed in the right list.",
  "every request", "all requests", ["request.go: Request.Marshal"])
p("Marshalling twice gives the same document",
  "Marshalling has no effect on later marshalling: after any number of Marshal calls on the same request the result is the same.",
  "every request and number of calls", "histories", ["request.go: Request.Marshal", "signon.go: SignonRequest.Valid", "profile.go: ProfileRequest.Valid"])
p("Every header the library writes is read back as the same version",
  "For every OFX version and both line-ending settings, the header written by Marshal is classified correctly (SGML below 200, XML from 200 on) and parsed back to exactly that version, whatever body follows.",
  "all versions, line-ending modes and following document bodies", "arbitrary bodies", ["common.go: writeHeader", "response.go: guessVersion, readSGMLHeaders, readXMLHeaders"])
p("An SGML response is accepted only with a supported header",
  "If an SGML header is accepted then it stated OFXHEADER:100, DATA:OFXSGML, a known VERSION of at most 160, SECURITY NONE or TYPE1 and COMPRESSION NONE, and the resulting version is the one stated; and any header with these values is accepted whatever ASCII whitespace separates the fields (within the 1024 byte window).",
  "every byte string", "all inputs", ["response.go: readSGMLHeaders"])
p("An XML response is accepted only with a supported header",
  "If an XML header is accepted then the document started with an xml and then an OFX processing instruction, the latter stating OFXHEADER 200 and a known VERSION of at least 200, security NONE and no unknown attribute; the attributes may come in any order.",
  "every processing-instruction text", "all inputs", ["response.go: readXMLHeaders"])
p("Marshalling never emits a document without header",
  "Whenever Marshal succeeds, the document starts with a valid OFX header for the request's version.",
  "every request incl. those whose Version was never set", "the failing case is an unset field", ["request.go: Request.Marshal", "response.go: Response.Marshal", "common.go: writeHeader"])
p("Parsing does not depend on how the input stream is chunked",
  "Reading the same bytes from any reader, through any sequence of partial reads, gives the same response (or a failure in both cases).",
  "every byte string and every schedule of read sizes", "schedules", ["response.go: DecodeResponse, guessVersion, readSGMLHeaders"])
p("Decoded messages are filed under their own message set, in document order",
  "After a successful decode, every message in a response list has the type of that list, the messages appear in document order (concatenating repeated sets), and every message element of the document is represented exactly once.",
  "every document", "all documents", ["response.go: DecodeResponse, decodeMessageSet, responseTypes"])
p("Truncated documents are rejected",
  "If a document decodes successfully, then cutting it anywhere before the final closing OFX tag makes decoding fail; input after that tag is ignored.",
  "every document and every cut point", "all cut points of all documents", ["response.go: DecodeResponse, decodeMessageSet", "util.go: nextNonWhitespaceToken"])
p("ParseResponse distinguishes undecodable from invalid",
  "ParseResponse returns no response exactly when decoding failed; it returns a response with an error exactly when the document decoded but is invalid; it returns a nil error exactly when the document decoded and every part is valid.",
  "every document", "all inputs", ["response.go: ParseResponse, Response.Valid"])
p("Response validation reports every problem",
  "Response.Valid accepts exactly when the signon and all messages are valid, and otherwise its error contains one entry per failing part in document order, with nested validation lists flattened.",
  "every response", "all combinations", ["response.go: Response.Valid, errInvalid"])
p("Responses survive a marshal/decode round trip",
  "Decoding the elements that Response.Marshal writes gives a response with the same version, signon and messages.",
  "every response whose leaf values are exactly representable", "unbounded nested data", ["response.go: Response.Marshal, DecodeResponse"])
p("Every message type survives an encode/decode round trip",
  "For each request and response message type (and every struct nested in it) encoding a value and decoding the elements gives back an equal value, provided its leaf values are exactly representable and its enumerations valid or zero.",
  "every message type and every value of it, with lists of any length", "unbounded nested data", ["bank.go", "creditcard.go", "invstmt.go", "seclist.go", "profile.go", "signup.go", "signon.go", "common.go: struct tags"])
p("Heterogeneous lists keep their elements, kinds and order",
  "Security lists, investment transaction lists, position lists, open-order lists and profile message-set lists decode each element to the kind named by its tag, keep order, reject unknown kinds, and survive a round trip.",
  "every list of any length and composition", "unbounded lists", ["seclist.go: SecurityList", "invstmt.go: InvTranList, PositionList, OOList", "profile.go: MessageSetList"])
p("Every 401(k) statement element written is read back as the same kind of element",
  "Loan information in a 401(k) account statement is written as, and accepted from, LOANINFO elements.",
  "every 401(k) statement", "no sample exercises it", ["invstmt.go: Inv401K, LoanInfo, VestInfo"])
p("Unknown elements are ignored and element order is irrelevant inside message structures",
  "Inserting elements with unknown names into a message structure, reordering elements of different names, or writing a value in another of its accepted notations (white space around it and comments inside it included), does not change the decoded value.",
  "every message type, document and insertion/permutation", "all permutations", ["struct tags of all messages (via the xml decoder)"])
p("Requests to URLs that are not HTTPS are refused",
  "Whatever the client, request and URL, no bytes are sent to a server unless the URL starts with https://; otherwise an error is returned.",
  "every client kind, URL, request and server behaviour", "all URLs and call paths", ["basic_client.go: RawRequest", "discovercard_client.go: RawRequest", "vanguard_client.go: RawRequest, RequestNoParse", "client.go"])
p("Client settings fall back to working defaults and always override the request",
  "For every client value the effective version is valid, the app id and version nonempty (defaults 203, OFXGO, 0001), and the document sent by Request carries exactly those, whatever the caller had put in the request.",
  "every client and request", "all values", ["basic_client.go", "request.go: SetClientFields", "client.go: clientRequest"])
p("A special client is chosen exactly for its institution's URL",
  "GetClient returns the Discover (Vanguard) client exactly when the URL, ignoring leading and trailing slashes, is that institution's URL; otherwise it returns the basic client.",
  "every URL", "all strings", ["client.go: GetClient"])
p("The Vanguard client retries at most once and only after a cookie-setting empty response",
  "Any call results in at most two posts with identical bodies, the second only if the first got a successful response without length and with cookies, and it carries exactly those cookies.",
  "every server behaviour", "all server responses", ["vanguard_client.go: RequestNoParse, rawRequestCookies*"])
p("Request closes every response body it obtained",
  "After Client.Request returns, every HTTP response body obtained during the call has been closed.",
  "every client kind, request and server behaviour", "resource leaks are invisible to value tests", ["client.go: clientRequest, clientRequestNoParse", "basic_client.go: RawRequest", "vanguard_client.go: RequestNoParse"])
p("HTTP errors are reported",
  "If the server's final answer has a status other than 200, Request returns an error and no response; RequestNoParse returns the error together with the raw response.",
  "every status code and client kind", "all codes", ["basic_client.go: RawRequest", "discovercard_client.go", "vanguard_client.go", "client.go"])
p("The hand-built Discover HTTP request frames the body correctly",
  "The Discover client writes headers whose Content-Length is the byte length of the body, followed by a blank line and exactly the body.",
  "every URL and body", "all bodies", ["discovercard_client.go: discoverCardHTTPPost"])
p("SGML leaf list and message structures agree",
  "No element the library treats as auto-closing leaf has children in any message structure, so no nested data is lost when reading SGML; unclosed and closed leaf elements read the same.",
  "every message structure, every document", "all documents", ["leaf_elements.go", "response.go: DecodeResponse", "request.go: Marshal"])
p("Nested validation errors are flattened without loss",
  "Adding errors to a validation error list never drops, duplicates or reorders any error, and the list is reported as an error exactly when nonempty.",
  "every sequence of additions", "histories", ["response.go: errInvalid.AddErr, ErrOrNil, Error"])
p("detect-settings tries every combination until one works",
  "The detect-settings command tries every combination of client program, program version, OFX version and carriage returns, each once and in a fixed order, stops at the first that works and prints exactly its settings; if every combination fails it says so and exits with a status other than zero.",
  "every server behaviour", "2^594 behaviours", ["cmd/ofx/detect_settings.go"])
p("The command-line transaction printers handle every valid response",
  "For every response that passes validation the transactions-bank, transactions-cc and transactions-inv commands print without crashing.",
  "every valid response", "optional elements absent in samples", ["cmd/ofx/banktransactions.go", "cmd/ofx/cctransactions.go", "cmd/ofx/invtransactions.go"])
p("Equality of OFX values is an equivalence on the denoted value",
  "Equal on Int, Amount, Date, String, Boolean, UID and CurrSymbol is reflexive, symmetric and transitive and agrees with the denoted value (amount value, instant, text).",
  "all pairs and triples of values", "all values", ["types.go: *.Equal"])
p("A message-set profile list round-trips exactly when all its sets are version 1",
  "Encoding a profile's message set list fails exactly if some set's name does not end in V1; otherwise decoding it gives back the same sets in order.",
  "every list", "all lists", ["profile.go: MessageSetList.MarshalXML, UnmarshalXML"])
p("Every element holding a value may be left unclosed in SGML documents",
  "In an SGML document the end tag of any element holding a value (no child elements) may be left out, as OFX 1.x allows, without changing what is decoded.",
  "every message structure and SGML document", "all elements of all structures", ["leaf_elements.go", "response.go: DecodeResponse"])
p("Request documents never travel over plain HTTP",
  "No HTTP request made during a call, including those made because a server redirected the client, goes to a URL that does not start with https://.",
  "every client kind, request and server behaviour", "all server behaviours", ["basic_client.go: RawRequest", "vanguard_client.go: RawRequest, rawRequestCookiesInsecureCiphers"])
p("A dry run sends nothing and shows the document that would be sent",
  "With the dry-run flag a command makes no network request and writes no file, and prints the document that the same command would have sent without it.",
  "every command, flags, server behaviour", "all flags and documents", ["cmd/ofx/util.go: printRequest", "cmd/ofx/bankdownload.go: download", "cmd/ofx/banktransactions.go: bankTransactions", "cmd/ofx/get_accounts.go: getAccounts"])
p("Downloads save exactly what the server answered",
  "When a download command succeeds, the named file holds exactly the body of the server's last answer, which had status 200; when it fails the file was not created or holds a beginning of that body.",
  "every download command, flags, server and file system behaviour", "crash points of copying", ["cmd/ofx/bankdownload.go: download", "cmd/ofx/ccdownload.go: ccDownload", "cmd/ofx/invdownload.go: invDownload", "cmd/ofx/profiledownload.go: profileDownload"])
p("The commands' exit status tells whether the query worked",
  "A printing command that is not a dry run exits with status 0 only if the server answered with status 200, the answer parsed and was valid, and the signon status was 0.",
  "every printing command, flags, server behaviour", "all server behaviours", ["cmd/ofx/banktransactions.go: bankTransactions", "cmd/ofx/cctransactions.go: ccTransactions", "cmd/ofx/invtransactions.go: invTransactions", "cmd/ofx/get_accounts.go: getAccounts"])
p("The printing commands show what the response says",
  "A printing command that exits with status 0 prints, for the first statement (or account list) of the server's last answer, the balance and one line per transaction in order with date, amount, currency, kind and name (or one paragraph per account), or a message that there is none; nothing else.",
  "every printing command, flags, server behaviour", "all responses", ["cmd/ofx/banktransactions.go: bankTransactions, printTransaction", "cmd/ofx/cctransactions.go: ccTransactions", "cmd/ofx/invtransactions.go: invTransactions, printInvBuy, printInvSell", "cmd/ofx/get_accounts.go: getAccounts"])
p("Commands check their flags before doing anything",
  "A command given no server URL, no user name (profiles may be downloaded without one, as the anonymous user) or, if it saves to a file, no file name sends nothing, writes nothing and exits with status 1; a missing password is asked for, and if it cannot be read the command likewise stops; otherwise it runs with exactly the flags given.",
  "every command and flags", "all combinations of flags", ["cmd/ofx/command.go: checkServerFlags", "cmd/ofx/main.go: runCmd", "cmd/ofx/profiledownload.go: downloadProfileCheckFlags", "cmd/ofx/bankdownload.go: downloadCheckFlags"])
p("The commands ask the server for exactly what the flags say",
  "Every document a command sends has the OFX version, line layout, login, institution, application and client id given by the flags, and exactly one message, with a fresh identifier, that asks for the account (or profile or account list) the flags name. detect-settings asks, for one combination of settings after the other, for the profile with the settings of that combination, first with the login of the flags and then anonymously, and sends nothing else.",
  "every command, flags, server behaviour", "all flags", ["cmd/ofx/util.go: newRequest", "cmd/ofx/banktransactions.go: bankTransactions", "cmd/ofx/ccdownload.go: ccDownload", "cmd/ofx/invdownload.go: invDownload", "cmd/ofx/get_accounts.go: getAccounts", "cmd/ofx/detect_settings.go: tryProfile", "cmd/ofx/profiledownload.go: downloadProfile"])
p("Errors of the input stream are reported",
  "If the reader passed to DecodeResponse or ParseResponse returns an error before the document is complete, decoding fails; an error after its last end tag makes no difference.",
  "every document, every reader, every point at which it fails", "fault injection at every point with every read size", ["response.go: DecodeResponse, ParseResponse, guessVersion, readSGMLHeaders"])
p("The command line runs the sub-command named and nothing else",
  "The program runs exactly the sub-command its first argument names; without one of the nine names it sends and writes nothing, prints the list of all sub-commands and exits with 0 if help was asked for and 1 otherwise.",
  "every argument list", "all argument lists", ["cmd/ofx/main.go: main, usage, commands"])
p("Every command line argument is honoured or refused",
  "Arguments after the sub-command either give flags of that sub-command values, in any of the usual spellings, and the sub-command runs with exactly these values (the last one counting) and the defaults for the rest; or nothing is sent or written and the program fails or shows help.",
  "every sub-command and argument list", "all argument lists", ["cmd/ofx/main.go: runCmd, main", "cmd/ofx/command.go: defineServerFlags", "cmd/ofx/bankdownload.go: init", "cmd/ofx/detect_settings.go: init"])
p("Dates made from numbers are the instants those numbers name",
  "NewDate with the fields of a reading that exists returns an instant at which the clock of the given location shows that reading, whenever there is one, and otherwise the reading taken with an offset in force nearby; fields beyond their range carry over into the next larger one. NewDateGMT encodes as the digits of the reading followed by [0:GMT], which decodes to the same instant.",
  "every reading of years 0-9999, every location whose clocks change at most once around it, every integer field for fixed offsets", "all integers and all zone tables", ["types.go: NewDate, NewDateGMT"])
p("A request may be sent again",
  "However often a request has been marshalled or sent before, with whatever clients, servers and outcomes, sending it does what sending it for the first time does: the same bytes go to the same server and the same response or error comes back. The destination, the credentials and the messages the caller put in stay; only the date, the application, the version and an empty language are filled in.",
  "every request, every history of calls and every client, network and trace", "histories of calls and failures at any point of them", ["request.go: SetClientFields, Marshal", "client.go: clientRequestNoParse, clientRequest", "vanguard_client.go: RequestNoParse", "signon.go: SignonRequest.Valid"])
p("What transactions, positions, orders and securities say about themselves is what the document says",
  "For each element of the lists of investment transactions, positions, open orders and securities, the type method returns the name of the element it is read from and written as, and the methods InvTransaction, InvPosition and SecurityInfo return what the INVTRAN, INVPOS or SECINFO element of it holds, wherever that element is nested.",
  "every list of any length of all 41 kinds, and every document they are read from", "all lists and all values of 41 types", ["invstmt.go: TransactionType, InvTransaction, PositionType, InvPosition, OrderType, InvTranList, PositionList, OOList", "seclist.go: SecurityType, SecurityInfo, SecurityList"])
p("A broken download is never taken for a complete one",
  "In whatever pieces the network delivers the body of a response, Request returns the same response. If the connection breaks off, Request fails or returns exactly what it would have returned for the complete body; if the server sent a response marshalled by this library, it fails whenever a byte is missing.",
  "every request, client, server, body, division into pieces, break-off point and error", "all schedules of reads and all break-off points", ["client.go: clientRequest", "response.go: ParseResponse, DecodeResponse"])
p("What was read can be saved and read again",
  "A response that ParseResponse returned without error, whatever document it came from, can be marshalled, and the document written parses without error as the same response; if its dates name their zones, marshalling that one again gives the same document byte for byte. (Amounts of more than 100 decimals, dates OFX cannot express and profile message sets of versions other than 1 excepted.)",
  "every document by any server or bank that the library accepts, including sparse, oddly laid out and repetitive ones", "all documents of any size", ["response.go: ParseResponse, Response.Marshal", "request.go: marshalMessageSet", "types.go: MarshalXML, UnmarshalXML methods", "profile.go: MessageSetList"])
p("The document sent means exactly what the request says, whatever the texts in it",
  "The bytes of a marshalled request lay out one element tree only, and that tree says the version, the signon (in English unless a language is given) and the messages of the request, in their sets and their order, and nothing else. No text in it, such as a password containing tags or references, can be taken for markup or end an element early, in SGML with its unclosed leaf elements or in XML. Two requests with the same bytes mean the same.",
  "every request with texts that XML can carry, every version, with and without indentation and carriage returns", "every text in every field; injection needs one that no test contains", ["request.go: Request.Marshal, marshalMessageSet", "types.go: MarshalXML methods", "leaf_elements.go: ofxLeafElements", "response.go: ParseResponse"])
p("A client may be shared by goroutines",
  "If goroutines call Request at the same time, each on a request of its own and on clients they may share, then in every interleaving of their steps each returns, leaves in its request and does on the network exactly what it would with nobody else about; none waits for another, no client and no other request is changed, and there is no data race. (Sharing a request is not safe: the settings of another client can get into the document.)",
  "any number of goroutines, clients of all kinds, requests and networks, every schedule", "all interleavings of all steps", ["client.go: clientRequestNoParse, clientRequest", "request.go: SetClientFields, Marshal, encodeMessageSet", "basic_client.go: BasicClient", "vanguard_client.go: RequestNoParse"])
p("Exactly the notations of Go's rational numbers are amounts",
  "The text of an amount element is accepted exactly if, without surrounding white space, it is an optionally signed number: a decimal numeral (also to base 2, 8 or 16 after 0b, 0o, 0x) with at most one point or comma, underscores only between digits and an optional exponent of ten or two, or a fraction of two whole numbers. It is accepted as exactly the number it denotes; every other text is an error. (Wider than OFX, which knows decimal numerals only: a bank writing 010/4 gets 2.)",
  "every text", "all texts over all characters", ["types.go: Amount.UnmarshalXML"])
p("Exactly the texts of one notation are dates",
  "The text of a date element is accepted exactly if, without what follows the first closing bracket and without surrounding white space, it is a date that exists in the calendar (4, 2 and 2 digits), optionally an hour, minutes, seconds and a fraction of a second, then optionally blanks and a zone suffix of at most 24 hours, with hundredths and a name that are optional, the name being one Go can read. It is accepted as exactly the instant and offset it denotes, on every machine, with the zone name it gives (GMT without a zone; the machine's own name for a nameless offset only if the offsets agree); every other text is an error. (Wider than OFX: an hour of one digit at the end, commas, fractions of any length and blanks before the zone are accepted.)",
  "every text and every local zone of the machine", "all texts over all characters", ["types.go: Date.UnmarshalXML, ofxDateFormats, ofxDateZoneRegex"])
p("A response read is exactly what the elements of the document say",
  "A document with a supported header, its elements laid out in any way, is read as a response exactly if that response has the header's version and its signon and messages are what the elements say, and is refused exactly if they do not say anything. What elements say: each field is about the elements of its name at its place; a text denotes a string, number, amount, date, currency or enumeration value by the rules of that type; of several elements for a single value the last counts, each being readable; without an element a value is zero or absent; a list has one value for each element, in order; where only certain elements are allowed nothing else but white space may appear; elements of other names say nothing.",
  "every document of every version, every one of the messages and all their structures, every element tree including repeated, missing, misplaced and unknown elements", "all element trees; tests show some that work", ["response.go: DecodeResponse, decodeMessageSet and the decoders of the sets", "types.go: UnmarshalXML methods", "bank.go", "creditcard.go", "invstmt.go", "seclist.go", "profile.go", "signup.go", "signon.go"])
p("Exactly the documents of one grammar are read",
  "A sequence of bytes is read as a response exactly if it starts with a document of this grammar, and then as what the document's elements say: an SGML header, whose first '<' is among the first 1024 bytes, and one element in which elements may be left open before another element's end tag and OFX leaf elements before any tag; or, if the first 1024 bytes look like XML, an xml declaration of no other version than 1.0, an OFX instruction with a supported header and one well-nested element; tags may have attributes (also unquoted or without values in SGML), and there may be character data with references, CDATA sections, comments, instructions and directives between tags. What follows the element does not matter. Nothing else is read, and no bytes are documents in two ways.",
  "every sequence of bytes", "all byte sequences; tests read some documents", ["response.go: DecodeResponse, guessVersion, readSGMLHeaders, readXMLHeaders", "leaf_elements.go: ofxLeafElements"])
p("Exactly the messages meeting the rules for their kind are accepted",
  "A bank statement and a request for one is accepted for a version exactly when its fields meet the documented rules, any other message exactly when its transaction id has 1 to 36 bytes, a list of securities always. A request or response is written exactly when its signon meets the signon rules and each of its lists holds only accepted messages of its own message set (and profiles list only version 1 message sets); a document is parsed without error exactly when it can be read and the signon and messages read are accepted. Validation changes nothing but the routing of accepted profile requests and the empty language of signons.",
  "every message of all thirteen kinds, every version, every request and response with any number of messages", "all messages and versions", ["bank.go", "creditcard.go", "invstmt.go", "profile.go", "seclist.go", "signup.go: *.Valid", "request.go: Marshal, encodeMessageSet", "response.go: Marshal, Valid, ParseResponse"])
p("The parts of an accepted message meet their own rules",
  "If a message is accepted, the status it reports is a defined one, the bank or card account it names is complete and its transactions meet the transaction rules.",
  "every message of all thirteen kinds and every version", "all messages and versions", ["bank.go", "creditcard.go", "invstmt.go", "profile.go", "seclist.go", "signup.go: *.Valid", "common.go: Status.Valid, CCAcct.Valid"])
p("Requests are posted the way the client is set up",
  "Every post a client makes is a POST of the whole document of the request to the URL of the request with exactly one Content-Type, application/x-ofx; it names the User-Agent the client is set to, once, and none if it is set to none. The HTTP client set decides about redirections: none is followed that it does not allow, and no more than it permits.",
  "every client kind and setting, every request, every HTTP client policy, every behaviour of servers and every history of earlier events", "all policies of HTTP clients and all sequences of answers", ["basic_client.go: RawRequest, BasicClient.UserAgent, BasicClient.HTTPClient", "vanguard_client.go: RawRequest, rawRequestCookiesInsecureCiphers, vanguardHttpClient", "discovercard_client.go: discoverCardHTTPPost"])
p("Documents are written element by element in the order of the standard",
  "The body of the document written for a request or response consists of exactly the elements that Spec/Written lists for its signon and messages, in that order and nested that way: each required element always, each optional one exactly when its value is set.",
  "all requests and responses that can be marshalled and all values in their messages: all 95 structures and 13 kinds of messages", "which of dozens of optional values are set varies independently", ["request.go: Request.Marshal", "response.go: Response.Marshal", "bank.go, creditcard.go, invstmt.go, profile.go, seclist.go, signup.go, signon.go, common.go: all struct declarations"])
p("detect-settings waits between requests as long as it is told",
  "Between any two requests that detect-settings sends there is a pause of the number of milliseconds given with -delay: it waits after each failed attempt, says so in the line about the attempt, and waits at no other time.",
  "all servers and histories of their answers, all delays and other flags", "which of 594 combinations fails depends on the server, and a test would have to wait", ["cmd/ofx/detect_settings.go: detectSettings, tryProfile"])
p("Passwords are not shown",
  "Outside of dry runs a password, given as a flag or typed in, goes nowhere but into the document sent: what a command prints, how it ends, the files it writes, and the URLs, headers, cookies, hosts and order of everything it sends are the same for any two passwords (both missing, both acceptable or both too long) if the server does not react to the document. For programs using the library the same holds of what Request and RequestNoParse return.",
  "all pairs of passwords, commands, flags, clients and servers that do not react to documents, all histories", "compares two runs: no single run shows whether something depends on the password", ["cmd/ofx/*.go: all commands", "cmd/ofx/command.go: checkServerFlags", "client.go: clientRequest, clientRequestNoParse", "basic_client.go, discovercard_client.go, vanguard_client.go: RawRequest", "signon.go: SignonRequest.Valid"])
p("What a document says does not depend on where it is read",
  "A document is refused on all machines with the same error, or read on all machines as the same response with the same verdict on its validity, whatever their time zone: every text, amount, instant and offset is the same. Only a zone abbreviation that a date lacks is supplied by the machine, and only if its own clocks show the date's offset at that instant. The same holds of the responses a client's Request returns, and what it sends does not depend on the time zone at all.",
  "all documents, however delivered, all pairs of machines (local time zones with any changes of offset), all clients and networks", "tests run in one time zone", ["types.go: Date.UnmarshalXML", "response.go: ParseResponse, DecodeResponse, Response.Valid", "client.go: clientRequest"])
p("A listing of transactions has a line for each transaction",
  "When transactions-bank or transactions-cc succeeds, it has printed a line about the balance, a headline and exactly one line for each transaction the server sent, so that the number of transactions can be told from the listing and a name or memo cannot pass for another transaction.",
  "all networks, all flags, all responses with any number of transactions", "tests of a few listings do not cover the texts a server may put into names and memos", ["cmd/ofx/banktransactions.go: bankTransactions, printTransaction", "cmd/ofx/cctransactions.go: ccTransactions"])
p("Downloads that fail do not harm files",
  "Commands change no file but the one a download is to be saved to, at whatever moment they are interrupted. That file stays as it was unless the download succeeds; when it has succeeded, the file has exactly the server's answer. If the download is cut short, whoever reads the file notices.",
  "all commands, flags and networks, all earlier contents of the disk, all ways of cutting the answer into writes, all points at which the process is killed or the disk is full", "tests do not kill the process at every point", ["cmd/ofx/bankdownload.go: download", "cmd/ofx/ccdownload.go: ccDownload", "cmd/ofx/invdownload.go: invDownload", "cmd/ofx/profiledownload.go: downloadProfile"])
p("What is read is no larger than the document",
  "Reading does not amplify: all texts of a response, its messages, the entries of its lists and its optional structures together are no more than the bytes of the document it was read from, and writing a value that was read takes no more room than its text did. A small document cannot make a program hold or write a large response.",
  "all byte sequences accepted as responses, all amounts texts", "all documents; amplification shows only for inputs made for it", ["response.go: ParseResponse", "response.go: DecodeResponse", "types.go: Amount.UnmarshalXML", "types.go: Amount.MarshalXML"])
p("A server's answer gets through",
  "Whatever the client, Request on a valid request to an https URL whose server answers it with status 200 and a document the library writes for a response returns that response and no error. The client for Vanguard also gets it if the server first answers with cookies and no content and gives its answer only to who comes back with the cookies.",
  "all clients, requests, histories, servers and responses", "all combinations of client, server behaviour and response; tests show single exchanges", ["client.go: clientRequest", "basic_client.go: BasicClient.RawRequest", "discovercard_client.go: DiscoverCardClient.RawRequest", "vanguard_client.go: VanguardClient.RequestNoParse", "response.go: ParseResponse"])
p("Commands with usable flags work",
  "A command whose flags name an https URL, an existing version, a login and program names of allowed sizes and, for bank accounts, the bank, the account and a known kind of account, succeeds if the server answers: a command that saves writes exactly the server's document to the file and exits with status 0; one that shows exits with status 0 after showing what the response says if it says that the login succeeded, unless it crashes. With other flags nothing is sent or written and the status is 1.",
  "all commands but detect-settings, all flags, servers, answers and random bytes", "all flags and all answers", ["cmd/ofx/util.go: newRequest", "cmd/ofx/bankdownload.go: download", "cmd/ofx/banktransactions.go: bankTransactions", "cmd/ofx/get_accounts.go: getAccounts", "signon.go: SignonRequest.Valid", "bank.go: StatementRequest.Valid"])
p("A response is to the request it is returned for",
  "The response Request returns, and the one a command shows, answers the request that was sent: its messages carry the transaction ids of the request's, and its statements are of the accounts asked about.",
  "all clients, requests, servers and answers; all flags of the command", "every server and every request; tests serve one canned answer", ["client.go: clientRequest", "response.go: ParseResponse", "cmd/ofx/banktransactions.go: bankTransactions"])
p("An account that was read can be asked about",
  "A bank, credit card or investment account taken from a response that was read (listed in it, the subject of a statement in it, or the target of a transfer) and put into a statement request gives a request that asks about the account described as it was read, and is refused only if the account is incomplete. The commands can ask about every account get-accounts lists.",
  "all documents, accounts in them and requests", "all documents and accounts; tests build requests from literals", ["common.go: BankAcct, CCAcct, InvAcct", "bank.go: StatementRequest, Transaction", "signup.go: AcctInfoResponse", "request.go: Request.Marshal", "cmd/ofx/banktransactions.go: bankTransactions"])
p("Documents are written and read in the encoding their header names",
  "The bytes of a document marshalled are its text in the character encoding its header names, and a document read is understood in the encoding its header names.",
  "all requests and responses marshalled, and all byte sequences read", "all letters in all fields; the tests use ASCII only", ["common.go: writeHeader", "request.go: Request.Marshal", "response.go: Response.Marshal, Response.readSGMLHeaders, DecodeResponse"])
p("Nothing a server sends makes the library panic",
  "Whatever bytes a server sends, ParseResponse returns: no slice is indexed out of range, no nil pointer is dereferenced and the loops over headers end. The same holds for reading the text of a date and for Valid, whichever of a response's optional parts are missing.",
  "all byte sequences, all texts of date elements, all responses", "the tests read well-formed documents; a panic takes down the program reading", ["response.go: ParseResponse, DecodeResponse, Response.readSGMLHeaders, Response.readXMLHeaders, Response.Valid", "types.go: Date.UnmarshalXML", "bank.go: Transaction.Valid, StatementResponse.Valid"])
p("Refusals by the server are reported",
  "If the server answers a request with a status and without what was asked for, as the specification says it does when it refuses the request, then the caller of Request gets a response with that status, and the user of the command line client is told.",
  "all answers of servers in which a request is refused, all requests and flags", "all documents, statuses and message sets; the tests have no answers with a refusal", ["client.go: clientRequest", "response.go: ParseResponse, Response.Valid", "bank.go: StatementResponse.Valid", "cmd/ofx/banktransactions.go: bankTransactions", "cmd/ofx/cctransactions.go: ccTransactions", "cmd/ofx/invtransactions.go: invTransactions", "cmd/ofx/get_accounts.go: getAccounts"])
p("RawRequest sends what the reader delivers",
  "Whatever reader RawRequest is given, and in whatever pieces it delivers the document, the server gets exactly what it delivers, once, and RawRequest returns what it would return for a buffer with these bytes; only a redirection that demands the document a second time is not followed but returned with an error. If the reader fails, no more than what it delivered before is sent, and nothing at all by the client for Discover, which returns an error.",
  "all clients, URLs, servers, histories and readers: all contents, divisions into pieces and failures", "all ways to divide a document and all points of failure; the tests send nothing", ["basic_client.go: BasicClient.RawRequest", "discovercard_client.go: discoverCardHTTPPost, DiscoverCardClient.RawRequest", "vanguard_client.go: VanguardClient.RawRequest"])
p("Documents that follow one another are decoded one after another",
  "DecodeResponse takes exactly one document from its reader: if documents follow one another in the reader, calling DecodeResponse (or ParseResponse) again and again with that reader returns their responses in that order, and then an error.",
  "all numbers of documents, all documents of all versions, all ways in which the reader delivers their bytes", "all documents and chunkings; the tests decode one document per reader", ["response.go: DecodeResponse, guessVersion, guessVersionCheckBytes, readSGMLHeaders"])
p("DecodeResponse does not wait for what comes after the document",
  "When the reader (an open connection, say) has delivered a whole document, DecodeResponse returns its response without calling Read again for bytes that have yet to be sent.",
  "all documents, all bytes that follow, all ways in which the reader delivers them, and readers whose next Read never returns", "all documents and chunkings, with a call that does not return; the tests read from files", ["response.go: DecodeResponse, guessVersion, guessVersionCheckBytes, readSGMLHeaders"])
p("Goroutines may send the same messages",
  "If goroutines call Request at the same time on different requests that hold some of the same messages, then in every interleaving of their steps each returns and does on the network what it would with nobody else about, the messages are afterwards as a single call leaves them, and there is no data race: two goroutines are never about to access the same memory with one of them writing it.",
  "any number of goroutines, clients of all kinds, requests, messages shared in any way, and networks, every schedule", "all interleavings of all steps", ["client.go: clientRequestNoParse, clientRequest", "request.go: SetClientFields, Marshal, encodeMessageSet", "profile.go: ProfileRequest.Valid"])
p("The Discover client asks for what its URL names",
  "RawRequest of the Discover client, which writes its HTTP request by hand, makes one connection, to the host and port of the URL (443 if it names none), and posts the body to the URL: the first line asks for the path and query as the URL writes them, and one Host line names the host, with the port unless it is 443.",
  "every https URL, body, network", "unbounded URLs", ["discovercard_client.go: discoverCardHTTPPost, RawRequest", "client.go: GetClient"])
p("The Vanguard client returns the cookies the server set",
  "When the Vanguard client asks again because the answer to its first request was empty and set cookies, the Cookie line of the second request returns the cookies of that answer's Set-Cookie lines, names and values as the server wrote them and in order, without those the server has replaced or told the client to forget.",
  "every list of Set-Cookie lines, request, network", "unbounded lists and values", ["vanguard_client.go: RequestNoParse, rawRequestCookiesInsecureCiphers"])
p("Marshal and Valid return whatever the lists of messages hold",
  "Whatever a program puts in the lists of messages of a request or response, Marshal and Valid return: what cannot be written or is not valid is reported as an error and does not make the program panic, and nothing is silently left out of a request.",
  "every request and response, with any entries in its lists of messages: messages, nil, or nil pointers to messages", "unbounded lists; which entry comes first decides", ["request.go: Request.Marshal, encodeMessageSet", "response.go: Response.Marshal, Response.Valid", "common.go: Message"])
p("Documents go to the server named only",
  "A request's document, with the user's login in it, is sent to no server but the one the request's URL names, whatever that server answers.",
  "every request, client, network and history of answers", "unbounded chains of answers; depends on what servers answer", ["client.go: clientRequest, clientRequestNoParse", "basic_client.go: RawRequest", "vanguard_client.go: RequestNoParse, RawRequest"])
p("Cookies go back to the server that set them",
  "The cookies a client sends with a request are those the server they are sent to set in an answer to that same request; no server is sent cookies set by another.",
  "every request, client, network and history of answers", "unbounded chains of answers; depends on what servers answer", ["vanguard_client.go: RequestNoParse, rawRequestCookiesInsecureCiphers"])
p("The kind of header does not change what well-formed elements say",
  "Whatever text is read as the elements of a response after an XML header is read as the same response, but for its version, after an SGML header, as long as the elements that hold values hold nothing but text.",
  "every text, XML header, SGML header and what follows the document", "unbounded documents in all notations", ["response.go: DecodeResponse, guessVersion, readSGMLHeaders, readXMLHeaders", "leaf_elements.go: ofxLeafElements"])
p("URLs are refused or lead to their host",
  "A request to a URL with control characters before its fragment, with percent signs outside its query that are not followed by two hexadecimal digits, or with other characters in its user name than are allowed, fails before anything is sent or connected to. With any other URL the request is made, and the Discover client connects to what follows the last '@' before the path, in the zone given if that is an IPv6 address with one, whatever the other parts contain.",
  "every https URL whose host and port are well-formed, whatever its user name, path, query and fragment; every client, network, document and history",
  "unbounded texts in every part of the URL",
  ["basic_client.go: RawRequest", "discovercard_client.go: RawRequest, discoverCardHTTPPost", "vanguard_client.go: RawRequest"])

p("Lists are written whole or not at all",
  "Whatever a program puts in the lists of transactions, positions, open orders and securities of a response, writing them returns: either the list's element holds every entry, in order, or an error says that it cannot be written. No entry is silently left out.",
  "every list of investment transactions, positions, open orders and securities, with any entries: values, pointers, nil, nil pointers and values of types of the program's own", "unbounded lists; which entry comes first decides",
  ["invstmt.go: InvTranList.MarshalXML, PositionList.MarshalXML, OOList.MarshalXML, InvTransaction, Position, OpenOrder", "seclist.go: SecurityList.MarshalXML, Security"])

p("Dates in one zone sort as texts",
  "The texts written for two dates in the same time zone, of the years 0 to 9999, compare, character by character, as the dates do in time, to the millisecond: the earlier date has the smaller text, and the texts are the same only if the dates are. So sorting or comparing the texts, as file names or database columns say, is sorting the dates.",
  "every two times with the same zone, in the years 0 to 9999", "all pairs of instants and zones, with every carry between the fields of the calendar",
  ["types.go: Date.String, Date.MarshalXML"])

with open("/verif/properties.jsonl","w") as f:
    for q in P: f.write(json.dumps(q)+"\n")
print(len(P))
