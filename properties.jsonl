{"id": "C01", "title": "Integer fields decode exactly or fail", "statement": "Decoding an integer element succeeds exactly when its text, ignoring surrounding whitespace, is an optional sign followed by at least one decimal digit denoting a value in the signed 64-bit range; the decoded value is that number. Every Int that is encoded decodes to itself.", "quantifier": "every element text and every 64-bit value", "why_tests_cant": "the boundary is a property of all digit strings of any length; tests sample a few", "anchors": ["types.go: Int.UnmarshalXML, Int.Equal"]}
{"id": "C02", "title": "Plain decimal amounts decode to their exact value", "statement": "For every amount text consisting of an optional sign, decimal digits and at most one fractional separator which is either '.' or ',', with any surrounding whitespace, decoding yields exactly the rational number the digits denote; no binary floating point rounding occurs.", "quantifier": "every decimal numeral with at most 10^6 fractional digits, both separators, all whitespace paddings", "why_tests_cant": "unbounded digit strings", "anchors": ["types.go: Amount.UnmarshalXML"]}
{"id": "C03", "title": "Amounts survive a print/parse round trip exactly when they have at most 100 decimals, and are otherwise rounded to within half a unit of the 100th decimal", "statement": "Parsing what Amount.String prints gives a value within 1/2*10^-100 of the original, and gives exactly the original if and only if the original is a multiple of 10^-100.", "quantifier": "every rational amount", "why_tests_cant": "a statement about all rationals", "anchors": ["types.go: Amount.String, Amount.MarshalXML, Amount.UnmarshalXML"]}
{"id": "C04", "title": "Printed amounts are in canonical decimal form", "statement": "Amount.String never prints an empty string, a trailing '.', trailing fractional zeros, an exponent or any character other than a leading '-', digits and one '.'; two amounts that are multiples of 10^-100 print the same text only if they are equal.", "quantifier": "every rational amount", "why_tests_cant": "all rationals", "anchors": ["types.go: Amount.String"]}
{"id": "C05", "title": "Amounts with grouping separators are never silently misread as another decimal", "statement": "A text with two or more '.'/',' separators is rejected; a text with a single ',' is read with the comma as decimal point.", "quantifier": "every numeral text", "why_tests_cant": "all texts", "anchors": ["types.go: Amount.UnmarshalXML"]}
{"id": "C06", "title": "Booleans accept exactly Y and N", "statement": "Decoding a Boolean succeeds only for Y (true) and N (false), ignoring surrounding whitespace; every encoded Boolean decodes to itself.", "quantifier": "every element text", "why_tests_cant": "all texts", "anchors": ["types.go: Boolean.UnmarshalXML, Boolean.MarshalXML"]}
{"id": "C07", "title": "Strings and UIDs decode to their trimmed text", "statement": "Decoding a String or UID never fails, yields the text without surrounding Unicode whitespace and without altering the interior; decoding is idempotent, and a value without surrounding whitespace round-trips unchanged.", "quantifier": "every element text", "why_tests_cant": "all texts", "anchors": ["types.go: String.UnmarshalXML, UID.UnmarshalXML"]}
{"id": "C08", "title": "Recommended-format UIDs are valid UIDs", "statement": "UID.Valid accepts exactly the UIDs of 1 to 36 bytes; UID.RecommendedFormat accepts exactly the 36 byte UIDs with '-' at byte offsets 8, 13, 18, 23; whenever RecommendedFormat holds Valid holds, and neither ever indexes out of range.", "quantifier": "every UID string", "why_tests_cant": "all strings incl. multi-byte text", "anchors": ["types.go: UID.Valid, UID.RecommendedFormat"]}
{"id": "C09", "title": "Generated UIDs are well-formed and as unique as their entropy", "statement": "RandomUID either reports an error (the entropy source failed or delivered fewer than 16 bytes) or returns a valid UID in the recommended format made of lower-case hex digits, and different 16 byte draws give different UIDs.", "quantifier": "every 16 byte draw of the entropy source and every outcome of the read", "why_tests_cant": "2^128 draws", "anchors": ["types.go: RandomUID"]}
{"id": "C10", "title": "Every enumeration's text form is a bijection on its valid values", "statement": "For each enumerated OFX type: a value is valid exactly when it is one of the declared constants; printing a valid value and parsing it (with any surrounding whitespace) returns the value; parsing succeeds only for the declared names, case-sensitively; a failed parse reports an error and leaves an invalid value.", "quantifier": "all 40 enumerations, every numeric value, every text", "why_tests_cant": "the joint quantification over tables, all integers and all strings", "anchors": ["constants.go: all enums (Valid, String, FromString, New*)", "generate_constants.py"]}
{"id": "C11", "title": "Invalid enumeration values are omitted, valid ones round-trip", "statement": "Encoding an enumeration value writes no element at all if it is invalid and otherwise exactly one element whose text decodes to the same value.", "quantifier": "all 40 enumerations, every numeric value", "why_tests_cant": "all values", "anchors": ["constants.go: MarshalXML, UnmarshalXML"]}
{"id": "C12", "title": "The order of OFX version constants is the numeric order of the versions", "statement": "Comparing two OfxVersion values compares the version numbers they print as, so SGML/XML selection (below 200 / 200 and above), the 160 ceiling and the 203/210/220 feature gates mean what they say.", "quantifier": "all pairs of OFX versions", "why_tests_cant": "exhaustive pairs", "anchors": ["constants.go: ofxVersion", "common.go: writeHeader", "request.go: Marshal", "response.go: readSGMLHeaders"]}
{"id": "C13", "title": "Dates decode to the instant they denote in all five precisions", "statement": "For every calendar-valid date, decoding YYYYMMDD, YYYYMMDDHH, YYYYMMDDHHMM, YYYYMMDDHHMMSS and YYYYMMDDHHMMSS.mmm, with any zone suffix [h], [h.ff], [h:NAME] or [h.ff:NAME] or none, yields the corresponding instant (missing components zero); calendar-invalid dates (month 13, Feb 30, hour 24...) are rejected.", "quantifier": "every year 0-9999, month, day, time, millisecond, all zone offsets up to 24h in hundredths of an hour", "why_tests_cant": "about 10^18 combinations incl. leap years", "anchors": ["types.go: Date.UnmarshalXML"]}
{"id": "C14", "title": "Dates survive a print/parse round trip", "statement": "For every instant with millisecond precision in years 0-9999 in a zone whose offset is a multiple of 3 minutes and at least an hour away from or equal/after GMT, and whose zone abbreviation is empty or one that can be read back (three capitals, four or five capitals ending in T, WITA; UTC only for offset zero), printing a Date and parsing it gives the same instant and the same offset.", "quantifier": "every instant and zone", "why_tests_cant": "all instants and offsets", "anchors": ["types.go: Date.String, Date.MarshalXML, Date.UnmarshalXML"]}
{"id": "C15", "title": "The sign of a date's zone offset is honoured", "statement": "A zone suffix with a negative number denotes a zone west of GMT, and a Date west of GMT prints with a negative offset.", "quantifier": "every zone offset", "why_tests_cant": "the failing cases are an interval of offsets nobody samples (between -1h and 0)", "anchors": ["types.go: Date.UnmarshalXML, Date.String"]}
{"id": "C16", "title": "A date without zone is GMT, and surrounding whitespace or text after the closing bracket is ignored", "statement": "A date text with no zone suffix decodes as GMT; padding a date text with whitespace, or appending any text after its closing ']', does not change what it decodes to.", "quantifier": "every date text, every padding and every trailing text", "why_tests_cant": "all texts", "anchors": ["types.go: Date.UnmarshalXML"]}
{"id": "C17", "title": "Currency symbols round-trip and 'XXX' is the only invalid one", "statement": "Decoding accepts exactly the ISO currency codes known to the currency table, in any letter case and with surrounding whitespace; encoding then decoding gives an equal symbol; Valid fails only for XXX, including the zero value.", "quantifier": "every text and every currency table", "why_tests_cant": "all texts", "anchors": ["types.go: CurrSymbol"]}
{"id": "C18", "title": "Status validity agrees with the code table", "statement": "A STATUS is valid exactly when its severity is a defined one (INFO, WARN, ERROR) and its code is in the OFX code table with that severity; for every valid status CodeMeaning and CodeConditions succeed, and for every unknown code both fail.", "quantifier": "every status code and severity text", "why_tests_cant": "all 64-bit codes", "anchors": ["common.go: Status.Valid, CodeMeaning, CodeConditions, statusMeanings"]}
{"id": "C19", "title": "Account and currency validation accepts exactly the complete values", "statement": "A bank account is accepted exactly when bank id and account id are nonempty and the account type is one of the five defined ones, a card account exactly when its account id is nonempty, a currency exactly when its rate is not zero and its symbol is not the unset symbol XXX; everything else is rejected with an error.", "quantifier": "every account and currency value", "why_tests_cant": "all strings and amounts", "anchors": ["common.go: BankAcct.Valid, CCAcct.Valid, Currency.Valid"]}
{"id": "C20", "title": "A transaction correction must name a valid correction action", "statement": "A transaction that names a corrected transaction id is accepted only if its correction action is DELETE or REPLACE, and is not rejected because of the correction if it is.", "quantifier": "every transaction", "why_tests_cant": "all transactions; the existing tests never set the field", "anchors": ["bank.go: Transaction.Valid"]}
{"id": "C21", "title": "Transaction validation enforces its exclusivity and presence rules", "statement": "An accepted transaction has a valid type, a posting date, a nonempty id, at most one of name and payee, at most one destination account, at most one valid currency, at most two images, and every accepted nested element is itself valid; any transaction meeting the documented rules that is not a correction (see the previous property) is accepted. Likewise for transaction lists, pending transactions, balances and bank statements.", "quantifier": "every transaction and version", "why_tests_cant": "combinatorial", "anchors": ["bank.go: Transaction.Valid, Payee.Valid, PendingTransaction.Valid, TransactionList.Valid, Balance.Valid, StatementResponse.Valid"]}
{"id": "C22", "title": "Version-gated content is rejected below the version that introduced it, and validity never decreases with a newer version", "statement": "Content introduced in OFX 2.1.0 and 2.2.0 (transaction images, pending transactions) is rejected for older versions; any message valid for some version is valid for every newer version.", "quantifier": "every message of every type and every pair of versions", "why_tests_cant": "all messages x version pairs", "anchors": ["bank.go", "creditcard.go", "invstmt.go", "profile.go", "seclist.go", "signon.go", "signup.go: *.Valid"]}
{"id": "C23", "title": "Signon validation accepts exactly the documented lengths and defaults the language once", "statement": "A signon request is accepted exactly when user id has 1-32 bytes, exactly one of password (<=32) and key (<=64) is present, language is empty or 3 bytes, app id has 1-5 and app version 1-4 bytes; on acceptance the language is set (ENG if it was empty), nothing else changes, and validating again changes nothing.", "quantifier": "every signon request", "why_tests_cant": "all strings", "anchors": ["signon.go: SignonRequest.Valid"]}
{"id": "C24", "title": "A message placed in the wrong message set is never sent", "statement": "Marshalling a request (response) that has, in any of its message-set lists, a message whose type belongs to another list returns an error and no document.", "quantifier": "every request and every possible message implementation", "why_tests_cant": "all messages in all positions", "anchors": ["request.go: Request.encodeMessageSet, Marshal", "response.go: Response.Marshal"]}
{"id": "C25", "title": "A marshalled request contains exactly the supplied messages, in order, in the right sets", "statement": "When Request.Marshal succeeds the document body is one OFX element containing the signon set followed by exactly the nonempty message sets in specification order, each containing exactly the supplied messages in the supplied order.", "quantifier": "every request", "why_tests_cant": "all combinations of 14 lists", "anchors": ["request.go: Request.Marshal, encodeMessageSet"]}
{"id": "C26", "title": "Marshalling is all-or-nothing and succeeds exactly on valid requests", "statement": "Request.Marshal returns either a complete document or an error, never both nor neither; it succeeds exactly when the signon and every message are valid for the version and filed in the right list.", "quantifier": "every request", "why_tests_cant": "all requests", "anchors": ["request.go: Request.Marshal"]}
{"id": "C27", "title": "Marshalling twice gives the same document", "statement": "Marshalling has no effect on later marshalling: after any number of Marshal calls on the same request the result is the same.", "quantifier": "every request and number of calls", "why_tests_cant": "histories", "anchors": ["request.go: Request.Marshal", "signon.go: SignonRequest.Valid", "profile.go: ProfileRequest.Valid"]}
{"id": "C28", "title": "Every header the library writes is read back as the same version", "statement": "For every OFX version and both line-ending settings, the header written by Marshal is classified correctly (SGML below 200, XML from 200 on) and parsed back to exactly that version, whatever body follows.", "quantifier": "all versions, line-ending modes and following document bodies", "why_tests_cant": "arbitrary bodies", "anchors": ["common.go: writeHeader", "response.go: guessVersion, readSGMLHeaders, readXMLHeaders"]}
{"id": "C29", "title": "An SGML response is accepted only with a supported header", "statement": "If an SGML header is accepted then it stated OFXHEADER:100, DATA:OFXSGML, a known VERSION of at most 160, SECURITY NONE or TYPE1 and COMPRESSION NONE, and the resulting version is the one stated; and any header with these values is accepted whatever ASCII whitespace separates the fields (within the 1024 byte window).", "quantifier": "every byte string", "why_tests_cant": "all inputs", "anchors": ["response.go: readSGMLHeaders"]}
{"id": "C30", "title": "An XML response is accepted only with a supported header", "statement": "If an XML header is accepted then the document started with an xml and then an OFX processing instruction, the latter stating OFXHEADER 200 and a known VERSION of at least 200, security NONE and no unknown attribute; the attributes may come in any order.", "quantifier": "every processing-instruction text", "why_tests_cant": "all inputs", "anchors": ["response.go: readXMLHeaders"]}
{"id": "C31", "title": "Marshalling never emits a document without header", "statement": "Whenever Marshal succeeds, the document starts with a valid OFX header for the request's version.", "quantifier": "every request incl. those whose Version was never set", "why_tests_cant": "the failing case is an unset field", "anchors": ["request.go: Request.Marshal", "response.go: Response.Marshal", "common.go: writeHeader"]}
{"id": "C32", "title": "Parsing does not depend on how the input stream is chunked", "statement": "Reading the same bytes from any reader, through any sequence of partial reads, gives the same response (or a failure in both cases).", "quantifier": "every byte string and every schedule of read sizes", "why_tests_cant": "schedules", "anchors": ["response.go: DecodeResponse, guessVersion, readSGMLHeaders"]}
{"id": "C33", "title": "Decoded messages are filed under their own message set, in document order", "statement": "After a successful decode, every message in a response list has the type of that list, the messages appear in document order (concatenating repeated sets), and every message element of the document is represented exactly once.", "quantifier": "every document", "why_tests_cant": "all documents", "anchors": ["response.go: DecodeResponse, decodeMessageSet, responseTypes"]}
{"id": "C34", "title": "Truncated documents are rejected", "statement": "If a document decodes successfully, then cutting it anywhere before the final closing OFX tag makes decoding fail; input after that tag is ignored.", "quantifier": "every document and every cut point", "why_tests_cant": "all cut points of all documents", "anchors": ["response.go: DecodeResponse, decodeMessageSet", "util.go: nextNonWhitespaceToken"]}
{"id": "C35", "title": "ParseResponse distinguishes undecodable from invalid", "statement": "ParseResponse returns no response exactly when decoding failed; it returns a response with an error exactly when the document decoded but is invalid; it returns a nil error exactly when the document decoded and every part is valid.", "quantifier": "every document", "why_tests_cant": "all inputs", "anchors": ["response.go: ParseResponse, Response.Valid"]}
{"id": "C36", "title": "Response validation reports every problem", "statement": "Response.Valid accepts exactly when the signon and all messages are valid, and otherwise its error contains one entry per failing part in document order, with nested validation lists flattened.", "quantifier": "every response", "why_tests_cant": "all combinations", "anchors": ["response.go: Response.Valid, errInvalid"]}
{"id": "C37", "title": "Responses survive a marshal/decode round trip", "statement": "Decoding the elements that Response.Marshal writes gives a response with the same version, signon and messages.", "quantifier": "every response whose leaf values are exactly representable", "why_tests_cant": "unbounded nested data", "anchors": ["response.go: Response.Marshal, DecodeResponse"]}
{"id": "C38", "title": "Every message type survives an encode/decode round trip", "statement": "For each request and response message type (and every struct nested in it) encoding a value and decoding the elements gives back an equal value, provided its leaf values are exactly representable and its enumerations valid or zero.", "quantifier": "every message type and every value of it, with lists of any length", "why_tests_cant": "unbounded nested data", "anchors": ["bank.go", "creditcard.go", "invstmt.go", "seclist.go", "profile.go", "signup.go", "signon.go", "common.go: struct tags"]}
{"id": "C39", "title": "Heterogeneous lists keep their elements, kinds and order", "statement": "Security lists, investment transaction lists, position lists, open-order lists and profile message-set lists decode each element to the kind named by its tag, keep order, reject unknown kinds, and survive a round trip.", "quantifier": "every list of any length and composition", "why_tests_cant": "unbounded lists", "anchors": ["seclist.go: SecurityList", "invstmt.go: InvTranList, PositionList, OOList", "profile.go: MessageSetList"]}
{"id": "C40", "title": "Every 401(k) statement element written is read back as the same kind of element", "statement": "Loan information in a 401(k) account statement is written as, and accepted from, LOANINFO elements.", "quantifier": "every 401(k) statement", "why_tests_cant": "no sample exercises it", "anchors": ["invstmt.go: Inv401K, LoanInfo, VestInfo"]}
{"id": "C41", "title": "Unknown elements are ignored and element order is irrelevant inside message structures", "statement": "Inserting elements with unknown names into a message structure, reordering elements of different names, or writing a value in another of its accepted notations (white space around it and comments inside it included), does not change the decoded value.", "quantifier": "every message type, document and insertion/permutation", "why_tests_cant": "all permutations", "anchors": ["struct tags of all messages (via the xml decoder)"]}
{"id": "C42", "title": "Requests to URLs that are not HTTPS are refused", "statement": "Whatever the client, request and URL, no bytes are sent to a server unless the URL starts with https://; otherwise an error is returned.", "quantifier": "every client kind, URL, request and server behaviour", "why_tests_cant": "all URLs and call paths", "anchors": ["basic_client.go: RawRequest", "discovercard_client.go: RawRequest", "vanguard_client.go: RawRequest, RequestNoParse", "client.go"]}
{"id": "C43", "title": "Client settings fall back to working defaults and always override the request", "statement": "For every client value the effective version is valid, the app id and version nonempty (defaults 203, OFXGO, 0001), and the document sent by Request carries exactly those, whatever the caller had put in the request.", "quantifier": "every client and request", "why_tests_cant": "all values", "anchors": ["basic_client.go", "request.go: SetClientFields", "client.go: clientRequest"]}
{"id": "C44", "title": "A special client is chosen exactly for its institution's URL", "statement": "GetClient returns the Discover (Vanguard) client exactly when the URL, ignoring leading and trailing slashes, is that institution's URL; otherwise it returns the basic client.", "quantifier": "every URL", "why_tests_cant": "all strings", "anchors": ["client.go: GetClient"]}
{"id": "C45", "title": "The Vanguard client retries at most once and only after a cookie-setting empty response", "statement": "Any call results in at most two posts with identical bodies, the second only if the first got a successful response without length and with cookies, and it carries exactly those cookies.", "quantifier": "every server behaviour", "why_tests_cant": "all server responses", "anchors": ["vanguard_client.go: RequestNoParse, rawRequestCookies*"]}
{"id": "C46", "title": "Request closes every response body it obtained", "statement": "After Client.Request returns, every HTTP response body obtained during the call has been closed.", "quantifier": "every client kind, request and server behaviour", "why_tests_cant": "resource leaks are invisible to value tests", "anchors": ["client.go: clientRequest, clientRequestNoParse", "basic_client.go: RawRequest", "vanguard_client.go: RequestNoParse"]}
{"id": "C47", "title": "HTTP errors are reported", "statement": "If the server's final answer has a status other than 200, Request returns an error and no response; RequestNoParse returns the error together with the raw response.", "quantifier": "every status code and client kind", "why_tests_cant": "all codes", "anchors": ["basic_client.go: RawRequest", "discovercard_client.go", "vanguard_client.go", "client.go"]}
{"id": "C48", "title": "The hand-built Discover HTTP request frames the body correctly", "statement": "The Discover client writes headers whose Content-Length is the byte length of the body, followed by a blank line and exactly the body.", "quantifier": "every URL and body", "why_tests_cant": "all bodies", "anchors": ["discovercard_client.go: discoverCardHTTPPost"]}
{"id": "C49", "title": "SGML leaf list and message structures agree", "statement": "No element the library treats as auto-closing leaf has children in any message structure, so no nested data is lost when reading SGML; unclosed and closed leaf elements read the same.", "quantifier": "every message structure, every document", "why_tests_cant": "all documents", "anchors": ["leaf_elements.go", "response.go: DecodeResponse", "request.go: Marshal"]}
{"id": "C50", "title": "Nested validation errors are flattened without loss", "statement": "Adding errors to a validation error list never drops, duplicates or reorders any error, and the list is reported as an error exactly when nonempty.", "quantifier": "every sequence of additions", "why_tests_cant": "histories", "anchors": ["response.go: errInvalid.AddErr, ErrOrNil, Error"]}
{"id": "C51", "title": "detect-settings tries every combination until one works", "statement": "The detect-settings command tries every combination of client program, program version, OFX version and carriage returns, each once and in a fixed order, stops at the first that works and prints exactly its settings; if every combination fails it says so and exits with a status other than zero.", "quantifier": "every server behaviour", "why_tests_cant": "2^594 behaviours", "anchors": ["cmd/ofx/detect_settings.go"]}
{"id": "C52", "title": "The command-line transaction printers handle every valid response", "statement": "For every response that passes validation the transactions-bank, transactions-cc and transactions-inv commands print without crashing.", "quantifier": "every valid response", "why_tests_cant": "optional elements absent in samples", "anchors": ["cmd/ofx/banktransactions.go", "cmd/ofx/cctransactions.go", "cmd/ofx/invtransactions.go"]}
{"id": "C53", "title": "Equality of OFX values is an equivalence on the denoted value", "statement": "Equal on Int, Amount, Date, String, Boolean, UID and CurrSymbol is reflexive, symmetric and transitive and agrees with the denoted value (amount value, instant, text).", "quantifier": "all pairs and triples of values", "why_tests_cant": "all values", "anchors": ["types.go: *.Equal"]}
{"id": "C54", "title": "A message-set profile list round-trips exactly when all its sets are version 1", "statement": "Encoding a profile's message set list fails exactly if some set's name does not end in V1; otherwise decoding it gives back the same sets in order.", "quantifier": "every list", "why_tests_cant": "all lists", "anchors": ["profile.go: MessageSetList.MarshalXML, UnmarshalXML"]}
{"id": "C55", "title": "Every element holding a value may be left unclosed in SGML documents", "statement": "In an SGML document the end tag of any element holding a value (no child elements) may be left out, as OFX 1.x allows, without changing what is decoded.", "quantifier": "every message structure and SGML document", "why_tests_cant": "all elements of all structures", "anchors": ["leaf_elements.go", "response.go: DecodeResponse"]}
{"id": "C56", "title": "Request documents never travel over plain HTTP", "statement": "No HTTP request made during a call, including those made because a server redirected the client, goes to a URL that does not start with https://.", "quantifier": "every client kind, request and server behaviour", "why_tests_cant": "all server behaviours", "anchors": ["basic_client.go: RawRequest", "vanguard_client.go: RawRequest, rawRequestCookiesInsecureCiphers"]}
{"id": "C57", "title": "A dry run sends nothing and shows the document that would be sent", "statement": "With the dry-run flag a command makes no network request and writes no file, and prints the document that the same command would have sent without it.", "quantifier": "every command, flags, server behaviour", "why_tests_cant": "all flags and documents", "anchors": ["cmd/ofx/util.go: printRequest", "cmd/ofx/bankdownload.go: download", "cmd/ofx/banktransactions.go: bankTransactions", "cmd/ofx/get_accounts.go: getAccounts"]}
{"id": "C58", "title": "Downloads save exactly what the server answered", "statement": "When a download command succeeds, the named file holds exactly the body of the server's last answer, which had status 200; when it fails the file was not created or holds a beginning of that body.", "quantifier": "every download command, flags, server and file system behaviour", "why_tests_cant": "crash points of copying", "anchors": ["cmd/ofx/bankdownload.go: download", "cmd/ofx/ccdownload.go: ccDownload", "cmd/ofx/invdownload.go: invDownload", "cmd/ofx/profiledownload.go: profileDownload"]}
{"id": "C59", "title": "The commands' exit status tells whether the query worked", "statement": "A printing command that is not a dry run exits with status 0 only if the server answered with status 200, the answer parsed and was valid, and the signon status was 0.", "quantifier": "every printing command, flags, server behaviour", "why_tests_cant": "all server behaviours", "anchors": ["cmd/ofx/banktransactions.go: bankTransactions", "cmd/ofx/cctransactions.go: ccTransactions", "cmd/ofx/invtransactions.go: invTransactions", "cmd/ofx/get_accounts.go: getAccounts"]}
{"id": "C60", "title": "The printing commands show what the response says", "statement": "A printing command that exits with status 0 prints, for the first statement (or account list) of the server's last answer, the balance and one line per transaction in order with date, amount, currency, kind and name (or one paragraph per account), or a message that there is none; nothing else.", "quantifier": "every printing command, flags, server behaviour", "why_tests_cant": "all responses", "anchors": ["cmd/ofx/banktransactions.go: bankTransactions, printTransaction", "cmd/ofx/cctransactions.go: ccTransactions", "cmd/ofx/invtransactions.go: invTransactions, printInvBuy, printInvSell", "cmd/ofx/get_accounts.go: getAccounts"]}
{"id": "C61", "title": "Commands check their flags before doing anything", "statement": "A command given no server URL, no user name (profiles may be downloaded without one, as the anonymous user) or, if it saves to a file, no file name sends nothing, writes nothing and exits with status 1; a missing password is asked for, and if it cannot be read the command likewise stops; otherwise it runs with exactly the flags given.", "quantifier": "every command and flags", "why_tests_cant": "all combinations of flags", "anchors": ["cmd/ofx/command.go: checkServerFlags", "cmd/ofx/main.go: runCmd", "cmd/ofx/profiledownload.go: downloadProfileCheckFlags", "cmd/ofx/bankdownload.go: downloadCheckFlags"]}
{"id": "C62", "title": "The commands ask the server for exactly what the flags say", "statement": "Every document a command sends has the OFX version, line layout, login, institution, application and client id given by the flags, and exactly one message, with a fresh identifier, that asks for the account (or profile or account list) the flags name. detect-settings asks, for one combination of settings after the other, for the profile with the settings of that combination, first with the login of the flags and then anonymously, and sends nothing else.", "quantifier": "every command, flags, server behaviour", "why_tests_cant": "all flags", "anchors": ["cmd/ofx/util.go: newRequest", "cmd/ofx/banktransactions.go: bankTransactions", "cmd/ofx/ccdownload.go: ccDownload", "cmd/ofx/invdownload.go: invDownload", "cmd/ofx/get_accounts.go: getAccounts", "cmd/ofx/detect_settings.go: tryProfile", "cmd/ofx/profiledownload.go: downloadProfile"]}
{"id": "C63", "title": "Errors of the input stream are reported", "statement": "If the reader passed to DecodeResponse or ParseResponse returns an error before the document is complete, decoding fails; an error after its last end tag makes no difference.", "quantifier": "every document, every reader, every point at which it fails", "why_tests_cant": "fault injection at every point with every read size", "anchors": ["response.go: DecodeResponse, ParseResponse, guessVersion, readSGMLHeaders"]}
{"id": "C64", "title": "The command line runs the sub-command named and nothing else", "statement": "The program runs exactly the sub-command its first argument names; without one of the nine names it sends and writes nothing, prints the list of all sub-commands and exits with 0 if help was asked for and 1 otherwise.", "quantifier": "every argument list", "why_tests_cant": "all argument lists", "anchors": ["cmd/ofx/main.go: main, usage, commands"]}
{"id": "C65", "title": "Every command line argument is honoured or refused", "statement": "Arguments after the sub-command either give flags of that sub-command values, in any of the usual spellings, and the sub-command runs with exactly these values (the last one counting) and the defaults for the rest; or nothing is sent or written and the program fails or shows help.", "quantifier": "every sub-command and argument list", "why_tests_cant": "all argument lists", "anchors": ["cmd/ofx/main.go: runCmd, main", "cmd/ofx/command.go: defineServerFlags", "cmd/ofx/bankdownload.go: init", "cmd/ofx/detect_settings.go: init"]}
{"id": "C66", "title": "Dates made from numbers are the instants those numbers name", "statement": "NewDate with the fields of a reading that exists returns an instant at which the clock of the given location shows that reading, whenever there is one, and otherwise the reading taken with an offset in force nearby; fields beyond their range carry over into the next larger one. NewDateGMT encodes as the digits of the reading followed by [0:GMT], which decodes to the same instant.", "quantifier": "every reading of years 0-9999, every location whose clocks change at most once around it, every integer field for fixed offsets", "why_tests_cant": "all integers and all zone tables", "anchors": ["types.go: NewDate, NewDateGMT"]}
{"id": "C67", "title": "A request may be sent again", "statement": "However often a request has been marshalled or sent before, with whatever clients, servers and outcomes, sending it does what sending it for the first time does: the same bytes go to the same server and the same response or error comes back. The destination, the credentials and the messages the caller put in stay; only the date, the application, the version and an empty language are filled in.", "quantifier": "every request, every history of calls and every client, network and trace", "why_tests_cant": "histories of calls and failures at any point of them", "anchors": ["request.go: SetClientFields, Marshal", "client.go: clientRequestNoParse, clientRequest", "vanguard_client.go: RequestNoParse", "signon.go: SignonRequest.Valid"]}
{"id": "C68", "title": "What transactions, positions, orders and securities say about themselves is what the document says", "statement": "For each element of the lists of investment transactions, positions, open orders and securities, the type method returns the name of the element it is read from and written as, and the methods InvTransaction, InvPosition and SecurityInfo return what the INVTRAN, INVPOS or SECINFO element of it holds, wherever that element is nested.", "quantifier": "every list of any length of all 41 kinds, and every document they are read from", "why_tests_cant": "all lists and all values of 41 types", "anchors": ["invstmt.go: TransactionType, InvTransaction, PositionType, InvPosition, OrderType, InvTranList, PositionList, OOList", "seclist.go: SecurityType, SecurityInfo, SecurityList"]}
{"id": "C69", "title": "A broken download is never taken for a complete one", "statement": "In whatever pieces the network delivers the body of a response, Request returns the same response. If the connection breaks off, Request fails or returns exactly what it would have returned for the complete body; if the server sent a response marshalled by this library, it fails whenever a byte is missing.", "quantifier": "every request, client, server, body, division into pieces, break-off point and error", "why_tests_cant": "all schedules of reads and all break-off points", "anchors": ["client.go: clientRequest", "response.go: ParseResponse, DecodeResponse"]}
{"id": "C70", "title": "What was read can be saved and read again", "statement": "A response that ParseResponse returned without error, whatever document it came from, can be marshalled, and the document written parses without error as the same response; if its dates name their zones, marshalling that one again gives the same document byte for byte. (Amounts of more than 100 decimals, dates OFX cannot express and profile message sets of versions other than 1 excepted.)", "quantifier": "every document by any server or bank that the library accepts, including sparse, oddly laid out and repetitive ones", "why_tests_cant": "all documents of any size", "anchors": ["response.go: ParseResponse, Response.Marshal", "request.go: marshalMessageSet", "types.go: MarshalXML, UnmarshalXML methods", "profile.go: MessageSetList"]}
{"id": "C71", "title": "The document sent means exactly what the request says, whatever the texts in it", "statement": "The bytes of a marshalled request lay out one element tree only, and that tree says the version, the signon (in English unless a language is given) and the messages of the request, in their sets and their order, and nothing else. No text in it, such as a password containing tags or references, can be taken for markup or end an element early, in SGML with its unclosed leaf elements or in XML. Two requests with the same bytes mean the same.", "quantifier": "every request with texts that XML can carry, every version, with and without indentation and carriage returns", "why_tests_cant": "every text in every field; injection needs one that no test contains", "anchors": ["request.go: Request.Marshal, marshalMessageSet", "types.go: MarshalXML methods", "leaf_elements.go: ofxLeafElements", "response.go: ParseResponse"]}
{"id": "C72", "title": "A client may be shared by goroutines", "statement": "If goroutines call Request at the same time, each on a request of its own and on clients they may share, then in every interleaving of their steps each returns, leaves in its request and does on the network exactly what it would with nobody else about; none waits for another, no client and no other request is changed, and there is no data race. (Sharing a request is not safe: the settings of another client can get into the document.)", "quantifier": "any number of goroutines, clients of all kinds, requests and networks, every schedule", "why_tests_cant": "all interleavings of all steps", "anchors": ["client.go: clientRequestNoParse, clientRequest", "request.go: SetClientFields, Marshal, encodeMessageSet", "basic_client.go: BasicClient", "vanguard_client.go: RequestNoParse"]}
{"id": "C73", "title": "Exactly the notations of Go's rational numbers are amounts", "statement": "The text of an amount element is accepted exactly if, without surrounding white space, it is an optionally signed number: a decimal numeral (also to base 2, 8 or 16 after 0b, 0o, 0x) with at most one point or comma, underscores only between digits and an optional exponent of ten or two, or a fraction of two whole numbers. It is accepted as exactly the number it denotes; every other text is an error. (Wider than OFX, which knows decimal numerals only: a bank writing 010/4 gets 2.)", "quantifier": "every text", "why_tests_cant": "all texts over all characters", "anchors": ["types.go: Amount.UnmarshalXML"]}
{"id": "C74", "title": "Exactly the texts of one notation are dates", "statement": "The text of a date element is accepted exactly if, without what follows the first closing bracket and without surrounding white space, it is a date that exists in the calendar (4, 2 and 2 digits), optionally an hour, minutes, seconds and a fraction of a second, then optionally blanks and a zone suffix of at most 24 hours, with hundredths and a name that are optional, the name being one Go can read. It is accepted as exactly the instant and offset it denotes, on every machine, with the zone name it gives (GMT without a zone; the machine's own name for a nameless offset only if the offsets agree); every other text is an error. (Wider than OFX: an hour of one digit at the end, commas, fractions of any length and blanks before the zone are accepted.)", "quantifier": "every text and every local zone of the machine", "why_tests_cant": "all texts over all characters", "anchors": ["types.go: Date.UnmarshalXML, ofxDateFormats, ofxDateZoneRegex"]}
{"id": "C75", "title": "A response read is exactly what the elements of the document say", "statement": "A document with a supported header, its elements laid out in any way, is read as a response exactly if that response has the header's version and its signon and messages are what the elements say, and is refused exactly if they do not say anything. What elements say: each field is about the elements of its name at its place; a text denotes a string, number, amount, date, currency or enumeration value by the rules of that type; of several elements for a single value the last counts, each being readable; without an element a value is zero or absent; a list has one value for each element, in order; where only certain elements are allowed nothing else but white space may appear; elements of other names say nothing.", "quantifier": "every document of every version, every one of the messages and all their structures, every element tree including repeated, missing, misplaced and unknown elements", "why_tests_cant": "all element trees; tests show some that work", "anchors": ["response.go: DecodeResponse, decodeMessageSet and the decoders of the sets", "types.go: UnmarshalXML methods", "bank.go", "creditcard.go", "invstmt.go", "seclist.go", "profile.go", "signup.go", "signon.go"]}
{"id": "C76", "title": "Exactly the documents of one grammar are read", "statement": "A sequence of bytes is read as a response exactly if it starts with a document of this grammar, and then as what the document's elements say: an SGML header, whose first '<' is among the first 1024 bytes, and one element in which elements may be left open before another element's end tag and OFX leaf elements before any tag; or, if the first 1024 bytes look like XML, an xml declaration of no other version than 1.0, an OFX instruction with a supported header and one well-nested element; tags may have attributes (also unquoted or without values in SGML), and there may be character data with references, CDATA sections, comments, instructions and directives between tags. What follows the element does not matter. Nothing else is read, and no bytes are documents in two ways.", "quantifier": "every sequence of bytes", "why_tests_cant": "all byte sequences; tests read some documents", "anchors": ["response.go: DecodeResponse, guessVersion, readSGMLHeaders, readXMLHeaders", "leaf_elements.go: ofxLeafElements"]}
{"id": "C77", "title": "Exactly the messages meeting the rules for their kind are accepted", "statement": "A bank statement and a request for one is accepted for a version exactly when its fields meet the documented rules, any other message exactly when its transaction id has 1 to 36 bytes, a list of securities always. A request or response is written exactly when its signon meets the signon rules and each of its lists holds only accepted messages of its own message set (and profiles list only version 1 message sets); a document is parsed without error exactly when it can be read and the signon and messages read are accepted. Validation changes nothing but the routing of accepted profile requests and the empty language of signons.", "quantifier": "every message of all thirteen kinds, every version, every request and response with any number of messages", "why_tests_cant": "all messages and versions", "anchors": ["bank.go", "creditcard.go", "invstmt.go", "profile.go", "seclist.go", "signup.go: *.Valid", "request.go: Marshal, encodeMessageSet", "response.go: Marshal, Valid, ParseResponse"]}
{"id": "C78", "title": "The parts of an accepted message meet their own rules", "statement": "If a message is accepted, the status it reports is a defined one, the bank or card account it names is complete and its transactions meet the transaction rules.", "quantifier": "every message of all thirteen kinds and every version", "why_tests_cant": "all messages and versions", "anchors": ["bank.go", "creditcard.go", "invstmt.go", "profile.go", "seclist.go", "signup.go: *.Valid", "common.go: Status.Valid, CCAcct.Valid"]}
{"id": "C79", "title": "Requests are posted the way the client is set up", "statement": "Every post a client makes is a POST of the whole document of the request to the URL of the request with exactly one Content-Type, application/x-ofx; it names the User-Agent the client is set to, once, and none if it is set to none. The HTTP client set decides about redirections: none is followed that it does not allow, and no more than it permits.", "quantifier": "every client kind and setting, every request, every HTTP client policy, every behaviour of servers and every history of earlier events", "why_tests_cant": "all policies of HTTP clients and all sequences of answers", "anchors": ["basic_client.go: RawRequest, BasicClient.UserAgent, BasicClient.HTTPClient", "vanguard_client.go: RawRequest, rawRequestCookiesInsecureCiphers, vanguardHttpClient", "discovercard_client.go: discoverCardHTTPPost"]}
{"id": "C80", "title": "Documents are written element by element in the order of the standard", "statement": "The body of the document written for a request or response consists of exactly the elements that Spec/Written lists for its signon and messages, in that order and nested that way: each required element always, each optional one exactly when its value is set.", "quantifier": "all requests and responses that can be marshalled and all values in their messages: all 95 structures and 13 kinds of messages", "why_tests_cant": "which of dozens of optional values are set varies independently", "anchors": ["request.go: Request.Marshal", "response.go: Response.Marshal", "bank.go, creditcard.go, invstmt.go, profile.go, seclist.go, signup.go, signon.go, common.go: all struct declarations"]}
{"id": "C81", "title": "detect-settings waits between requests as long as it is told", "statement": "Between any two requests that detect-settings sends there is a pause of the number of milliseconds given with -delay: it waits after each failed attempt, says so in the line about the attempt, and waits at no other time.", "quantifier": "all servers and histories of their answers, all delays and other flags", "why_tests_cant": "which of 594 combinations fails depends on the server, and a test would have to wait", "anchors": ["cmd/ofx/detect_settings.go: detectSettings, tryProfile"]}
{"id": "C82", "title": "Passwords are not shown", "statement": "Outside of dry runs a password, given as a flag or typed in, goes nowhere but into the document sent: what a command prints, how it ends, the files it writes, and the URLs, headers, cookies, hosts and order of everything it sends are the same for any two passwords (both missing, both acceptable or both too long) if the server does not react to the document. For programs using the library the same holds of what Request and RequestNoParse return.", "quantifier": "all pairs of passwords, commands, flags, clients and servers that do not react to documents, all histories", "why_tests_cant": "compares two runs: no single run shows whether something depends on the password", "anchors": ["cmd/ofx/*.go: all commands", "cmd/ofx/command.go: checkServerFlags", "client.go: clientRequest, clientRequestNoParse", "basic_client.go, discovercard_client.go, vanguard_client.go: RawRequest", "signon.go: SignonRequest.Valid"]}
{"id": "C83", "title": "What a document says does not depend on where it is read", "statement": "A document is refused on all machines with the same error, or read on all machines as the same response with the same verdict on its validity, whatever their time zone: every text, amount, instant and offset is the same. Only a zone abbreviation that a date lacks is supplied by the machine, and only if its own clocks show the date's offset at that instant. The same holds of the responses a client's Request returns, and what it sends does not depend on the time zone at all.", "quantifier": "all documents, however delivered, all pairs of machines (local time zones with any changes of offset), all clients and networks", "why_tests_cant": "tests run in one time zone", "anchors": ["types.go: Date.UnmarshalXML", "response.go: ParseResponse, DecodeResponse, Response.Valid", "client.go: clientRequest"]}
{"id": "C84", "title": "A listing of transactions has a line for each transaction", "statement": "When transactions-bank or transactions-cc succeeds, it has printed a line about the balance, a headline and exactly one line for each transaction the server sent, so that the number of transactions can be told from the listing and a name or memo cannot pass for another transaction.", "quantifier": "all networks, all flags, all responses with any number of transactions", "why_tests_cant": "tests of a few listings do not cover the texts a server may put into names and memos", "anchors": ["cmd/ofx/banktransactions.go: bankTransactions, printTransaction", "cmd/ofx/cctransactions.go: ccTransactions"]}
{"id": "C85", "title": "Downloads that fail do not harm files", "statement": "Commands change no file but the one a download is to be saved to, at whatever moment they are interrupted. That file stays as it was unless the download succeeds; when it has succeeded, the file has exactly the server's answer. If the download is cut short, whoever reads the file notices.", "quantifier": "all commands, flags and networks, all earlier contents of the disk, all ways of cutting the answer into writes, all points at which the process is killed or the disk is full", "why_tests_cant": "tests do not kill the process at every point", "anchors": ["cmd/ofx/bankdownload.go: download", "cmd/ofx/ccdownload.go: ccDownload", "cmd/ofx/invdownload.go: invDownload", "cmd/ofx/profiledownload.go: downloadProfile"]}
{"id": "C86", "title": "What is read is no larger than the document", "statement": "Reading does not amplify: all texts of a response, its messages, the entries of its lists and its optional structures together are no more than the bytes of the document it was read from, and writing a value that was read takes no more room than its text did. A small document cannot make a program hold or write a large response.", "quantifier": "all byte sequences accepted as responses, all amounts texts", "why_tests_cant": "all documents; amplification shows only for inputs made for it", "anchors": ["response.go: ParseResponse", "response.go: DecodeResponse", "types.go: Amount.UnmarshalXML", "types.go: Amount.MarshalXML"]}
{"id": "C87", "title": "A server's answer gets through", "statement": "Whatever the client, Request on a valid request to an https URL whose server answers it with status 200 and a document the library writes for a response returns that response and no error. The client for Vanguard also gets it if the server first answers with cookies and no content and gives its answer only to who comes back with the cookies.", "quantifier": "all clients, requests, histories, servers and responses", "why_tests_cant": "all combinations of client, server behaviour and response; tests show single exchanges", "anchors": ["client.go: clientRequest", "basic_client.go: BasicClient.RawRequest", "discovercard_client.go: DiscoverCardClient.RawRequest", "vanguard_client.go: VanguardClient.RequestNoParse", "response.go: ParseResponse"]}
{"id": "C88", "title": "Commands with usable flags work", "statement": "A command whose flags name an https URL, an existing version, a login and program names of allowed sizes and, for bank accounts, the bank, the account and a known kind of account, succeeds if the server answers: a command that saves writes exactly the server's document to the file and exits with status 0; one that shows exits with status 0 after showing what the response says if it says that the login succeeded, unless it crashes. With other flags nothing is sent or written and the status is 1.", "quantifier": "all commands but detect-settings, all flags, servers, answers and random bytes", "why_tests_cant": "all flags and all answers", "anchors": ["cmd/ofx/util.go: newRequest", "cmd/ofx/bankdownload.go: download", "cmd/ofx/banktransactions.go: bankTransactions", "cmd/ofx/get_accounts.go: getAccounts", "signon.go: SignonRequest.Valid", "bank.go: StatementRequest.Valid"]}
{"id": "C89", "title": "A response is to the request it is returned for", "statement": "The response Request returns, and the one a command shows, answers the request that was sent: its messages carry the transaction ids of the request's, and its statements are of the accounts asked about.", "quantifier": "all clients, requests, servers and answers; all flags of the command", "why_tests_cant": "every server and every request; tests serve one canned answer", "anchors": ["client.go: clientRequest", "response.go: ParseResponse", "cmd/ofx/banktransactions.go: bankTransactions"]}
{"id": "C90", "title": "An account that was read can be asked about", "statement": "A bank, credit card or investment account taken from a response that was read (listed in it, the subject of a statement in it, or the target of a transfer) and put into a statement request gives a request that asks about the account described as it was read, and is refused only if the account is incomplete. The commands can ask about every account get-accounts lists.", "quantifier": "all documents, accounts in them and requests", "why_tests_cant": "all documents and accounts; tests build requests from literals", "anchors": ["common.go: BankAcct, CCAcct, InvAcct", "bank.go: StatementRequest, Transaction", "signup.go: AcctInfoResponse", "request.go: Request.Marshal", "cmd/ofx/banktransactions.go: bankTransactions"]}
{"id": "C91", "title": "Documents are written and read in the encoding their header names", "statement": "The bytes of a document marshalled are its text in the character encoding its header names, and a document read is understood in the encoding its header names.", "quantifier": "all requests and responses marshalled, and all byte sequences read", "why_tests_cant": "all letters in all fields; the tests use ASCII only", "anchors": ["common.go: writeHeader", "request.go: Request.Marshal", "response.go: Response.Marshal, Response.readSGMLHeaders, DecodeResponse"]}
{"id": "C92", "title": "Nothing a server sends makes the library panic", "statement": "Whatever bytes a server sends, ParseResponse returns: no slice is indexed out of range, no nil pointer is dereferenced and the loops over headers end. The same holds for reading the text of a date and for Valid, whichever of a response's optional parts are missing.", "quantifier": "all byte sequences, all texts of date elements, all responses", "why_tests_cant": "the tests read well-formed documents; a panic takes down the program reading", "anchors": ["response.go: ParseResponse, DecodeResponse, Response.readSGMLHeaders, Response.readXMLHeaders, Response.Valid", "types.go: Date.UnmarshalXML", "bank.go: Transaction.Valid, StatementResponse.Valid"]}
{"id": "C93", "title": "Refusals by the server are reported", "statement": "If the server answers a request with a status and without what was asked for, as the specification says it does when it refuses the request, then the caller of Request gets a response with that status, and the user of the command line client is told.", "quantifier": "all answers of servers in which a request is refused, all requests and flags", "why_tests_cant": "all documents, statuses and message sets; the tests have no answers with a refusal", "anchors": ["client.go: clientRequest", "response.go: ParseResponse, Response.Valid", "bank.go: StatementResponse.Valid", "cmd/ofx/banktransactions.go: bankTransactions", "cmd/ofx/cctransactions.go: ccTransactions", "cmd/ofx/invtransactions.go: invTransactions", "cmd/ofx/get_accounts.go: getAccounts"]}
{"id": "C94", "title": "RawRequest sends what the reader delivers", "statement": "Whatever reader RawRequest is given, and in whatever pieces it delivers the document, the server gets exactly what it delivers, once, and RawRequest returns what it would return for a buffer with these bytes; only a redirection that demands the document a second time is not followed but returned with an error. If the reader fails, no more than what it delivered before is sent, and nothing at all by the client for Discover, which returns an error.", "quantifier": "all clients, URLs, servers, histories and readers: all contents, divisions into pieces and failures", "why_tests_cant": "all ways to divide a document and all points of failure; the tests send nothing", "anchors": ["basic_client.go: BasicClient.RawRequest", "discovercard_client.go: discoverCardHTTPPost, DiscoverCardClient.RawRequest", "vanguard_client.go: VanguardClient.RawRequest"]}
{"id": "C95", "title": "Documents that follow one another are decoded one after another", "statement": "DecodeResponse takes exactly one document from its reader: if documents follow one another in the reader, calling DecodeResponse (or ParseResponse) again and again with that reader returns their responses in that order, and then an error.", "quantifier": "all numbers of documents, all documents of all versions, all ways in which the reader delivers their bytes", "why_tests_cant": "all documents and chunkings; the tests decode one document per reader", "anchors": ["response.go: DecodeResponse, guessVersion, guessVersionCheckBytes, readSGMLHeaders"]}
{"id": "C96", "title": "DecodeResponse does not wait for what comes after the document", "statement": "When the reader (an open connection, say) has delivered a whole document, DecodeResponse returns its response without calling Read again for bytes that have yet to be sent.", "quantifier": "all documents, all bytes that follow, all ways in which the reader delivers them, and readers whose next Read never returns", "why_tests_cant": "all documents and chunkings, with a call that does not return; the tests read from files", "anchors": ["response.go: DecodeResponse, guessVersion, guessVersionCheckBytes, readSGMLHeaders"]}
{"id": "C97", "title": "Goroutines may send the same messages", "statement": "If goroutines call Request at the same time on different requests that hold some of the same messages, then in every interleaving of their steps each returns and does on the network what it would with nobody else about, the messages are afterwards as a single call leaves them, and there is no data race: two goroutines are never about to access the same memory with one of them writing it.", "quantifier": "any number of goroutines, clients of all kinds, requests, messages shared in any way, and networks, every schedule", "why_tests_cant": "all interleavings of all steps", "anchors": ["client.go: clientRequestNoParse, clientRequest", "request.go: SetClientFields, Marshal, encodeMessageSet", "profile.go: ProfileRequest.Valid"]}
{"id": "C98", "title": "The Discover client asks for what its URL names", "statement": "RawRequest of the Discover client, which writes its HTTP request by hand, makes one connection, to the host and port of the URL (443 if it names none), and posts the body to the URL: the first line asks for the path and query as the URL writes them, and one Host line names the host, with the port unless it is 443.", "quantifier": "every https URL, body, network", "why_tests_cant": "unbounded URLs", "anchors": ["discovercard_client.go: discoverCardHTTPPost, RawRequest", "client.go: GetClient"]}
{"id": "C99", "title": "The Vanguard client returns the cookies the server set", "statement": "When the Vanguard client asks again because the answer to its first request was empty and set cookies, the Cookie line of the second request returns the cookies of that answer's Set-Cookie lines, names and values as the server wrote them and in order, without those the server has replaced or told the client to forget.", "quantifier": "every list of Set-Cookie lines, request, network", "why_tests_cant": "unbounded lists and values", "anchors": ["vanguard_client.go: RequestNoParse, rawRequestCookiesInsecureCiphers"]}
{"id": "C100", "title": "Marshal and Valid return whatever the lists of messages hold", "statement": "Whatever a program puts in the lists of messages of a request or response, Marshal and Valid return: what cannot be written or is not valid is reported as an error and does not make the program panic, and nothing is silently left out of a request.", "quantifier": "every request and response, with any entries in its lists of messages: messages, nil, or nil pointers to messages", "why_tests_cant": "unbounded lists; which entry comes first decides", "anchors": ["request.go: Request.Marshal, encodeMessageSet", "response.go: Response.Marshal, Response.Valid", "common.go: Message"]}
{"id": "C101", "title": "Documents go to the server named only", "statement": "A request's document, with the user's login in it, is sent to no server but the one the request's URL names, whatever that server answers.", "quantifier": "every request, client, network and history of answers", "why_tests_cant": "unbounded chains of answers; depends on what servers answer", "anchors": ["client.go: clientRequest, clientRequestNoParse", "basic_client.go: RawRequest", "vanguard_client.go: RequestNoParse, RawRequest"]}
{"id": "C102", "title": "Cookies go back to the server that set them", "statement": "The cookies a client sends with a request are those the server they are sent to set in an answer to that same request; no server is sent cookies set by another.", "quantifier": "every request, client, network and history of answers", "why_tests_cant": "unbounded chains of answers; depends on what servers answer", "anchors": ["vanguard_client.go: RequestNoParse, rawRequestCookiesInsecureCiphers"]}
{"id": "C103", "title": "The kind of header does not change what well-formed elements say", "statement": "Whatever text is read as the elements of a response after an XML header is read as the same response, but for its version, after an SGML header, as long as the elements that hold values hold nothing but text.", "quantifier": "every text, XML header, SGML header and what follows the document", "why_tests_cant": "unbounded documents in all notations", "anchors": ["response.go: DecodeResponse, guessVersion, readSGMLHeaders, readXMLHeaders", "leaf_elements.go: ofxLeafElements"]}
{"id": "C104", "title": "URLs are refused or lead to their host", "statement": "A request to a URL with control characters before its fragment, with percent signs outside its query that are not followed by two hexadecimal digits, or with other characters in its user name than are allowed, fails before anything is sent or connected to. With any other URL the request is made, and the Discover client connects to what follows the last '@' before the path, in the zone given if that is an IPv6 address with one, whatever the other parts contain.", "quantifier": "every https URL whose host and port are well-formed, whatever its user name, path, query and fragment; every client, network, document and history", "why_tests_cant": "unbounded texts in every part of the URL", "anchors": ["basic_client.go: RawRequest", "discovercard_client.go: RawRequest, discoverCardHTTPPost", "vanguard_client.go: RawRequest"]}
{"id": "C105", "title": "Lists are written whole or not at all", "statement": "Whatever a program puts in the lists of transactions, positions, open orders and securities of a response, writing them returns: either the list's element holds every entry, in order, or an error says that it cannot be written. No entry is silently left out.", "quantifier": "every list of investment transactions, positions, open orders and securities, with any entries: values, pointers, nil, nil pointers and values of types of the program's own", "why_tests_cant": "unbounded lists; which entry comes first decides", "anchors": ["invstmt.go: InvTranList.MarshalXML, PositionList.MarshalXML, OOList.MarshalXML, InvTransaction, Position, OpenOrder", "seclist.go: SecurityList.MarshalXML, Security"]}
{"id": "C106", "title": "Dates in one zone sort as texts", "statement": "The texts written for two dates in the same time zone, of the years 0 to 9999, compare, character by character, as the dates do in time, to the millisecond: the earlier date has the smaller text, and the texts are the same only if the dates are. So sorting or comparing the texts, as file names or database columns say, is sorting the dates.", "quantifier": "every two times with the same zone, in the years 0 to 9999", "why_tests_cant": "all pairs of instants and zones, with every carry between the fields of the calendar", "anchors": ["types.go: Date.String, Date.MarshalXML"]}
