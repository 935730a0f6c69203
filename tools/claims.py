CLAIMS = {
 "C01": ("proved", "Exact characterisation of accepted texts and value; round trip for all int64."),
 "C06": ("proved", "Exact characterisation of accepted texts; round trip."),
 "C07": ("proved", "Decoding trims; round trip holds exactly for trimmed values."),
 "C08": ("proved", "Validity and recommended format characterised; no panic."),
 "C09": ("proved", "For every entropy source outcome."),
 "C10": ("proved", "All 40 generated enum tables, for every text and every number."),
 "C11": ("proved", "All 40 enums."),
 "C12": ("proved", "Version constants are ordered as the version numbers."),
 "C17": ("proved", "For every currency table of x/text containing XXX."),
 "C02": ("proved", "Every plain decimal text up to a million fractional digits; accepted plain texts are exactly those."),
 "C03": ("proved", "Within half a unit of the 100th decimal, and exact iff the amount is a multiple of 10^-100."),
 "C04": ("proved", "Shape of the printed text and injectivity."),
 "C05": ("proved", "Two or more separators rejected; comma equals point."),
 "C13": ("partial", "Every date text in the five precisions without a zone, and with a zone whose sign is unambiguous, decodes to its instant; invalid calendar dates are rejected. The full statement is false for zones between -1h and 0 and for named zones Go cannot read (witnesses proved)."),
 "C14": ("proved", "All instants with millisecond precision in years 0-9999. C14_cut: others are read back as the last millisecond before them. Numeric abbreviations such as -03 are shown to print a date that cannot be decoded."),
 "C15": ("partial", "Proved for offsets of at least an hour west and all east; the code violates it in (-1h, 0), witnesses proved."),
 "C16": ("proved", "Padding, trailing text after ']' and the GMT default, for every text."),
 "C18": ("proved", "Exact, over the code table generated from the source (93 codes), for every status."),
 "C19": ("partial", "Accounts exact. Currencies: exact except for rates that are nonzero whole multiples of 2^64, which the code rejects as zero (proved)."),
 "C20": ("partial", "The code violates the property: the test of the action is inverted; both failures are proved for every transaction. Proved part: transactions without a corrected id are unaffected."),
 "C21": ("proved", "Accepted transactions meet the rules; transactions correcting no other are accepted exactly when they do; bank statements likewise, exactly."),
 "C23": ("proved", "Exact acceptance, language default, idempotence."),
 "C22": ("partial", "Monotonicity for every message type and pair of versions; gating exact for bank statements. The code does not gate credit card messages (proved)."),
 "C24": ("proved", "Requests and responses, for any message implementation."),
 "C25": ("proved", "Requests and responses; names and order of the sets spelled out in Spec/Document.lean."),
 "C26": ("proved", "Exact success condition for requests and responses (for responses also profiles with version 1 sets only)."),
 "C27": ("proved", "The result and the request itself are unchanged by earlier calls, including failing ones."),
 "C31": ("partial", "Proved for the eleven defined versions. The code violates it for any other version number: the error of writeHeader is ignored (proved)."),
 "C33": ("proved", "For every element tree."),
 "C36": ("proved", "For any message implementation; exact list of entries in order."),
 "C37": ("partial", "From bytes to bytes, for every version and any data after the document, for all responses whose values can be carried; missing: 401(k) loans, for which the code violates the property (C40)."),
 "C49": ("proved", "Table fact over all structures; every SGML document, whatever its white space and whether leaves are closed or not, is read as the tree it lays out."),
 "C55": ("partial", "The code violates the property: 89 value elements are missing from the list of leaf elements, and such an element left unclosed swallows the element after it (proved, with a transaction losing its memo). For all other elements it holds."),
 "C50": ("proved", "For every sequence of additions."),
 "C38": ("partial", "All 95 structs and the list types, and all thirteen message types, for every value whose leaves can be carried; missing: 401(k) loans, for which the code violates the property (C40)."),
 "C39": ("proved", "Exact characterisation of decoding and round trip for all five list types."),
 "C40": ("partial", "The code violates the property (XMLName of LoanInfo says VESTINFO): every document with LOANINFO is rejected and loans are written as VESTINFO, both proved. 401(k) statements without loans round-trip."),
 "C41": ("proved", "For all struct and list types at any depth, and for whole response documents; Alike also covers other ways to write a value (white space, notation, comments inside); unknown elements in the closed lists are errors (C39)."),
 "C42": ("proved", "All three methods of every client kind: error, no response, no network event. For whole commands: nothing on the network (detect-settings still pauses between the attempts it cannot make)."),
 "C43": ("proved", "Every document posted or written, including redirections and the Vanguard retry."),
 "C44": ("proved", "Every URL."),
 "C45": ("partial", "The code violates the property: an error response with cookies is retried too (proved for every request). Everything else is proved: at most two posts, same URL and body, exactly the cookies of the first response, and the exact retry condition."),
 "C46": ("partial", "The code violates the property: bodies of responses with a status other than 200 and of first Vanguard responses stay open (both proved). All other bodies are closed."),
 "C47": ("partial", "Errors are always reported by Request; RequestNoParse returns the response with the error except with the Discover client and after a Vanguard retry, which return none (both proved)."),
 "C48": ("partial", "For all URLs whose decoded path and host have no CR or LF; in terms of URLs, for those with no %0D or %0A and only ASCII escapes in the path (C48_urls_partial). With CR LF CR LF in the path, that is with %0D%0A%0D%0A in the URL, the framing is broken (C48_broken_path, C48_break)."),
 "C56": ("partial", "The code violates the property: net/http follows redirections to plain http and sends the document there (proved for every request). Without redirections it holds, and with any for a basic client whose HTTP client refuses to follow to other than https URLs (C56_guarded_partial); the Vanguard client ignores such an HTTP client (C56_guard_ignored)."),
 "C54": ("proved", "Exact success condition, and exact round trip."),
 "C28": ("proved", "All versions, both line ends, every body."),
 "C29": ("proved", "Exact characterisation of the accepted headers, for the header check and for whole documents."),
 "C30": ("proved", "Exact characterisation of the accepted instructions; documents in both directions; order of attributes."),
 "C35": ("proved", "For every byte string."),
 "C53": ("proved", "Equality of the denoted values, hence an equivalence relation, for Amount, Date, Currency and the scalar types."),
 "C51": ("partial", "Order, completeness (594 combinations, none twice), stopping at the first success and the printed text are proved for every server. The code violates the rest: after all combinations failed it prints nothing more and exits with 0 (C51_detect_partial in general, C51_failure_status for an example)."),
 "C52": ("partial", "The code violates the property: statements without a transaction list (or balance) are valid and crash all three commands (proved end to end). It is proved that they crash in no other case."),
 "C57": ("proved", "All eight commands that make one request, every client kind."),
 "C58": ("proved", "All four download commands."),
 "C59": ("proved", "All four printing commands."),
 "C60": ("partial", "Proved for bank and credit card transactions and accounts. The code violates it for investments: the balance is left out unless it is a whole number (and not a multiple of 2^64); proved that exactly that line is missing, with a concrete server."),
 "C61": ("proved", "All nine commands."),
 "C62": ("proved", "All nine commands, every client kind; whole element tree of the document. For detect-settings also the order: the run is split into one part per combination tried."),
 "C34": ("partial", "For every document that decodes there is exactly one end tag up to whose end it must be present and after which everything is ignored; in XML it is that of OFX. Marshalled responses, and SGML documents whose elements are laid out properly, decode at no cut. The code violates the rest: in SGML a stray end tag of any other name ends the document too (proved for every SGML document)."),
 "C32": ("partial", "Proved for every schedule of reads (with fewer than 100 consecutive empty ones) from readers that are not a bufio.Reader, and for bufio.Readers if the first tag is in the first 1024 bytes. The code violates the rest: a header longer than 1024 bytes is accepted from a bufio.Reader with a larger buffer only (proved for every SGML document)."),
 "C64": ("proved", "All argument lists; all nine sub-commands."),
 "C65": ("partial", "Every argument list is characterised: flags in any spelling up to the first argument that is not a flag take effect, the last one counting (delays are given as integer literals of Go below 2^64: Spec/Number); otherwise the program exits with 2 (or 0 for help) having done nothing. The code violates the rest: everything after the first argument that is not a flag is ignored, even -dryrun (proved)."),
 "C66": ("proved", "All readings and locations; integers do not overflow."),
 "C67": ("proved", "Histories are an inductive relation over SetClientFields, Marshal, RequestNoParse and Request with any clients and outcomes."),
 "C68": ("proved", "A Currency is written under any name its XMLName holds, so a caller can add further INVTRAN elements after the first; the first one is meant."),
 "C69": ("proved", "Errors that come with the last bytes delivered or after them; fewer than 100 empty reads in a row."),
 "C70": ("proved", "All documents, laid out in any way; the exceptions are those of the statement (Spec/Saved)."),
 "C71": ("proved", "What a document says is defined by the layout rules of Spec/Layout and by what elements say (Spec/Says)."),
 "C72": ("proved", "Goroutines are programs of single accesses to shared clients, requests and messages (Model/Concurrent; Model/Sharing for C72_no_race); a round trip of net/http is one step."),
 "C73": ("proved", "An equivalence with the grammar of Spec/AmountText, which includes math/big's limits on exponents; that more than OFX's decimal numerals is accepted is C73_beyond_decimal."),
 "C74": ("proved", "An equivalence with the notation of Spec/DateText (the offset is the one the code reads, which for zones just west of Greenwich is not the one OFX means, see C15); that more than OFX's notation is accepted is C74_beyond_ofx."),
 "C75": ("proved", "An equivalence with Spec/Says, which lists for each structure the element each field is about (Spec/Elements), mentioning neither the schemas of the model nor the decoder; Layout (Spec/Layout) covers white space, references, line ends and unclosed leaf elements, but not attributes, comments, CDATA sections or further instructions between the elements: for these see C76."),
 "C76": ("proved", "An equivalence between the model of DecodeResponse on bytes and the grammar of Spec/Grammar, which does not mention the lexer or the tree builder. As in the whole model, names with a colon are refused, where encoding/xml is more generous; the tables of letters beyond ASCII are a parameter."),
 "C77": ("proved", "Equivalences with the rules of Spec/Valid and Spec/Accept, which mention fields only. That corrections stating their action are refused (C20) is part of the rule for transactions."),
 "C78": ("partial", "Proved for bank statements and requests for them. Violated by all other kinds: Valid of card, investment, profile, security list and account information messages looks at the transaction id only, so undefined statuses, empty card accounts and bad transactions pass (C78_status_unchecked, C78_card_unchecked, C78_bad_parts_accepted)."),
 "C79": ("partial", "Method, URL, content type and body are proved for every post of all clients, the user agent for the first post of each call. Violated: the Vanguard client's second post never names a user agent, and the Vanguard and Discover clients ignore the HTTP client set (the Discover client the user agent, too): C79_retry_agent, C79_vanguard_ignores, C79_discover_ignores. The policy about redirections is proved for the basic client."),
 "C80": ("partial", "The bodies of all documents are proved equal to those of Spec/Written, a list of elements for each structure. Violated for optional amounts, dates and aggregates that are not pointers, which are written although not set (Spec/Written says always): C80_unset_amounts_written, C80_both_currencies_written."),
 "C81": ("partial", "The whole history of a run is characterised: one attempt without pauses per combination, followed by exactly one pause if it failed, and as many pauses as failures reported, all of the length asked for if that is less than 2^63 nanoseconds. Violated: the request with the user's login and the one with the anonymous login follow each other without a pause (C81_no_pause), and longer delays wrap around, 2^58 ms to no pause at all (C81_too_long)."),
 "C82": ("proved", "Non-interference, for all nine commands, all clients and any redirection policy that does not look at bodies. Dry runs print the document and with it the password (C57). The texts of errors of net/http, crypto/tls and the operating system are not modelled: they are taken not to quote the body."),
 "C83": ("proved", "The local time zone is a function from instants to abbreviations and offsets, so changes of offset are included. C83_everywhere gives identity of what is read if no date lacks its abbreviation. What the commands print shows abbreviations and so may differ in them."),
 "C84": ("partial", "C84_lines_partial: there are never fewer lines, and exactly as many if and only if no text shown as the server sent it (name, memo, currency, zone abbreviation) has a line feed. Missing: that there are never more, which is false: C84_forged gives two valid responses, with two transactions and with one, listed alike."),
 "C85": ("partial", "C85_interrupted_partial: at every point other files are untouched and the file is as it was or has the beginning of an answer with status 200; C85_no_answer: nothing is touched without such an answer; C85_complete: after success the file has the whole answer; C85_noticed: what was cut short cannot be read. Missing: that the file keeps what was in it if the download fails, which is false: C85_lost (os.Create empties it first)."),
 "C86": ("partial", "C86_size_partial: texts, messages, list entries and optional structures together are at most the bytes of the document; C86_counts: so are the messages of each set and the transactions of a bank statement; C86_amount_limit: an amount is written with at most four times its text and thirteen million characters. Missing: that amounts take no more room than their texts, which is false: C86_amount_grows (1e1000000)."),
 "C87": ("proved", "C87_answered: for every client, after any history, for servers that answer however the document is posted; C87_vanguard_cookies: for Vanguard's round of cookies. The texts of the response as in C37."),
 "C88": ("proved", "C88_saves and C88_shows: usable flags (Spec/CliWorks) and a server that answers what the command asks (C62) give status 0, the file, and what is shown (for investments see C60; crashes are C59's). C88_refused: all other flags send and write nothing, status 1."),
 "C89": ("partial", "C89_answer_partial: the response is what the last answer says, and only this request's document was sent. Missing because false: nothing compares ids or accounts (C89_not_checked: for every client and request there is a server whose statement of another account is returned without error; C89_command: the command shows it)."),
 "C90": ("partial", "C90_bank_partial, C90_card, C90_investment: accounts listed or with statements are asked about as they were read, and the requests are refused exactly for incomplete bank accounts and bad signons or ids; C90_statement: accounts of statements parsed without error are never refused. Missing because false: targets of transfers are written as BANKACCTTO in the request, without error (C90_transfer_target), and the commands cannot ask about accounts with a branch or a key (C90_command)."),
 "C91": ("partial", "C91_written_partial, C91_response_written_partial: documents of version 1.x name US-ASCII and code page 1252 and are in it exactly if all texts in them are ASCII. Missing because false: other texts are written in UTF-8 (C91_written_wrong). Reading ignores the encoding named (C91_declaration_ignored, C91_xml_declaration_ignored) and takes everything for UTF-8 (C91_read_as_utf8), so documents in the encoding named are cut at the first letter outside ASCII (C91_1252_cut) and refused (C91_1252_refused)."),
 "C92": ("proved", "Model/Checked.lean has the code with slice indices, pointers and loops that can panic; C92_parse, C92_date and C92_valid say none does, and that the results are those of the model without panics. UIDs: C08_uid_recommended_no_panic; names of enumerations: C10. Panics inside the Go library (encoding/xml, math/big, regexp) are outside the model, as is a nil interface put into a list of messages by the caller."),
 "C93": ("partial", "C93_decoded: the refusal is in the response decoded, with its status. C93_returned_partial: Request returns it, unless it is about a bank account. Missing because false: a refusal about a bank account makes Request return no response (C93_bank_lost), with an error that is the same whatever the status (C93_bank_error), so transactions-bank fails (C93_bank_command); transactions-cc and transactions-inv crash (C93_crash) and get-accounts says that it found no accounts (C93_no_accounts)."),
 "C94": ("proved", "Readers are sequences of results of Read (Spec/Upload). C94_pieces: only the bytes and the error count. C94_as_buffer: the same result and events as for a buffer, unless a server answers 307 or 308, for which C94_demanded_again gives the response and the error. C94_posted: one request with the document, all others without body; also for readers that fail. C94_broken: Discover. C94_answer: the response returned is the last one, the others are closed. That net/http may return an answer the server gives before the reader fails is a parameter."),
 "C95": ("partial", "Proved for bufio.Readers with a buffer of at least 1024 bytes (C95_one_partial, C95_all_partial, C95_written_partial). Missing because false: from any other reader at least 1024 bytes are taken and those beyond the document are lost (C95_read_ahead, C95_second_lost); and an SGML document after a line break or other blanks is not decoded from any reader (C95_blank_between)."),
 "C96": ("partial", "Proved if at least 1024 bytes, the document and whatever follows it, have been delivered (C96_returns_partial). Missing because false: with less than 1024 bytes the version is not guessed before the reader has been asked for more (C96_waits)."),
 "C97": ("partial", "C97_as_alone, C97_so_far, C97_finishes and C97_messages_kept for all messages; C97_no_race_partial for all but profile requests. Missing because false: sharing a profile request is a data race, since its Valid writes to it (C97_race). Accesses are atomic in the model, which Go promises only where there is no race."),
 "C98": ("partial", "C98_discover: for every URL for which GetClient chooses the Discover client. C98_connects_partial, C98_asks_partial: for URLs with a host name, no port or 443, no query and no percent signs in the path. Missing because false: the query is dropped (C98_query_lost), percent signs in the path are undone (C98_space, C98_question), ports and the brackets of IPv6 addresses are left out of the Host line (C98_port_unsaid, C98_brackets), an empty port is misread (C98_empty_port). URLs with an escaped ASCII character in the name of the host are refused (C98_host_refused); other escapes in it are not stated."),
 "C99": ("partial", "C99_returned_partial: for all cookies with different names, values without quotes and no Expires, Max-Age, Path or Domain. Missing because false: cookies to be forgotten at once (C99_expired), replaced ones (C99_twice) and values without their quotes (C99_quotes) are sent."),
 "C100": ("partial", "C100_request_partial, C100_response_partial, C100_valid_partial: lists that hold messages only; C100_never_skipped: no request with a nil entry is marshalled without it. Missing because false: C100_panics and C100_response_panics say exactly which requests and responses make Marshal panic, C100_valid_panics which responses make Valid panic. Lists inside messages (positions, transactions, securities) hold values only here; see C105."),
 "C101": ("partial", "C101_entrusted_partial: the document only goes to the URL named and to those a server that got it referred to with status 307 or 308; C101_named_partial: without such answers to the URL named only; C101_guarded_partial: a basic client whose HTTP client follows to trusted URLs only sends nothing elsewhere. Missing because false: C101_elsewhere, for every request and every other URL. The Discover client follows no redirections; for where it connects to see C98."),
 "C102": ("partial", "C102_own_partial: unless a server redirects, cookies are sent to the URL named only and are those of an answer to a message sent to that URL. Missing because false: C102_foreign, for every request, other URL and cookies: after a redirection the cookies of the last server go to the one named."),
 "C103": ("proved", "C103_document: the same elements; C103_same: the same response or refusal. C103_comment: the condition on values is needed; a comment in a value of an SGML document makes the reader drop all that follows, without an error."),
 "C104": ("proved", "C104_refused (all clients), C104_posted (basic and Vanguard clients), C104_connects (Discover; a colon without port is C98_empty_port), C104_zone and C104_zone_refused (IPv6 zones, other parts as RFC 3986 allows). net/url is modelled (Model/Url), not assumed."),
 "C105": ("partial", "C105_securities_partial, C105_positions_partial, C105_orders_partial, C105_transactions_partial say exactly which lists are written (and as what: as encodeAs writes them, which the other properties are about), which are refused and which panic. Missing because false: a nil entry or nil pointer makes the program panic if no entry before it is refused (C105_panics); pointers to the library's types, which the compiler accepts, are refused with an error. Methods of the program's own types are taken to return."),
 "C106": ("proved", "C106_sorts and C106_same, for times of any precision (what is less than a millisecond is not written). time.Time.Format is modelled (Model/Date), not assumed. An example shows that texts of dates in different zones need not sort."),
 "C63": ("partial", "Proved for readers that fail for good. The code violates the rest: an error returned while the first 1024 bytes are read is dropped and reading goes on (proved for every SGML document)."),
}
