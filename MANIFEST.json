{
 "claims": [
  {
   "property": "C01",
   "status": "proved",
   "theorems": [
    "Ofx.Props.C01_int_decode_error_iff",
    "Ofx.Props.C01_int_decode_iff",
    "Ofx.Props.C01_int_roundtrip"
   ],
   "note": "Exact characterisation of accepted texts and value; round trip for all int64."
  },
  {
   "property": "C02",
   "status": "proved",
   "theorems": [
    "Ofx.Props.C02_decimal_exact",
    "Ofx.Props.C02_plain_accepted_only"
   ],
   "note": "Every plain decimal text up to a million fractional digits; accepted plain texts are exactly those."
  },
  {
   "property": "C03",
   "status": "proved",
   "theorems": [
    "Ofx.Props.C03_roundtrip"
   ],
   "note": "Within half a unit of the 100th decimal, and exact iff the amount is a multiple of 10^-100."
  },
  {
   "property": "C04",
   "status": "proved",
   "theorems": [
    "Ofx.Props.C04_canonical",
    "Ofx.Props.C04_injective"
   ],
   "note": "Shape of the printed text and injectivity."
  },
  {
   "property": "C05",
   "status": "proved",
   "theorems": [
    "Ofx.Props.C05_comma_is_point",
    "Ofx.Props.C05_two_separators_rejected"
   ],
   "note": "Two or more separators rejected; comma equals point."
  },
  {
   "property": "C06",
   "status": "proved",
   "theorems": [
    "Ofx.Props.C06_boolean_decode_iff",
    "Ofx.Props.C06_boolean_roundtrip"
   ],
   "note": "Exact characterisation of accepted texts; round trip."
  },
  {
   "property": "C07",
   "status": "proved",
   "theorems": [
    "Ofx.Props.C07_string_decode",
    "Ofx.Props.C07_string_roundtrip_iff",
    "Ofx.Props.C07_uid_decode",
    "Ofx.Props.C07_uid_roundtrip_iff"
   ],
   "note": "Decoding trims; round trip holds exactly for trimmed values."
  },
  {
   "property": "C08",
   "status": "proved",
   "theorems": [
    "Ofx.Props.C08_recommended_implies_valid",
    "Ofx.Props.C08_uid_recommended_iff",
    "Ofx.Props.C08_uid_recommended_no_panic",
    "Ofx.Props.C08_uid_valid_iff"
   ],
   "note": "Validity and recommended format characterised; no panic."
  },
  {
   "property": "C09",
   "status": "proved",
   "theorems": [
    "Ofx.Props.C09_error_iff",
    "Ofx.Props.C09_injective",
    "Ofx.Props.C09_shape",
    "Ofx.Props.C09_valid"
   ],
   "note": "For every entropy source outcome."
  },
  {
   "property": "C10",
   "status": "proved",
   "theorems": [
    "Ofx.Props.C10_constant_text",
    "Ofx.Props.C10_new_error",
    "Ofx.Props.C10_new_unmarshal",
    "Ofx.Props.C10_parse_error",
    "Ofx.Props.C10_parse_iff",
    "Ofx.Props.C10_roundtrip",
    "Ofx.Props.C10_string_injective",
    "Ofx.Props.C10_string_total",
    "Ofx.Props.C10_valid_iff"
   ],
   "note": "All 40 generated enum tables, for every text and every number."
  },
  {
   "property": "C11",
   "status": "proved",
   "theorems": [
    "Ofx.Props.C11_marshal"
   ],
   "note": "All 40 enums."
  },
  {
   "property": "C12",
   "status": "proved",
   "theorems": [
    "Ofx.Props.C12_version_order"
   ],
   "note": "Version constants are ordered as the version numbers."
  },
  {
   "property": "C13",
   "status": "partial",
   "theorems": [
    "Ofx.Props.C13_decode_no_zone",
    "Ofx.Props.C13_decode_zone_partial",
    "Ofx.Props.C13_full_false",
    "Ofx.Props.C13_invalid_rejected",
    "Ofx.Props.C13_short_name_rejected",
    "Ofx.Props.C13_utc_name_hides_offset"
   ],
   "note": "Every date text in the five precisions without a zone, and with a zone whose sign is unambiguous, decodes to its instant; invalid calendar dates are rejected. The full statement is false for zones between -1h and 0 and for named zones Go cannot read (witnesses proved)."
  },
  {
   "property": "C14",
   "status": "proved",
   "theorems": [
    "Ofx.Props.C14_cut",
    "Ofx.Props.C14_numeric_abbreviation_lost",
    "Ofx.Props.C14_roundtrip"
   ],
   "note": "All instants with millisecond precision in years 0-9999. C14_cut: others are read back as the last millisecond before them. Numeric abbreviations such as -03 are shown to print a date that cannot be decoded."
  },
  {
   "property": "C15",
   "status": "partial",
   "theorems": [
    "Ofx.Props.C15_negative_is_west_false",
    "Ofx.Props.C15_negative_is_west_partial",
    "Ofx.Props.C15_positive_is_east",
    "Ofx.Props.C15_west_prints_negative_false",
    "Ofx.Props.C15_west_prints_negative_partial"
   ],
   "note": "Proved for offsets of at least an hour west and all east; the code violates it in (-1h, 0), witnesses proved."
  },
  {
   "property": "C16",
   "status": "proved",
   "theorems": [
    "Ofx.Props.C16_default_gmt",
    "Ofx.Props.C16_padding",
    "Ofx.Props.C16_trailing"
   ],
   "note": "Padding, trailing text after ']' and the GMT default, for every text."
  },
  {
   "property": "C17",
   "status": "proved",
   "theorems": [
    "Ofx.Props.C17_decode_iff",
    "Ofx.Props.C17_new_iff",
    "Ofx.Props.C17_roundtrip",
    "Ofx.Props.C17_valid_iff"
   ],
   "note": "For every currency table of x/text containing XXX."
  },
  {
   "property": "C18",
   "status": "proved",
   "theorems": [
    "Ofx.Props.C18_status_meaning",
    "Ofx.Props.C18_status_valid_has_meaning",
    "Ofx.Props.C18_status_valid_iff"
   ],
   "note": "Exact, over the code table generated from the source (93 codes), for every status."
  },
  {
   "property": "C19",
   "status": "partial",
   "theorems": [
    "Ofx.Props.C19_bankacct_valid_iff",
    "Ofx.Props.C19_ccacct_valid_iff",
    "Ofx.Props.C19_currency_huge_rate_rejected",
    "Ofx.Props.C19_currency_valid_iff_partial",
    "Ofx.Props.C19_currency_valid_iff_recognised"
   ],
   "note": "Accounts exact. Currencies: exact except for rates that are nonzero whole multiples of 2^64, which the code rejects as zero (proved)."
  },
  {
   "property": "C20",
   "status": "partial",
   "theorems": [
    "Ofx.Props.C20_bad_correction_accepted",
    "Ofx.Props.C20_good_correction_rejected",
    "Ofx.Props.C20_no_correction_partial"
   ],
   "note": "The code violates the property: the test of the action is inverted; both failures are proved for every transaction. Proved part: transactions without a corrected id are unaffected."
  },
  {
   "property": "C21",
   "status": "proved",
   "theorems": [
    "Ofx.Props.C21_statement_accepted_iff",
    "Ofx.Props.C21_transaction_accepted_iff",
    "Ofx.Props.C21_transaction_accepted_meets_rules"
   ],
   "note": "Accepted transactions meet the rules; transactions correcting no other are accepted exactly when they do; bank statements likewise, exactly."
  },
  {
   "property": "C22",
   "status": "partial",
   "theorems": [
    "Ofx.Props.C22_bank_gating_partial",
    "Ofx.Props.C22_card_not_gated",
    "Ofx.Props.C22_valid_monotone"
   ],
   "note": "Monotonicity for every message type and pair of versions; gating exact for bank statements. The code does not gate credit card messages (proved)."
  },
  {
   "property": "C23",
   "status": "proved",
   "theorems": [
    "Ofx.Props.C23_signon_changes_only_language",
    "Ofx.Props.C23_signon_idempotent",
    "Ofx.Props.C23_signon_language",
    "Ofx.Props.C23_signon_response_valid_iff",
    "Ofx.Props.C23_signon_valid_iff"
   ],
   "note": "Exact acceptance, language default, idempotence."
  },
  {
   "property": "C24",
   "status": "proved",
   "theorems": [
    "Ofx.Props.C24_request_wrong_set",
    "Ofx.Props.C24_response_wrong_set"
   ],
   "note": "Requests and responses, for any message implementation."
  },
  {
   "property": "C25",
   "status": "proved",
   "theorems": [
    "Ofx.Props.C25_request_body",
    "Ofx.Props.C25_response_body"
   ],
   "note": "Requests and responses; names and order of the sets spelled out in Spec/Document.lean."
  },
  {
   "property": "C26",
   "status": "proved",
   "theorems": [
    "Ofx.Props.C26_request_marshal_iff",
    "Ofx.Props.C26_response_marshal_iff"
   ],
   "note": "Exact success condition for requests and responses (for responses also profiles with version 1 sets only)."
  },
  {
   "property": "C27",
   "status": "proved",
   "theorems": [
    "Ofx.Props.C27_marshal_again",
    "Ofx.Props.C27_marshal_many",
    "Ofx.Props.C27_response_again",
    "Ofx.Props.C27_response_many"
   ],
   "note": "The result and the request itself are unchanged by earlier calls, including failing ones."
  },
  {
   "property": "C28",
   "status": "proved",
   "theorems": [
    "Ofx.Props.C28_header_roundtrip",
    "Ofx.Props.C28_version"
   ],
   "note": "All versions, both line ends, every body."
  },
  {
   "property": "C29",
   "status": "proved",
   "theorems": [
    "Ofx.Props.C29_accepted",
    "Ofx.Props.C29_header_iff",
    "Ofx.Props.C29_reads"
   ],
   "note": "Exact characterisation of the accepted headers, for the header check and for whole documents."
  },
  {
   "property": "C30",
   "status": "proved",
   "theorems": [
    "Ofx.Props.C30_accepted",
    "Ofx.Props.C30_header_iff",
    "Ofx.Props.C30_order",
    "Ofx.Props.C30_reads"
   ],
   "note": "Exact characterisation of the accepted instructions; documents in both directions; order of attributes."
  },
  {
   "property": "C31",
   "status": "partial",
   "theorems": [
    "Ofx.Props.C31_header_partial",
    "Ofx.Props.C31_no_header"
   ],
   "note": "Proved for the eleven defined versions. The code violates it for any other version number: the error of writeHeader is ignored (proved)."
  },
  {
   "property": "C32",
   "status": "partial",
   "theorems": [
    "Ofx.Props.C32_bufio_larger",
    "Ofx.Props.C32_bufio_partial",
    "Ofx.Props.C32_chunks",
    "Ofx.Props.C32_long_header",
    "Ofx.Props.C32_parse",
    "Ofx.Props.C32_same"
   ],
   "note": "Proved for every schedule of reads (with fewer than 100 consecutive empty ones) from readers that are not a bufio.Reader, and for bufio.Readers if the first tag is in the first 1024 bytes. The code violates the rest: a header longer than 1024 bytes is accepted from a bufio.Reader with a larger buffer only (proved for every SGML document)."
  },
  {
   "property": "C33",
   "status": "proved",
   "theorems": [
    "Ofx.Props.C33_decoded_messages"
   ],
   "note": "For every element tree."
  },
  {
   "property": "C34",
   "status": "partial",
   "theorems": [
    "Ofx.Props.C34_parse",
    "Ofx.Props.C34_sgml",
    "Ofx.Props.C34_sgml_other_end_tag",
    "Ofx.Props.C34_truncated_partial",
    "Ofx.Props.C34_written"
   ],
   "note": "For every document that decodes there is exactly one end tag up to whose end it must be present and after which everything is ignored; in XML it is that of OFX. Marshalled responses, and SGML documents whose elements are laid out properly, decode at no cut. The code violates the rest: in SGML a stray end tag of any other name ends the document too (proved for every SGML document)."
  },
  {
   "property": "C35",
   "status": "proved",
   "theorems": [
    "Ofx.Props.C35_decodable",
    "Ofx.Props.C35_invalid",
    "Ofx.Props.C35_no_error",
    "Ofx.Props.C35_undecodable"
   ],
   "note": "For every byte string."
  },
  {
   "property": "C36",
   "status": "proved",
   "theorems": [
    "Ofx.Props.C36_valid_errors",
    "Ofx.Props.C36_valid_iff",
    "Ofx.Props.C36_valid_reports_all"
   ],
   "note": "For any message implementation; exact list of entries in order."
  },
  {
   "property": "C37",
   "status": "partial",
   "theorems": [
    "Ofx.Props.C37_text_roundtrip_eq_partial",
    "Ofx.Props.C37_text_roundtrip_partial",
    "Ofx.Props.C37_tree_roundtrip",
    "Ofx.Props.C37_tree_roundtrip_eq",
    "Ofx.Props.C37_written_read"
   ],
   "note": "From bytes to bytes, for every version and any data after the document, for all responses whose values can be carried; missing: 401(k) loans, for which the code violates the property (C40)."
  },
  {
   "property": "C38",
   "status": "partial",
   "theorems": [
    "Ofx.Props.C38_message_roundtrip_partial",
    "Ofx.Props.C38_roundtrip_partial",
    "Ofx.Props.C38_signon_request_roundtrip",
    "Ofx.Props.C38_signon_response_roundtrip"
   ],
   "note": "All 95 structs and the list types, and all thirteen message types, for every value whose leaves can be carried; missing: 401(k) loans, for which the code violates the property (C40)."
  },
  {
   "property": "C39",
   "status": "proved",
   "theorems": [
    "Ofx.Props.C39_investment_transaction_list",
    "Ofx.Props.C39_investment_transaction_list_iff",
    "Ofx.Props.C39_lists_roundtrip",
    "Ofx.Props.C39_message_set_list",
    "Ofx.Props.C39_open_order_list",
    "Ofx.Props.C39_position_list",
    "Ofx.Props.C39_security_list"
   ],
   "note": "Exact characterisation of decoding and round trip for all five list types."
  },
  {
   "property": "C40",
   "status": "partial",
   "theorems": [
    "Ofx.Props.C40_loan_written_as_vestinfo",
    "Ofx.Props.C40_loaninfo_rejected",
    "Ofx.Props.C40_no_loans_partial"
   ],
   "note": "The code violates the property (XMLName of LoanInfo says VESTINFO): every document with LOANINFO is rejected and loans are written as VESTINFO, both proved. 401(k) statements without loans round-trip."
  },
  {
   "property": "C41",
   "status": "proved",
   "theorems": [
    "Ofx.Props.C41_alike",
    "Ofx.Props.C41_document"
   ],
   "note": "For all struct and list types at any depth, and for whole response documents; Alike also covers other ways to write a value (white space, notation, comments inside); unknown elements in the closed lists are errors (C39)."
  },
  {
   "property": "C42",
   "status": "proved",
   "theorems": [
    "Ofx.Props.C42_command",
    "Ofx.Props.C42_command_line",
    "Ofx.Props.C42_https",
    "Ofx.Props.C42_raw_refused",
    "Ofx.Props.C42_request_refused"
   ],
   "note": "All three methods of every client kind: error, no response, no network event. For whole commands: nothing on the network (detect-settings still pauses between the attempts it cannot make)."
  },
  {
   "property": "C43",
   "status": "proved",
   "theorems": [
    "Ofx.Props.C43_defaults",
    "Ofx.Props.C43_sent"
   ],
   "note": "Every document posted or written, including redirections and the Vanguard retry."
  },
  {
   "property": "C44",
   "status": "proved",
   "theorems": [
    "Ofx.Props.C44_getClient"
   ],
   "note": "Every URL."
  },
  {
   "property": "C45",
   "status": "partial",
   "theorems": [
    "Ofx.Props.C45_retry_after_error",
    "Ofx.Props.C45_retry_made",
    "Ofx.Props.C45_retry_partial"
   ],
   "note": "The code violates the property: an error response with cookies is retried too (proved for every request). Everything else is proved: at most two posts, same URL and body, exactly the cookies of the first response, and the exact retry condition."
  },
  {
   "property": "C46",
   "status": "partial",
   "theorems": [
    "Ofx.Props.C46_closed_partial",
    "Ofx.Props.C46_error_leak",
    "Ofx.Props.C46_ids",
    "Ofx.Props.C46_retry_leak"
   ],
   "note": "The code violates the property: bodies of responses with a status other than 200 and of first Vanguard responses stay open (both proved). All other bodies are closed."
  },
  {
   "property": "C47",
   "status": "partial",
   "theorems": [
    "Ofx.Props.C47_discover_no_response",
    "Ofx.Props.C47_error_reported",
    "Ofx.Props.C47_never_nil",
    "Ofx.Props.C47_raw_partial",
    "Ofx.Props.C47_retry_no_response",
    "Ofx.Props.C47_success"
   ],
   "note": "Errors are always reported by Request; RequestNoParse returns the response with the error except with the Discover client and after a Vanguard retry, which return none (both proved)."
  },
  {
   "property": "C48",
   "status": "partial",
   "theorems": [
    "Ofx.Props.C48_break",
    "Ofx.Props.C48_broken_path",
    "Ofx.Props.C48_framed_partial",
    "Ofx.Props.C48_urls_partial"
   ],
   "note": "For all URLs whose decoded path and host have no CR or LF; in terms of URLs, for those with no %0D or %0A and only ASCII escapes in the path (C48_urls_partial). With CR LF CR LF in the path, that is with %0D%0A%0D%0A in the URL, the framing is broken (C48_broken_path, C48_break)."
  },
  {
   "property": "C49",
   "status": "proved",
   "theorems": [
    "Ofx.Props.C49_closed_or_not",
    "Ofx.Props.C49_no_container_is_leaf",
    "Ofx.Props.C49_request_layout",
    "Ofx.Props.C49_response_leaves",
    "Ofx.Props.C49_sgml_reads",
    "Ofx.Props.C49_written_leaves"
   ],
   "note": "Table fact over all structures; every SGML document, whatever its white space and whether leaves are closed or not, is read as the tree it lays out."
  },
  {
   "property": "C50",
   "status": "proved",
   "theorems": [
    "Ofx.Props.C50_adderr_flat",
    "Ofx.Props.C50_adderr_no_loss",
    "Ofx.Props.C50_error_text",
    "Ofx.Props.C50_errornil"
   ],
   "note": "For every sequence of additions."
  },
  {
   "property": "C51",
   "status": "partial",
   "theorems": [
    "Ofx.Props.C51_combinations",
    "Ofx.Props.C51_detect_partial",
    "Ofx.Props.C51_failure_status"
   ],
   "note": "Order, completeness (594 combinations, none twice), stopping at the first success and the printed text are proved for every server. The code violates the rest: after all combinations failed it prints nothing more and exits with 0 (C51_detect_partial in general, C51_failure_status for an example)."
  },
  {
   "property": "C52",
   "status": "partial",
   "theorems": [
    "Ofx.Props.C52_crash",
    "Ofx.Props.C52_panics_partial",
    "Ofx.Props.C52_valid_crash"
   ],
   "note": "The code violates the property: statements without a transaction list (or balance) are valid and crash all three commands (proved end to end). It is proved that they crash in no other case."
  },
  {
   "property": "C53",
   "status": "proved",
   "theorems": [
    "Ofx.Props.C53_amount_equal",
    "Ofx.Props.C53_currency_equal",
    "Ofx.Props.C53_date_equal",
    "Ofx.Props.C53_simple_equal"
   ],
   "note": "Equality of the denoted values, hence an equivalence relation, for Amount, Date, Currency and the scalar types."
  },
  {
   "property": "C54",
   "status": "proved",
   "theorems": [
    "Ofx.Props.C54_encode_iff",
    "Ofx.Props.C54_roundtrip",
    "Ofx.Props.C54_written"
   ],
   "note": "Exact success condition, and exact round trip."
  },
  {
   "property": "C55",
   "status": "partial",
   "theorems": [
    "Ofx.Props.C55_listed_partial",
    "Ofx.Props.C55_memo_lost",
    "Ofx.Props.C55_unclosed_swallows",
    "Ofx.Props.C55_unlisted"
   ],
   "note": "The code violates the property: 89 value elements are missing from the list of leaf elements, and such an element left unclosed swallows the element after it (proved, with a transaction losing its memo). For all other elements it holds."
  },
  {
   "property": "C56",
   "status": "partial",
   "theorems": [
    "Ofx.Props.C56_guard_ignored",
    "Ofx.Props.C56_guarded_partial",
    "Ofx.Props.C56_no_redirects_partial",
    "Ofx.Props.C56_redirect_leak"
   ],
   "note": "The code violates the property: net/http follows redirections to plain http and sends the document there (proved for every request). Without redirections it holds, and with any for a basic client whose HTTP client refuses to follow to other than https URLs (C56_guarded_partial); the Vanguard client ignores such an HTTP client (C56_guard_ignored)."
  },
  {
   "property": "C57",
   "status": "proved",
   "theorems": [
    "Ofx.Props.C57_command_line",
    "Ofx.Props.C57_dryrun_quiet",
    "Ofx.Props.C57_dryrun_same"
   ],
   "note": "All eight commands that make one request, every client kind."
  },
  {
   "property": "C58",
   "status": "proved",
   "theorems": [
    "Ofx.Props.C58_failed",
    "Ofx.Props.C58_saved"
   ],
   "note": "All four download commands."
  },
  {
   "property": "C59",
   "status": "proved",
   "theorems": [
    "Ofx.Props.C59_otherwise",
    "Ofx.Props.C59_success"
   ],
   "note": "All four printing commands."
  },
  {
   "property": "C60",
   "status": "partial",
   "theorems": [
    "Ofx.Props.C60_inv_partial",
    "Ofx.Props.C60_no_balance",
    "Ofx.Props.C60_shown"
   ],
   "note": "Proved for bank and credit card transactions and accounts. The code violates it for investments: the balance is left out unless it is a whole number (and not a multiple of 2^64); proved that exactly that line is missing, with a concrete server."
  },
  {
   "property": "C61",
   "status": "proved",
   "theorems": [
    "Ofx.Props.C61_complete",
    "Ofx.Props.C61_incomplete"
   ],
   "note": "All nine commands."
  },
  {
   "property": "C62",
   "status": "proved",
   "theorems": [
    "Ofx.Props.C62_asks",
    "Ofx.Props.C62_detect"
   ],
   "note": "All nine commands, every client kind; whole element tree of the document. For detect-settings also the order: the run is split into one part per combination tried."
  },
  {
   "property": "C63",
   "status": "partial",
   "theorems": [
    "Ofx.Props.C63_dropped",
    "Ofx.Props.C63_reported_partial"
   ],
   "note": "Proved for readers that fail for good. The code violates the rest: an error returned while the first 1024 bytes are read is dropped and reading goes on (proved for every SGML document)."
  },
  {
   "property": "C64",
   "status": "proved",
   "theorems": [
    "Ofx.Props.C64_named",
    "Ofx.Props.C64_no_command",
    "Ofx.Props.C64_usage"
   ],
   "note": "All argument lists; all nine sub-commands."
  },
  {
   "property": "C65",
   "status": "partial",
   "theorems": [
    "Ofx.Props.C65_arguments_partial",
    "Ofx.Props.C65_delay",
    "Ofx.Props.C65_dryrun_ignored",
    "Ofx.Props.C65_ignored",
    "Ofx.Props.C65_spelled"
   ],
   "note": "Every argument list is characterised: flags in any spelling up to the first argument that is not a flag take effect, the last one counting (delays are given as integer literals of Go below 2^64: Spec/Number); otherwise the program exits with 2 (or 0 for help) having done nothing. The code violates the rest: everything after the first argument that is not a flag is ignored, even -dryrun (proved)."
  },
  {
   "property": "C66",
   "status": "proved",
   "theorems": [
    "Ofx.Props.C66_carry",
    "Ofx.Props.C66_fixed",
    "Ofx.Props.C66_gmt",
    "Ofx.Props.C66_location",
    "Ofx.Props.C66_nearby"
   ],
   "note": "All readings and locations; integers do not overflow."
  },
  {
   "property": "C67",
   "status": "proved",
   "theorems": [
    "Ofx.Props.C67_document",
    "Ofx.Props.C67_left",
    "Ofx.Props.C67_messages",
    "Ofx.Props.C67_messages_kept",
    "Ofx.Props.C67_request",
    "Ofx.Props.C67_send"
   ],
   "note": "Histories are an inductive relation over SetClientFields, Marshal, RequestNoParse and Request with any clients and outcomes."
  },
  {
   "property": "C68",
   "status": "proved",
   "theorems": [
    "Ofx.Props.C68_orders",
    "Ofx.Props.C68_position_says",
    "Ofx.Props.C68_positions",
    "Ofx.Props.C68_read_orders",
    "Ofx.Props.C68_read_positions",
    "Ofx.Props.C68_read_securities",
    "Ofx.Props.C68_read_transactions",
    "Ofx.Props.C68_securities",
    "Ofx.Props.C68_security_says",
    "Ofx.Props.C68_transaction_says",
    "Ofx.Props.C68_transactions"
   ],
   "note": "A Currency is written under any name its XMLName holds, so a caller can add further INVTRAN elements after the first; the first one is meant."
  },
  {
   "property": "C69",
   "status": "proved",
   "theorems": [
    "Ofx.Props.C69_broken",
    "Ofx.Props.C69_incomplete",
    "Ofx.Props.C69_pieces"
   ],
   "note": "Errors that come with the last bytes delivered or after them; fewer than 100 empty reads in a row."
  },
  {
   "property": "C70",
   "status": "proved",
   "theorems": [
    "Ofx.Props.C70_saved_again",
    "Ofx.Props.C70_saved_and_read"
   ],
   "note": "All documents, laid out in any way; the exceptions are those of the statement (Spec/Saved)."
  },
  {
   "property": "C71",
   "status": "proved",
   "theorems": [
    "Ofx.Props.C71_one_meaning",
    "Ofx.Props.C71_one_tree",
    "Ofx.Props.C71_request_says",
    "Ofx.Props.C71_same_bytes"
   ],
   "note": "What a document says is defined by the layout rules of Spec/Layout and by what elements say (Spec/Says)."
  },
  {
   "property": "C72",
   "status": "proved",
   "theorems": [
    "Ofx.Props.C72_as_alone",
    "Ofx.Props.C72_finishes",
    "Ofx.Props.C72_no_race",
    "Ofx.Props.C72_shared_request",
    "Ofx.Props.C72_so_far",
    "Ofx.Props.C72_untouched"
   ],
   "note": "Goroutines are programs of single accesses to shared clients, requests and messages (Model/Concurrent; Model/Sharing for C72_no_race); a round trip of net/http is one step."
  },
  {
   "property": "C73",
   "status": "proved",
   "theorems": [
    "Ofx.Props.C73_accepted_iff",
    "Ofx.Props.C73_beyond_decimal",
    "Ofx.Props.C73_rejected_iff",
    "Ofx.Props.C73_unambiguous"
   ],
   "note": "An equivalence with the grammar of Spec/AmountText, which includes math/big's limits on exponents; that more than OFX's decimal numerals is accepted is C73_beyond_decimal."
  },
  {
   "property": "C74",
   "status": "proved",
   "theorems": [
    "Ofx.Props.C74_accepted_iff",
    "Ofx.Props.C74_beyond_ofx",
    "Ofx.Props.C74_machine",
    "Ofx.Props.C74_rejected_iff",
    "Ofx.Props.C74_unambiguous"
   ],
   "note": "An equivalence with the notation of Spec/DateText (the offset is the one the code reads, which for zones just west of Greenwich is not the one OFX means, see C15); that more than OFX's notation is accepted is C74_beyond_ofx."
  },
  {
   "property": "C75",
   "status": "proved",
   "theorems": [
    "Ofx.Props.C75_message_iff",
    "Ofx.Props.C75_refused_iff",
    "Ofx.Props.C75_response_iff",
    "Ofx.Props.C75_sgml_and_xml",
    "Ofx.Props.C75_sgml_document",
    "Ofx.Props.C75_signon_iff",
    "Ofx.Props.C75_transaction",
    "Ofx.Props.C75_unambiguous",
    "Ofx.Props.C75_xml_document"
   ],
   "note": "An equivalence with Spec/Says, which lists for each structure the element each field is about (Spec/Elements), mentioning neither the schemas of the model nor the decoder; Layout (Spec/Layout) covers white space, references, line ends and unclosed leaf elements, but not attributes, comments, CDATA sections or further instructions between the elements: for these see C76."
  },
  {
   "property": "C76",
   "status": "proved",
   "theorems": [
    "Ofx.Props.C76_document_iff",
    "Ofx.Props.C76_kind",
    "Ofx.Props.C76_parse_iff",
    "Ofx.Props.C76_refused_iff",
    "Ofx.Props.C76_unambiguous"
   ],
   "note": "An equivalence between the model of DecodeResponse on bytes and the grammar of Spec/Grammar, which does not mention the lexer or the tree builder. As in the whole model, names with a colon are refused, where encoding/xml is more generous; the tables of letters beyond ASCII are a parameter."
  },
  {
   "property": "C77",
   "status": "proved",
   "theorems": [
    "Ofx.Props.C77_left_as",
    "Ofx.Props.C77_message_iff",
    "Ofx.Props.C77_parsed_iff",
    "Ofx.Props.C77_request_written_iff",
    "Ofx.Props.C77_response_written_iff"
   ],
   "note": "Equivalences with the rules of Spec/Valid and Spec/Accept, which mention fields only. That corrections stating their action are refused (C20) is part of the rule for transactions."
  },
  {
   "property": "C78",
   "status": "partial",
   "theorems": [
    "Ofx.Props.C78_bad_parts_accepted",
    "Ofx.Props.C78_bank_partial",
    "Ofx.Props.C78_card_unchecked",
    "Ofx.Props.C78_status_unchecked"
   ],
   "note": "Proved for bank statements and requests for them. Violated by all other kinds: Valid of card, investment, profile, security list and account information messages looks at the transaction id only, so undefined statuses, empty card accounts and bad transactions pass (C78_status_unchecked, C78_card_unchecked, C78_bad_parts_accepted)."
  },
  {
   "property": "C79",
   "status": "partial",
   "theorems": [
    "Ofx.Props.C79_agent_partial",
    "Ofx.Props.C79_discover_ignores",
    "Ofx.Props.C79_posted",
    "Ofx.Props.C79_redirections_partial",
    "Ofx.Props.C79_retry_agent",
    "Ofx.Props.C79_vanguard_ignores"
   ],
   "note": "Method, URL, content type and body are proved for every post of all clients, the user agent for the first post of each call. Violated: the Vanguard client's second post never names a user agent, and the Vanguard and Discover clients ignore the HTTP client set (the Discover client the user agent, too): C79_retry_agent, C79_vanguard_ignores, C79_discover_ignores. The policy about redirections is proved for the basic client."
  },
  {
   "property": "C80",
   "status": "partial",
   "theorems": [
    "Ofx.Props.C80_both_currencies_written",
    "Ofx.Props.C80_message_iff",
    "Ofx.Props.C80_request_body_partial",
    "Ofx.Props.C80_response_body_partial",
    "Ofx.Props.C80_unset_amounts_written"
   ],
   "note": "The bodies of all documents are proved equal to those of Spec/Written, a list of elements for each structure. Violated for optional amounts, dates and aggregates that are not pointers, which are written although not set (Spec/Written says always): C80_unset_amounts_written, C80_both_currencies_written."
  },
  {
   "property": "C81",
   "status": "partial",
   "theorems": [
    "Ofx.Props.C81_count",
    "Ofx.Props.C81_no_pause",
    "Ofx.Props.C81_pauses_partial",
    "Ofx.Props.C81_too_long"
   ],
   "note": "The whole history of a run is characterised: one attempt without pauses per combination, followed by exactly one pause if it failed, and as many pauses as failures reported, all of the length asked for if that is less than 2^63 nanoseconds. Violated: the request with the user's login and the one with the anonymous login follow each other without a pause (C81_no_pause), and longer delays wrap around, 2^58 ms to no pause at all (C81_too_long)."
  },
  {
   "property": "C82",
   "status": "proved",
   "theorems": [
    "Ofx.Props.C82_password_unseen",
    "Ofx.Props.C82_request",
    "Ofx.Props.C82_request_no_parse"
   ],
   "note": "Non-interference, for all nine commands, all clients and any redirection policy that does not look at bodies. Dry runs print the document and with it the password (C57). The texts of errors of net/http, crypto/tls and the operating system are not modelled: they are taken not to quote the body."
  },
  {
   "property": "C83",
   "status": "proved",
   "theorems": [
    "Ofx.Props.C83_date",
    "Ofx.Props.C83_everywhere",
    "Ofx.Props.C83_instants",
    "Ofx.Props.C83_read",
    "Ofx.Props.C83_request"
   ],
   "note": "The local time zone is a function from instants to abbreviations and offsets, so changes of offset are included. C83_everywhere gives identity of what is read if no date lacks its abbreviation. What the commands print shows abbreviations and so may differ in them."
  },
  {
   "property": "C84",
   "status": "partial",
   "theorems": [
    "Ofx.Props.C84_forged",
    "Ofx.Props.C84_lines_partial"
   ],
   "note": "C84_lines_partial: there are never fewer lines, and exactly as many if and only if no text shown as the server sent it (name, memo, currency, zone abbreviation) has a line feed. Missing: that there are never more, which is false: C84_forged gives two valid responses, with two transactions and with one, listed alike."
  },
  {
   "property": "C85",
   "status": "partial",
   "theorems": [
    "Ofx.Props.C85_complete",
    "Ofx.Props.C85_interrupted_partial",
    "Ofx.Props.C85_lost",
    "Ofx.Props.C85_no_answer",
    "Ofx.Props.C85_noticed"
   ],
   "note": "C85_interrupted_partial: at every point other files are untouched and the file is as it was or has the beginning of an answer with status 200; C85_no_answer: nothing is touched without such an answer; C85_complete: after success the file has the whole answer; C85_noticed: what was cut short cannot be read. Missing: that the file keeps what was in it if the download fails, which is false: C85_lost (os.Create empties it first)."
  },
  {
   "property": "C86",
   "status": "partial",
   "theorems": [
    "Ofx.Props.C86_amount_grows",
    "Ofx.Props.C86_amount_limit",
    "Ofx.Props.C86_counts",
    "Ofx.Props.C86_size_partial"
   ],
   "note": "C86_size_partial: texts, messages, list entries and optional structures together are at most the bytes of the document; C86_counts: so are the messages of each set and the transactions of a bank statement; C86_amount_limit: an amount is written with at most four times its text and thirteen million characters. Missing: that amounts take no more room than their texts, which is false: C86_amount_grows (1e1000000)."
  },
  {
   "property": "C87",
   "status": "proved",
   "theorems": [
    "Ofx.Props.C87_answered",
    "Ofx.Props.C87_vanguard_cookies"
   ],
   "note": "C87_answered: for every client, after any history, for servers that answer however the document is posted; C87_vanguard_cookies: for Vanguard's round of cookies. The texts of the response as in C37."
  },
  {
   "property": "C88",
   "status": "proved",
   "theorems": [
    "Ofx.Props.C88_refused",
    "Ofx.Props.C88_saves",
    "Ofx.Props.C88_shows"
   ],
   "note": "C88_saves and C88_shows: usable flags (Spec/CliWorks) and a server that answers what the command asks (C62) give status 0, the file, and what is shown (for investments see C60; crashes are C59's). C88_refused: all other flags send and write nothing, status 1."
  },
  {
   "property": "C89",
   "status": "partial",
   "theorems": [
    "Ofx.Props.C89_answer_partial",
    "Ofx.Props.C89_command",
    "Ofx.Props.C89_not_checked"
   ],
   "note": "C89_answer_partial: the response is what the last answer says, and only this request's document was sent. Missing because false: nothing compares ids or accounts (C89_not_checked: for every client and request there is a server whose statement of another account is returned without error; C89_command: the command shows it)."
  },
  {
   "property": "C90",
   "status": "partial",
   "theorems": [
    "Ofx.Props.C90_bank_partial",
    "Ofx.Props.C90_card",
    "Ofx.Props.C90_command",
    "Ofx.Props.C90_investment",
    "Ofx.Props.C90_statement",
    "Ofx.Props.C90_transfer_target"
   ],
   "note": "C90_bank_partial, C90_card, C90_investment: accounts listed or with statements are asked about as they were read, and the requests are refused exactly for incomplete bank accounts and bad signons or ids; C90_statement: accounts of statements parsed without error are never refused. Missing because false: targets of transfers are written as BANKACCTTO in the request, without error (C90_transfer_target), and the commands cannot ask about accounts with a branch or a key (C90_command)."
  },
  {
   "property": "C91",
   "status": "partial",
   "theorems": [
    "Ofx.Props.C91_1252_cut",
    "Ofx.Props.C91_1252_refused",
    "Ofx.Props.C91_declaration_ignored",
    "Ofx.Props.C91_read_as_utf8",
    "Ofx.Props.C91_response_written_partial",
    "Ofx.Props.C91_written_partial",
    "Ofx.Props.C91_written_wrong",
    "Ofx.Props.C91_xml_declaration_ignored"
   ],
   "note": "C91_written_partial, C91_response_written_partial: documents of version 1.x name US-ASCII and code page 1252 and are in it exactly if all texts in them are ASCII. Missing because false: other texts are written in UTF-8 (C91_written_wrong). Reading ignores the encoding named (C91_declaration_ignored, C91_xml_declaration_ignored) and takes everything for UTF-8 (C91_read_as_utf8), so documents in the encoding named are cut at the first letter outside ASCII (C91_1252_cut) and refused (C91_1252_refused)."
  },
  {
   "property": "C92",
   "status": "proved",
   "theorems": [
    "Ofx.Props.C92_date",
    "Ofx.Props.C92_parse",
    "Ofx.Props.C92_valid"
   ],
   "note": "Model/Checked.lean has the code with slice indices, pointers and loops that can panic; C92_parse, C92_date and C92_valid say none does, and that the results are those of the model without panics. UIDs: C08_uid_recommended_no_panic; names of enumerations: C10. Panics inside the Go library (encoding/xml, math/big, regexp) are outside the model, as is a nil interface put into a list of messages by the caller."
  },
  {
   "property": "C93",
   "status": "partial",
   "theorems": [
    "Ofx.Props.C93_bank_command",
    "Ofx.Props.C93_bank_error",
    "Ofx.Props.C93_bank_lost",
    "Ofx.Props.C93_crash",
    "Ofx.Props.C93_decoded",
    "Ofx.Props.C93_no_accounts",
    "Ofx.Props.C93_returned_partial"
   ],
   "note": "C93_decoded: the refusal is in the response decoded, with its status. C93_returned_partial: Request returns it, unless it is about a bank account. Missing because false: a refusal about a bank account makes Request return no response (C93_bank_lost), with an error that is the same whatever the status (C93_bank_error), so transactions-bank fails (C93_bank_command); transactions-cc and transactions-inv crash (C93_crash) and get-accounts says that it found no accounts (C93_no_accounts)."
  },
  {
   "property": "C94",
   "status": "proved",
   "theorems": [
    "Ofx.Props.C94_answer",
    "Ofx.Props.C94_as_buffer",
    "Ofx.Props.C94_broken",
    "Ofx.Props.C94_demanded_again",
    "Ofx.Props.C94_pieces",
    "Ofx.Props.C94_posted"
   ],
   "note": "Readers are sequences of results of Read (Spec/Upload). C94_pieces: only the bytes and the error count. C94_as_buffer: the same result and events as for a buffer, unless a server answers 307 or 308, for which C94_demanded_again gives the response and the error. C94_posted: one request with the document, all others without body; also for readers that fail. C94_broken: Discover. C94_answer: the response returned is the last one, the others are closed. That net/http may return an answer the server gives before the reader fails is a parameter."
  },
  {
   "property": "C95",
   "status": "partial",
   "theorems": [
    "Ofx.Props.C95_all_partial",
    "Ofx.Props.C95_blank_between",
    "Ofx.Props.C95_one_partial",
    "Ofx.Props.C95_read_ahead",
    "Ofx.Props.C95_second_lost",
    "Ofx.Props.C95_written_partial"
   ],
   "note": "Proved for bufio.Readers with a buffer of at least 1024 bytes (C95_one_partial, C95_all_partial, C95_written_partial). Missing because false: from any other reader at least 1024 bytes are taken and those beyond the document are lost (C95_read_ahead, C95_second_lost); and an SGML document after a line break or other blanks is not decoded from any reader (C95_blank_between)."
  },
  {
   "property": "C96",
   "status": "partial",
   "theorems": [
    "Ofx.Props.C96_returns_partial",
    "Ofx.Props.C96_waits"
   ],
   "note": "Proved if at least 1024 bytes, the document and whatever follows it, have been delivered (C96_returns_partial). Missing because false: with less than 1024 bytes the version is not guessed before the reader has been asked for more (C96_waits)."
  },
  {
   "property": "C97",
   "status": "partial",
   "theorems": [
    "Ofx.Props.C97_as_alone",
    "Ofx.Props.C97_finishes",
    "Ofx.Props.C97_messages_kept",
    "Ofx.Props.C97_no_race_partial",
    "Ofx.Props.C97_race",
    "Ofx.Props.C97_so_far"
   ],
   "note": "C97_as_alone, C97_so_far, C97_finishes and C97_messages_kept for all messages; C97_no_race_partial for all but profile requests. Missing because false: sharing a profile request is a data race, since its Valid writes to it (C97_race). Accesses are atomic in the model, which Go promises only where there is no race."
  },
  {
   "property": "C98",
   "status": "partial",
   "theorems": [
    "Ofx.Props.C98_asks_partial",
    "Ofx.Props.C98_brackets",
    "Ofx.Props.C98_connects_partial",
    "Ofx.Props.C98_discover",
    "Ofx.Props.C98_empty_port",
    "Ofx.Props.C98_host_refused",
    "Ofx.Props.C98_port_unsaid",
    "Ofx.Props.C98_query_lost",
    "Ofx.Props.C98_question",
    "Ofx.Props.C98_space"
   ],
   "note": "C98_discover: for every URL for which GetClient chooses the Discover client. C98_connects_partial, C98_asks_partial: for URLs with a host name, no port or 443, no query and no percent signs in the path. Missing because false: the query is dropped (C98_query_lost), percent signs in the path are undone (C98_space, C98_question), ports and the brackets of IPv6 addresses are left out of the Host line (C98_port_unsaid, C98_brackets), an empty port is misread (C98_empty_port). URLs with an escaped ASCII character in the name of the host are refused (C98_host_refused); other escapes in it are not stated."
  },
  {
   "property": "C99",
   "status": "partial",
   "theorems": [
    "Ofx.Props.C99_expired",
    "Ofx.Props.C99_quotes",
    "Ofx.Props.C99_returned_partial",
    "Ofx.Props.C99_twice"
   ],
   "note": "C99_returned_partial: for all cookies with different names, values without quotes and no Expires, Max-Age, Path or Domain. Missing because false: cookies to be forgotten at once (C99_expired), replaced ones (C99_twice) and values without their quotes (C99_quotes) are sent."
  },
  {
   "property": "C100",
   "status": "partial",
   "theorems": [
    "Ofx.Props.C100_never_skipped",
    "Ofx.Props.C100_panics",
    "Ofx.Props.C100_request_partial",
    "Ofx.Props.C100_response_panics",
    "Ofx.Props.C100_response_partial",
    "Ofx.Props.C100_valid_panics",
    "Ofx.Props.C100_valid_partial"
   ],
   "note": "C100_request_partial, C100_response_partial, C100_valid_partial: lists that hold messages only; C100_never_skipped: no request with a nil entry is marshalled without it. Missing because false: C100_panics and C100_response_panics say exactly which requests and responses make Marshal panic, C100_valid_panics which responses make Valid panic. Lists inside messages (positions, transactions, securities) hold values only here; see C105."
  },
  {
   "property": "C101",
   "status": "partial",
   "theorems": [
    "Ofx.Props.C101_elsewhere",
    "Ofx.Props.C101_entrusted_partial",
    "Ofx.Props.C101_guarded_partial",
    "Ofx.Props.C101_named_partial"
   ],
   "note": "C101_entrusted_partial: the document only goes to the URL named and to those a server that got it referred to with status 307 or 308; C101_named_partial: without such answers to the URL named only; C101_guarded_partial: a basic client whose HTTP client follows to trusted URLs only sends nothing elsewhere. Missing because false: C101_elsewhere, for every request and every other URL. The Discover client follows no redirections; for where it connects to see C98."
  },
  {
   "property": "C102",
   "status": "partial",
   "theorems": [
    "Ofx.Props.C102_foreign",
    "Ofx.Props.C102_own_partial"
   ],
   "note": "C102_own_partial: unless a server redirects, cookies are sent to the URL named only and are those of an answer to a message sent to that URL. Missing because false: C102_foreign, for every request, other URL and cookies: after a redirection the cookies of the last server go to the one named."
  },
  {
   "property": "C103",
   "status": "proved",
   "theorems": [
    "Ofx.Props.C103_comment",
    "Ofx.Props.C103_document",
    "Ofx.Props.C103_same"
   ],
   "note": "C103_document: the same elements; C103_same: the same response or refusal. C103_comment: the condition on values is needed; a comment in a value of an SGML document makes the reader drop all that follows, without an error."
  },
  {
   "property": "C104",
   "status": "proved",
   "theorems": [
    "Ofx.Props.C104_connects",
    "Ofx.Props.C104_posted",
    "Ofx.Props.C104_refused",
    "Ofx.Props.C104_zone",
    "Ofx.Props.C104_zone_refused"
   ],
   "note": "C104_refused (all clients), C104_posted (basic and Vanguard clients), C104_connects (Discover; a colon without port is C98_empty_port), C104_zone and C104_zone_refused (IPv6 zones, other parts as RFC 3986 allows). net/url is modelled (Model/Url), not assumed."
  },
  {
   "property": "C105",
   "status": "partial",
   "theorems": [
    "Ofx.Props.C105_orders_partial",
    "Ofx.Props.C105_panics",
    "Ofx.Props.C105_positions_partial",
    "Ofx.Props.C105_securities_partial",
    "Ofx.Props.C105_transactions_partial"
   ],
   "note": "C105_securities_partial, C105_positions_partial, C105_orders_partial, C105_transactions_partial say exactly which lists are written (and as what: as encodeAs writes them, which the other properties are about), which are refused and which panic. Missing because false: a nil entry or nil pointer makes the program panic if no entry before it is refused (C105_panics); pointers to the library's types, which the compiler accepts, are refused with an error. Methods of the program's own types are taken to return."
  },
  {
   "property": "C106",
   "status": "proved",
   "theorems": [
    "Ofx.Props.C106_same",
    "Ofx.Props.C106_sorts"
   ],
   "note": "C106_sorts and C106_same, for times of any precision (what is less than a millisecond is not written). time.Time.Format is modelled (Model/Date), not assumed. An example shows that texts of dates in different zones need not sort."
  }
 ]
}