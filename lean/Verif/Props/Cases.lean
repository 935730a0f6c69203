import Verif.Props.CliLines
import Verif.Props.CliPause
import Verif.Props.Main
import Verif.Props.Meaning
import Verif.Props.Truncate
import Verif.Props.Reader
import Verif.Props.Delivery
import Verif.Props.Enum
import Verif.Props.Accept
import Verif.Props.Date
/-! Concrete cases that meet the hypotheses of theorems that have no example right beside them.
Each is labelled with the theorems it is for, and most apply one of them. -/
namespace Ofx.Props
open Ofx Spec

/-- A document of each kind that is read: for C29_accepted (version 1, so SGML), C30_accepted
(version 7, so XML), C32_long_header, C33_decoded_messages, C34_truncated_partial, C34_parse, C35, C63,
C75 and C76, which are about documents that are read. -/
theorem sample_read (nt : NameTable) : ∃ bs r, decodeResponse sampleEnv nt bs = .ok r ∧ r.version = 7 ∧
    (r.sets .bank).length = 1 ∧ parseResponse sampleEnv nt bs = (some r, none) := by
  obtain ⟨d, hd⟩ := sampleResponse_ok
  obtain ⟨h1, h2, h3⟩ := sampleResponse_exact
  obtain ⟨r', g1, g2, g3, g4⟩ := C37_text_roundtrip_eq_partial sampleEnv nt sampleResponse d hd (by decide)
    ⟨h1, sampleResponse_clean.1, h2⟩ (fun s hs m hm => ⟨(h3 s hs m hm).1, sampleResponse_clean.2 s hs m hm, (h3 s hs m hm).2⟩) []
  have hv : r'.valid = none := by
    rw [C36_valid_iff, g2, g3]
    refine ⟨by decide +kernel, fun s hs m hm => ?_⟩
    rw [g4 s hs] at hm
    exact (((C26_response_marshal_iff _).mp ⟨d, hd⟩).2 s hs m hm).2.1
  refine ⟨_, r', g1, g2, by rw [g4 .bank (by decide)]; rfl, ?_⟩
  unfold parseResponse; rw [g1]; simp only; rw [hv]

/-- For C29_accepted. -/
example (nt : NameTable) : ∃ (bs : List UInt8) (n : Nat) (head rest : List UInt8), bs = head ++ 60 :: rest ∧
    SGMLHeader n (latin1 head ++ ['<']) := by
  obtain ⟨d, head, t, r, -, -, -, h, hv⟩ := sampleResponse_sgml nt
  obtain ⟨n, hd, rest, g1, -, -, g2, -⟩ := C29_accepted h (by omega)
  exact ⟨_, n, hd, rest, g1, g2⟩

/-- For C30_accepted. -/
example (nt : NameTable) : ∃ n attrs, XMLHeader n attrs ∧ n = 2 := by
  obtain ⟨bs, r, h, hv, -⟩ := sample_read nt
  obtain ⟨n, attrs, -, -, -, -, -, -, -, -, -, g, hn⟩ := C30_accepted h (by omega)
  exact ⟨n, attrs, g, by omega⟩

/-- For C34_truncated_partial and C34_parse: the end tag is that of OFX, and the document cut to nothing is refused. -/
example (nt : NameTable) : ∃ (bs before tag after : List UInt8), bs = before ++ tag ++ after ∧ EndTag "OFX".toList tag ∧
    ∃ err, decodeResponse sampleEnv nt (bs.take 1) = .error err := by
  obtain ⟨bs, r, h, hv, -⟩ := sample_read nt
  obtain ⟨before, tag, after, name, g1, g2, g3, g4, -⟩ := C34_truncated_partial sampleEnv nt bs r h
  rw [g3 (by omega)] at g2
  refine ⟨bs, before, tag, after, g1, g2, g4 1 ?_⟩
  obtain ⟨pad, -, g2⟩ := g2
  rw [g2, List.length_append, toBytes_append, toBytes_append]
  simp only [List.length_append]
  have : (toBytes ("</".toList ++ "OFX".toList)).length = 5 := by decide
  omega

/-- For C34_sgml_other_end_tag, C32_long_header and C63_dropped: a document whose version is below 200. -/
example (nt : NameTable) : ∃ bs r, decodeResponse sampleEnv nt bs = .ok r ∧ r.version < 5 := by
  obtain ⟨d, head, t, r, -, -, -, h, hv⟩ := sampleResponse_sgml nt
  exact ⟨_, r, h, by omega⟩

/-- For C33_decoded_messages and C37_tree_roundtrip. -/
example : ∃ d r, sampleResponse.marshal.1 = .ok d ∧ decodeOfx sampleEnv 7 d.body = .ok r ∧ r.version = 7 := by
  obtain ⟨d, hd⟩ := sampleResponse_ok
  obtain ⟨h1, h2, h3⟩ := sampleResponse_exact
  obtain ⟨r, g1, g2, -⟩ := C37_tree_roundtrip sampleEnv sampleResponse d hd h1 (fun s hs m hm => (h3 s hs m hm).1)
  exact ⟨d, r, hd, g1, (C33_decoded_messages _ _ _ _ g1).1⟩

/-- For C37_written_read, C37_text_roundtrip_partial and C49_response_leaves. -/
example : ∃ d, sampleResponse.marshal.1 = .ok d ∧ LeavesHoldText d.body := by
  obtain ⟨d, hd⟩ := sampleResponse_ok
  exact ⟨d, hd, C49_response_leaves _ d hd sampleResponse_clean.1 sampleResponse_clean.2⟩

/-- For C49_written_leaves, C49_request_layout, C25_request_body, C31_header_partial, C71_request_says. -/
example (env : Env) : ∃ d so sets, trickyRequest.marshal.1 = .ok d ∧ LeavesHoldText d.body ∧ d.header ≠ [] ∧
    SaysRequest env d.bytes trickyRequest.version so sets := by
  obtain ⟨d, hd⟩ := trickyRequest_ok
  obtain ⟨h1, h2, h3⟩ := trickyRequest_repr env
  obtain ⟨so, sets, h, -⟩ := C71_request_says env _ d hd (by decide) h1 h2 h3
  exact ⟨d, so, sets, hd, C49_written_leaves _ d hd h2 (fun s hs m hm => (h3 s hs m hm).2),
    (C31_header_partial _ (by decide) d hd).1, h⟩

/-- For C42_command: the sample flags with an http:// URL. -/
example (w : World) (usage : Str) (c : Command) :
    NoNetwork (runCmd w { sampleFlags with serverURL := "http://ofx.example.com".toList } usage c).trace :=
  (C42_command w _ usage c (by decide)).1

/-- For C57_dryrun_quiet. -/
example (w : World) : (Command.transactionsBank.run w { sampleFlags with dryrun := true }).trace = [] :=
  (C57_dryrun_quiet w _ _ (by unfold OneRequest; decide) rfl).1

/-- For C57_dryrun_same and C62_asks: there are documents posted for them to be about. -/
example (now : GoTime) (body : List UInt8) : ∃ q ∈ posts (Command.transactionsBank.run (answering now body) sampleFlags).trace,
    ∃ d, q.body = d.bytes ∧ AsksDocument (answering now body) .transactionsBank sampleFlags d := by
  obtain ⟨q, hq⟩ := List.exists_mem_of_ne_nil _ (sample_posts .transactionsBank (by unfold Shows; decide) now body)
  exact ⟨q, hq, (C62_asks _ _ _ (by unfold OneRequest; decide)).1 q hq⟩

/-- For C59_success and C60_shown: a run that ends well. -/
example (now : GoTime) : ∃ (w : World) (resp : HttpResponse) (x : Response Message),
    lastResponse (Command.transactionsBank.run w sampleFlags).trace = some resp ∧
    parseResponse w.env w.names resp.body = (some x, none) ∧
    Shown .transactionsBank x (Command.transactionsBank.run w sampleFlags).out := by
  obtain ⟨d, hd⟩ := centsResponse_ok
  have hc : Shows .transactionsBank := by unfold Shows; decide
  obtain ⟨h, -⟩ := cents_run now hd .transactionsBank hc
  obtain ⟨resp, x, h⟩ := C60_shown _ _ _ hc (by decide) rfl h
  exact ⟨_, resp, x, h⟩

/-- For C60_inv_partial. -/
example (now : GoTime) : ∃ w : World, (invTransactions w sampleFlags).fin = .exit 0 := by
  obtain ⟨d, hd⟩ := centsResponse_ok
  exact ⟨_, (cents_run now hd .transactionsInv (by unfold Shows; decide)).1⟩

/-- For C52_panics_partial and C52_crash: a run that panics. -/
example (now : GoTime) : ∃ (w : World) (x : Response Message), (bankTransactions w sampleFlags).fin = .panic ∧ Crashes .transactionsBank x ∧ x.signon.Status.Code = 0 := by
  obtain ⟨-, w, -, h, -⟩ := C52_valid_crash now
  obtain ⟨-, resp, x, -, -, h0, hx⟩ := C52_panics_partial w sampleFlags .transactionsBank h
  exact ⟨w, x, h, hx, h0⟩

/-- For C61_incomplete: the sample flags without a user name. -/
example (w : World) (usage : Str) :
    (runCmd w { sampleFlags with username := [] } usage .transactionsBank).fin = .exit 1 :=
  (C61_incomplete w _ usage _ (fun h => absurd (h.2.1 rfl) (by decide))).1

/-- For C81_too_long: with such a delay detect-settings does wait, each time not at all. -/
example (w : World) : ∀ n ∈ pauses (detectSettings w { sampleFlags with delay := 2 ^ 58 }).trace, n = 0 :=
  C81_too_long w _ rfl

/-- For C42_raw_refused and C42_request_refused. -/
example (net : Net) (tr : Trace) : ∃ e, (Client.basic sampleClient).rawRequest net "HTTPS://ofx.example.com/".toList [60] tr =
    ((none, some e), tr) := C42_raw_refused net _ _ _ _ (by decide)

/-- For C10_constant_text, C10_roundtrip and the like, which are about the enumerations of the project. -/
example : enumOfxVersion ∈ allEnums ∧ enumOfxVersion.consts[0]? = some "OfxVersion102" ∧ enumOfxVersion.valid 1 = true := by
  decide +kernel

/-- For C09_shape, C09_valid and C09_injective. -/
example : randomUID (.read (List.replicate 16 171)) = .ok "abababab-abab-abab-abab-abababababab".toList := by decide +kernel

/-- For C78_bank_partial. -/
example : GoodParts True (.statementResponse sampleBankStatement) := by
  have := C78_bank_partial 11 (.statementResponse sampleBankStatement) (by decide +kernel) (.inr ⟨_, rfl⟩)
  rwa [show ((11 : Nat) ≤ 11) = True from by simp] at this

/-- For C22_valid_monotone. -/
example : ((Message.statementResponse sampleBankStatement).valid 7).1 = none := by decide +kernel

/-- For C05_comma_is_point. -/
example : IsNumeral "12".toList ∧ IsNumeral "50".toList := by decide

end Ofx.Props
