import Verif.Lemmas.Lines
import Verif.Props.CliShow
/-
C84: how many lines a listing of transactions has.
-/
namespace Ofx.Props
open Ofx Spec

theorem sum_zero_iff (ls : List Str) : (ls.map lineCount).sum = 0 ↔ ∀ s ∈ ls, '\n' ∉ s := by
  rw [List.sum_eq_zero_iff, List.forall_mem_map]
  unfold lineCount
  simp only [List.count_eq_zero]

/-- C84, as far as it holds: when a command listing the transactions of a bank account or credit
card succeeds, it has printed a line about the balance, a headline and a line for each transaction
the server sent, or more.  It has printed more exactly if a text it shows as the server sent it has
a line feed in it.
Missing: that there are never more, which is false (`C84_forged`). -/
theorem C84_lines_partial (w : World) (f : Flags) (c : Command) (hc : c = .transactionsBank ∨ c = .transactionsCC)
    (hd : f.dryrun = false) (h0 : (c.run w f).fin = .exit 0) :
    ∃ resp x, lastResponse (c.run w f).trace = some resp ∧ parseResponse w.env w.names resp.body = (some x, none) ∧
      ((c.run w f).out = "No banking messages received\n".toList ∨
       ∃ cur asOf ts, Listed c x cur asOf ts ∧ 2 + ts.length ≤ lineCount (c.run w f).out ∧
        (lineCount (c.run w f).out = 2 + ts.length ↔ ∀ s ∈ listingTexts cur asOf ts, '\n' ∉ s)) := by
  have hs : Shows c := by
    rcases hc with rfl | rfl
    · exact .inr (.inl rfl)
    · exact .inr (.inr (.inl rfl))
  obtain ⟨resp, x, h1, h2, h3⟩ := C60_shown w f c hs (by rcases hc with rfl | rfl <;> decide) hd h0
  refine ⟨resp, x, h1, h2, ?_⟩
  generalize (c.run w f).out = out at h3
  have key : ∀ (cur : CurrSymbol) (asOf : GoTime) (ts : List Transaction),
      lineCount out = 2 + ts.length + ((listingTexts cur asOf ts).map lineCount).sum →
      2 + ts.length ≤ lineCount out ∧ (lineCount out = 2 + ts.length ↔ ∀ s ∈ listingTexts cur asOf ts, '\n' ∉ s) := by
    intro cur asOf ts h
    rw [← sum_zero_iff]
    omega
  rcases hc with rfl | rfl
  · rcases h3 with ⟨-, h⟩ | ⟨s, rest, l, lines, k1, k2, k3, k4⟩
    · exact .inl h
    · exact .inr ⟨_, _, _, ⟨s, rest, l, k1, k2, rfl, rfl, rfl⟩, key _ _ _ (by rw [k4]; exact lineCount_listing k3)⟩
  · rcases h3 with ⟨-, h⟩ | ⟨s, rest, l, lines, k1, k2, k3, k4⟩
    · exact .inl h
    · exact .inr ⟨_, _, _, ⟨s, rest, l, k1, k2, rfl, rfl, rfl⟩, key _ _ _ (by rw [k4]; exact lineCount_listing k3)⟩

/-- A response with a bank statement of given transactions. -/
def listingResponse (ts : List Transaction) : Response Message :=
  { version := 7, signon := sampleSignonResponse,
    sets := fun s => if s = .bank then
      [.statementResponse { sampleBankStatement with BankTranList := some ⟨sampleDate, sampleDate, ts⟩ }] else [] }

/-- What servers may send: the response is valid, has a document, and comes back as it is. -/
structure Sendable (ts : List Transaction) : Prop where
  valid : ((Message.statementResponse { sampleBankStatement with BankTranList := some ⟨sampleDate, sampleDate, ts⟩ }).valid 7).1 = none
  exact : ExactMessage sampleEnv (.statementResponse { sampleBankStatement with BankTranList := some ⟨sampleDate, sampleDate, ts⟩ })
  clean : CleanMessage (.statementResponse { sampleBankStatement with BankTranList := some ⟨sampleDate, sampleDate, ts⟩ })
  settled : SettledMessage (.statementResponse { sampleBankStatement with BankTranList := some ⟨sampleDate, sampleDate, ts⟩ })

theorem listing_run (now : GoTime) (ts : List Transaction) (h : Sendable ts) : ∃ bs x,
    (bankTransactions (answering now bs) sampleFlags).fin = .exit 0 ∧
    parseResponse (answering now bs).env (answering now bs).names bs = (some x, none) ∧
    x.sets .bank = (listingResponse ts).sets .bank ∧
    (bankTransactions (answering now bs) sampleFlags).out = (printBank x).out := by
  have hval : (listingResponse ts).valid = none := by
    rw [C36_valid_iff]
    refine ⟨show SignonResponse.valid 7 sampleSignonResponse = none by decide +kernel, ?_⟩
    intro s hs m hm
    simp only [listingResponse] at hm
    split_ifs at hm
    · rw [List.mem_singleton] at hm; subst hm; exact h.valid
    · cases hm
  have hok : ∃ d, (listingResponse ts).marshal.1 = .ok d := by
    rw [C26_response_marshal_iff]
    refine ⟨(C23_signon_response_valid_iff 7 _).mp (show SignonResponse.valid 7 sampleSignonResponse = none by decide +kernel), ?_⟩
    intro s hs m hm
    have hv := ((C36_valid_iff _).mp hval).2 s hs m hm
    simp only [listingResponse] at hm
    split_ifs at hm with h1
    · rw [List.mem_singleton] at hm; subst hm; subst h1; exact ⟨rfl, hv, fun p hp => by cases hp⟩
    · cases hm
  obtain ⟨d, hd⟩ := hok
  have hc : Shows .transactionsBank := .inr (.inl rfl)
  have hex : ∀ s, s ≠ .signon → ∀ m ∈ (listingResponse ts).sets s, ExactMessage sampleEnv m ∧ CleanMessage m ∧ SettledMessage m := by
    intro s hs m hm
    simp only [listingResponse] at hm
    split_ifs at hm
    · rw [List.mem_singleton] at hm; subst hm; exact ⟨h.exact, h.clean, h.settled⟩
    · cases hm
  obtain ⟨cl, r, x, h1, h2, h3, h4⟩ := answered .transactionsBank hc now (listingResponse ts) d hd hval (show (1 ≤ 7 ∧ 7 ≤ 11) by decide)
      ⟨sampleResponse_exact.1, sampleResponse_clean.1, sampleResponse_exact.2.1⟩ hex
  have hcr : ¬ Crashes .transactionsBank x := by
    rintro ⟨s, rest, k1, k2⟩
    rw [h4 .bank (by decide)] at k1
    cases k1; cases k2
  have hout : (Command.transactionsBank.run (answering now d.bytes) sampleFlags).fin = .exit 0 ∧
      (Command.transactionsBank.run (answering now d.bytes) sampleFlags).out = (Command.transactionsBank.printer x).out := by
    obtain ⟨onError, he⟩ := run_shows hc (answering now d.bytes) sampleFlags
    rw [he]
    rcases show_cases (answering now d.bytes) sampleFlags (Command.transactionsBank.query (answering now d.bytes) sampleFlags)
        onError Command.transactionsBank.printer with
      ⟨e, g, -⟩ | ⟨cl', r', g, ⟨g', -⟩ | ⟨-, -, -, ⟨e, g', -⟩ | ⟨x', g', ⟨hz, -⟩ | ⟨hz, ho, hf⟩⟩⟩⟩
    · rw [h1] at g; cases g
    · cases g'
    · rw [h1] at g; cases g; rw [h2] at g'; cases g'
    · rw [h1] at g; cases g; rw [h2] at g'; cases g'
      rw [h3] at hz; exact absurd rfl hz
    · rw [h1] at g; cases g; rw [h2] at g'; cases g'
      refine ⟨?_, ho⟩
      rw [hf, if_neg]
      rw [printer_panics]; exact hcr
  obtain ⟨x', g1, g2, g3, g4⟩ := C37_text_roundtrip_eq_partial sampleEnv (offline now).names (listingResponse ts) d hd
    (show (1 ≤ 7 ∧ 7 ≤ 11) by decide) ⟨sampleResponse_exact.1, sampleResponse_clean.1, sampleResponse_exact.2.1⟩ hex []
  rw [List.append_nil] at g1
  have hx' : x'.valid = none := by
    rw [C36_valid_iff] at hval ⊢
    rw [g2, g3]
    exact ⟨hval.1, fun s hs m hmm => hval.2 s hs m (by rw [← g4 s hs]; exact hmm)⟩
  have hp : parseResponse sampleEnv (offline now).names d.bytes = (some x', none) := by
    unfold parseResponse; rw [g1]; simp only; rw [hx']
  refine ⟨d.bytes, x', hout.1, hp, g4 .bank (by decide), ?_⟩
  have hxx : (printBank x').out = (printBank x).out := by
    unfold printBank; rw [g4 .bank (by decide), h4 .bank (by decide)]
  rw [hxx]; exact hout.2

/-- The line of a listing about rent, without its end, after a name and a line feed. -/
def forgedName : Str :=
  "Shop\n".toList ++ (printTransaction ⟨"USD".toList⟩
    { sampleTransaction with DtPosted := sampleDate, Name := "Rent".toList }).out.dropLast

/-- The transactions two servers send: one of them two, the other a single one with a long name. -/
def honestList : List Transaction :=
  [{ sampleTransaction with DtPosted := sampleDate, Name := "Shop".toList },
   { sampleTransaction with DtPosted := sampleDate, Name := "Rent".toList }]

def forgedList : List Transaction := [{ sampleTransaction with DtPosted := sampleDate, Name := forgedName }]

theorem honest_sendable : Sendable honestList :=
  ⟨by decide +kernel, exact_of_check _ _ _ (by decide +kernel), textB_sound _ _ (by decide +kernel),
    settledB_sound _ _ _ (by decide +kernel)⟩

theorem forged_sendable : Sendable forgedList :=
  ⟨by decide +kernel, exact_of_check _ _ _ (by decide +kernel), textB_sound _ _ (by decide +kernel),
    settledB_sound _ _ _ (by decide +kernel)⟩

/-- C84 fails: two servers send valid responses, one with two transactions and the other with one,
and the same listing is printed for both. -/
theorem C84_forged (now : GoTime) : ∃ (bs bs' : List UInt8) (x x' : Response Message) (cur : CurrSymbol) (asOf : GoTime)
    (ts ts' : List Transaction),
    parseResponse (answering now bs).env (answering now bs).names bs = (some x, none) ∧
    parseResponse (answering now bs').env (answering now bs').names bs' = (some x', none) ∧
    Listed .transactionsBank x cur asOf ts ∧ Listed .transactionsBank x' cur asOf ts' ∧ ts.length = 2 ∧ ts'.length = 1 ∧
    (bankTransactions (answering now bs) sampleFlags).fin = .exit 0 ∧
    (bankTransactions (answering now bs') sampleFlags).fin = .exit 0 ∧
    (bankTransactions (answering now bs) sampleFlags).out = (bankTransactions (answering now bs') sampleFlags).out := by
  obtain ⟨bs, x, h1, h2, h3, h4⟩ := listing_run now honestList honest_sendable
  obtain ⟨bs', x', h1', h2', h3', h4'⟩ := listing_run now forgedList forged_sendable
  refine ⟨bs, bs', x, x', _, _, honestList, forgedList, h2, h2', ⟨_, _, _, h3, rfl, rfl, rfl, rfl⟩,
    ⟨_, _, _, h3', rfl, rfl, rfl, rfl⟩, rfl, rfl, h1, h1', ?_⟩
  rw [h4, h4']
  have e1 : (printBank x).out = (printBank (listingResponse honestList)).out := by unfold printBank; rw [h3]
  have e2 : (printBank x').out = (printBank (listingResponse forgedList)).out := by unfold printBank; rw [h3']
  rw [e1, e2]
  decide +kernel

/-- A listing of two transactions, whose texts have no line feed, in four lines. -/
example (now : GoTime) : ∃ w : World, w.net.now = now ∧ (bankTransactions w sampleFlags).fin = .exit 0 ∧
    lineCount (bankTransactions w sampleFlags).out = 4 := by
  obtain ⟨bs, x, h1, h2, h3, h4⟩ := listing_run now honestList honest_sendable
  refine ⟨answering now bs, rfl, h1, ?_⟩
  have e1 : (printBank x).out = (printBank (listingResponse honestList)).out := by unfold printBank; rw [h3]
  rw [h4, e1]
  decide +kernel

end Ofx.Props
