import Verif.Props.Cli
namespace Ofx.Props
open Ofx Spec

/-- Flags as a user gives them. -/
def sampleFlags : Flags :=
  { serverURL := "https://ofx.example.com".toList, username := "someone".toList, password := "secret".toList,
    org := "B1".toList, fid := "10898".toList, appID := "QWIN".toList, appVer := "2400".toList, ofxVersion := "203".toList,
    clientUID := [], noIndentRequests := false, carriageReturn := false, dryrun := false, userAgent := [],
    filename := "statement.ofx".toList, bankID := "1".toList, acctID := "2".toList, acctType := "CHECKING".toList,
    brokerID := "3".toList, delay := 500 }

/-- The sample response, with a bank statement without a list of transactions, a credit card
statement with a transaction that has neither name nor payee, and an investment statement
without balances. -/
def bareResponse : Response Message :=
  { version := 7, signon := sampleSignonResponse,
    sets := fun s => if s = .bank then [.statementResponse { sampleBankStatement with BankTranList := none }]
      else if s = .creditCard then [.ccStatementResponse
        { TrnUID := "123".toList, Status := ⟨0, "INFO".toList, []⟩, CltCookie := [], CurDef := ⟨"USD".toList⟩,
          CCAcctFrom := ⟨"CCACCTFROM".toList, "4".toList, []⟩,
          BankTranList := some ⟨sampleDate, sampleDate, [{ sampleTransaction with DtPosted := sampleDate, Name := [] }]⟩,
          BalAmt := 5, DtAsOf := sampleDate, AvailBalAmt := none, AvailDtAsOf := none, CashAdvBalAmt := 0, IntRatePurch := 0,
          IntRateCash := 0, IntRateXfer := 0, RewardName := [], RewardBal := 0, RewardEarned := 0, BalList := [], MktgInfo := [] }]
      else if s = .invStmt then [.invStatementResponse
        { TrnUID := "123".toList, Status := ⟨0, "INFO".toList, []⟩, CltCookie := [], DtAsOf := sampleDate, CurDef := ⟨"USD".toList⟩,
          InvAcctFrom := ⟨"INVACCTFROM".toList, "3".toList, "2".toList⟩, InvTranList := none, InvPosList := [], InvBal := none,
          InvOOList := [], MktgInfo := [], Inv401K := none, Inv401KBal := none }]
      else [] }

theorem bareResponse_valid : bareResponse.valid = none := by
  rw [C36_valid_iff]
  refine ⟨by decide +kernel, ?_⟩
  intro s hs m hm
  simp only [bareResponse] at hm
  split_ifs at hm
  all_goals first | (cases hm; done) | (rw [List.mem_singleton] at hm; subst hm; decide +kernel)

theorem bareResponse_ok : ∃ d, bareResponse.marshal.1 = .ok d := by
  rw [C26_response_marshal_iff]
  refine ⟨(C23_signon_response_valid_iff 7 _).mp (by decide +kernel), ?_⟩
  intro s hs m hm
  have hv := ((C36_valid_iff _).mp bareResponse_valid).2 s hs m hm
  simp only [bareResponse] at hm
  split_ifs at hm with h1 h2 h3
  · rw [List.mem_singleton] at hm; subst hm; subst h1; exact ⟨rfl, hv, fun p hp => by cases hp⟩
  · rw [List.mem_singleton] at hm; subst hm; subst h2; exact ⟨rfl, hv, fun p hp => by cases hp⟩
  · rw [List.mem_singleton] at hm; subst hm; subst h3; exact ⟨rfl, hv, fun p hp => by cases hp⟩
  · cases hm

theorem bareResponse_exact : ∀ s, s ≠ .signon → ∀ m ∈ bareResponse.sets s, ExactMessage sampleEnv m ∧ CleanMessage m ∧ SettledMessage m := by
  intro s hs m hm
  simp only [bareResponse] at hm
  split_ifs at hm with h1 h2 h3
  · rw [List.mem_singleton] at hm; subst hm
    exact ⟨exact_of_check _ _ _ (by decide +kernel), textB_sound _ _ (by decide +kernel), settledB_sound _ _ _ (by decide +kernel)⟩
  · rw [List.mem_singleton] at hm; subst hm
    exact ⟨exact_of_check _ _ _ (by decide +kernel), textB_sound _ _ (by decide +kernel), settledB_sound _ _ _ (by decide +kernel)⟩
  · rw [List.mem_singleton] at hm; subst hm
    exact ⟨exact_of_check _ _ _ (by decide +kernel), textB_sound _ _ (by decide +kernel), settledB_sound _ _ _ (by decide +kernel)⟩
  · cases hm

/-- A world whose servers all answer with the same body. -/
def answering (now : GoTime) (body : List UInt8) : World :=
  { offline now with net := constNet now ⟨200, "200 OK".toList, body.length, [], [], body⟩ }

theorem sample_query (c : Command) (hc : OneRequest c) (now : GoTime) (body : List UInt8) :
    ∃ bc r d, c.query (answering now body) sampleFlags = .ok (.basic bc, r) ∧ r.url = sampleFlags.serverURL ∧
      (r.setClientFields now bc).marshal.1 = .ok d := by
  have hq : ∃ bc r, c.query (answering now body) sampleFlags = .ok (.basic bc, r) := by
    cases c <;> first | exact absurd rfl hc | exact ⟨_, _, rfl⟩
  obtain ⟨bc, r, hq⟩ := hq
  obtain ⟨ver, uid, h1, h2, h3, h4, h5, h6⟩ := query_ok hq
  have h3' : bc = ⟨8, "QWIN".toList, "2400".toList, false, false, [], none⟩ := by
    have : (enumOfxVersion.new sampleFlags.ofxVersion) = (8, none) := by decide +kernel
    rw [this] at h1
    cases h1
    have hg : getClient sampleFlags.serverURL ⟨8, sampleFlags.appID, sampleFlags.appVer, sampleFlags.noIndentRequests,
      sampleFlags.carriageReturn, sampleFlags.userAgent, none⟩ = .basic ⟨8, "QWIN".toList, "2400".toList, false, false, [], none⟩ := by rfl
    rw [hg] at h3
    injection h3
  subst h3'
  have : ∃ d, (r.setClientFields now ⟨8, "QWIN".toList, "2400".toList, false, false, [], none⟩).marshal.1 = .ok d := by
    rw [C26_request_marshal_iff]
    have hu : uid = "07070707-0707-0707-0707-070707070707".toList := by
      have : randomUID ((answering now body).entropy []) = .ok "07070707-0707-0707-0707-070707070707".toList := by
        show randomUID (.read (List.replicate 16 7)) = _
        decide +kernel
      rw [this] at h2; cases h2; rfl
    subst hu
    refine ⟨?_, ?_⟩
    · rw [← C23_signon_valid_iff 8]
      have hso : (r.setClientFields now ⟨8, "QWIN".toList, "2400".toList, false, false, [], none⟩).signon =
        { r.signon with DtClient := now, AppID := "QWIN".toList, AppVer := "2400".toList } := rfl
      rw [hso, h5]
      show ((SignonRequest.mk now "someone".toList "secret".toList [] false [] "B1".toList "10898".toList "QWIN".toList "2400".toList []).valid 8).1 = none
      have hind : ∀ now : GoTime, ((SignonRequest.mk now "someone".toList "secret".toList [] false [] "B1".toList "10898".toList "QWIN".toList "2400".toList []).valid 8).1 =
        ((SignonRequest.mk GoTime.zero "someone".toList "secret".toList [] false [] "B1".toList "10898".toList "QWIN".toList "2400".toList []).valid 8).1 := fun _ => rfl
      rw [hind]; decide +kernel
    · intro s _ m hm
      have hm : m ∈ r.sets s := hm
      rw [h6] at hm
      by_cases hs : s = (Command.message (answering now body) sampleFlags "07070707-0707-0707-0707-070707070707".toList c).1
      · rw [if_pos hs, List.mem_singleton] at hm
        subst hm; subst hs
        have h8 : (r.setClientFields now ⟨8, "QWIN".toList, "2400".toList, false, false, [], none⟩).version = 8 := rfl
        rw [h8]
        have hind : Command.message (answering now body) sampleFlags "07070707-0707-0707-0707-070707070707".toList c =
          Command.message (answering GoTime.zero []) sampleFlags "07070707-0707-0707-0707-070707070707".toList c := by cases c <;> rfl
        rw [hind]
        cases c <;> first | exact absurd rfl hc | exact ⟨rfl, by decide +kernel⟩
      · rw [if_neg hs] at hm; cases hm
  obtain ⟨d, hd⟩ := this
  exact ⟨_, r, d, hq, h4, hd⟩

/-- With such servers, a printing command gets the response they send. -/
theorem answered (c : Command) (hc : Shows c) (now : GoTime) (x : Response Message) (d : Doc) (h : x.marshal.1 = .ok d)
    (hval : x.valid = none)
    (hv : 1 ≤ x.version ∧ x.version ≤ 11) (hs : ExactSignon sampleEnv x.signon ∧ CleanSignonResponse x.signon ∧ SettledSignon x.signon)
    (hm : ∀ s, s ≠ .signon → ∀ m ∈ x.sets s, ExactMessage sampleEnv m ∧ CleanMessage m ∧ SettledMessage m) :
    ∃ cl r x', c.query (answering now d.bytes) sampleFlags = .ok (cl, r) ∧
      (cl.request (answering now d.bytes).env (answering now d.bytes).names (answering now d.bytes).net r []).1 = (some x', none) ∧
      x'.signon = x.signon ∧ ∀ s, s ≠ .signon → x'.sets s = x.sets s := by
  obtain ⟨bc, r, doc, hq, hu, hd⟩ := sample_query c (by rcases hc with rfl | rfl | rfl | rfl <;> (unfold OneRequest; decide)) now d.bytes
  obtain ⟨x', h1, h2, h3, h4⟩ := C37_text_roundtrip_eq_partial sampleEnv (offline now).names x d h hv hs hm []
  rw [List.append_nil] at h1
  refine ⟨.basic bc, r, x', hq, ?_, h3, h4⟩
  have hx' : x'.valid = none := by
    rw [C36_valid_iff] at hval ⊢
    rw [h2, h3]
    exact ⟨hval.1, fun s hs m hmm => hval.2 s hs m (by rw [← h4 s hs]; exact hmm)⟩
  have hp : parseResponse sampleEnv (offline now).names d.bytes = (some x', none) := by
    unfold parseResponse; rw [h1]; simp only; rw [hx']
  have hraw : ((Client.basic bc).requestNoParse (answering now d.bytes).net r []).1 =
      (some ⟨⟨200, "200 OK".toList, d.bytes.length, [], [], d.bytes⟩, 1⟩, none) := by
    obtain ⟨hs', k1⟩ := constNet_first now ⟨200, "200 OK".toList, d.bytes.length, [], [], d.bytes⟩ rfl (.basic bc)
      (by intro bc h; cases h) r.url (by rw [hu]; decide) doc.bytes []
    rcases noParse_cases (answering now d.bytes).net (.basic bc) r [] with ⟨e, h', -⟩ | ⟨d', h', h''⟩
    · erw [hd] at h'; cases h'
    erw [hd] at h'
    cases h'
    rcases h'' with ⟨-, h''⟩ | ⟨resp', -, hr, -⟩
    · rw [h'']; erw [k1]; rfl
    · obtain ⟨⟨bc, hr⟩, -⟩ := hr; cases hr
  rcases request_cases (answering now d.bytes).env (answering now d.bytes).names (answering now d.bytes).net (.basic bc) r [] with
    ⟨e, g1, -⟩ | ⟨resp, g1, -, -, ⟨e, g2, -⟩ | ⟨-, g3⟩⟩
  · rw [hraw] at g1; cases g1
  · rw [hraw] at g1; cases g1
    erw [hp] at g2; cases g2
  · rw [hraw] at g1; cases g1
    rw [g3]; exact hp

/-- C52 fails: for each of the three statement commands there are servers sending a valid
response on which it panics. -/
theorem C52_valid_crash (now : GoTime) : bareResponse.valid = none ∧ ∃ w : World, w.net.now = now ∧
    (bankTransactions w sampleFlags).fin = .panic ∧ (ccTransactions w sampleFlags).fin = .panic ∧
    (invTransactions w sampleFlags).fin = .panic := by
  obtain ⟨d, hd⟩ := bareResponse_ok
  have key : ∀ c, Shows c → Crashes c bareResponse → (c.run (answering now d.bytes) sampleFlags).fin = .panic := by
    intro c hc hcr
    obtain ⟨cl, r, x', h1, h2, h3, h4⟩ := answered c hc now bareResponse d hd bareResponse_valid (by decide)
      ⟨sampleResponse_exact.1, sampleResponse_clean.1, sampleResponse_exact.2.1⟩ bareResponse_exact
    refine C52_crash _ _ c hc rfl cl r h1 x' h2 (by rw [h3]; rfl) ?_
    rcases hc with rfl | rfl | rfl | rfl
    · exact hcr
    · obtain ⟨s, rest, k1, k2⟩ := hcr
      exact ⟨s, rest, by rw [h4 .bank (by decide)]; exact k1, k2⟩
    · obtain ⟨s, rest, k1, k2⟩ := hcr
      exact ⟨s, rest, by rw [h4 .creditCard (by decide)]; exact k1, k2⟩
    · obtain ⟨s, rest, k1, k2⟩ := hcr
      exact ⟨s, rest, by rw [h4 .invStmt (by decide)]; exact k1, k2⟩
  refine ⟨bareResponse_valid, answering now d.bytes, rfl, key .transactionsBank (.inr (.inl rfl)) ?_,
    key .transactionsCC (.inr (.inr (.inl rfl))) ?_, key .transactionsInv (.inr (.inr (.inr rfl))) ?_⟩
  · exact ⟨_, [], rfl, rfl⟩
  · exact ⟨_, [], rfl, .inr ⟨_, rfl, _, List.mem_singleton_self _, rfl, rfl⟩⟩
  · exact ⟨_, [], rfl, .inl rfl⟩

end Ofx.Props
