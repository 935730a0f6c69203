import Verif.Spec.Belongs
import Verif.Props.CliWorks
/-
Property C89: responses are to the request.
-/
namespace Ofx.Props
open Ofx Spec

/-- C89, as far as it holds: the response returned is what the last answer received says, an answer
with status 200 after nothing but the document of this request was posted, or written to a
connection after some header lines.  Missing: that its messages answer those of the request,
which is not checked, see below. -/
theorem C89_answer_partial (env : Env) (nt : NameTable) (net : Net) (c : Client) (r : Request Message) (x : Response Message)
    (h : (c.request env nt net r []).1 = (some x, none)) :
    ∃ resp d, (r.setClientFields net.now c.bc).marshal.1 = .ok d ∧
      lastResponse (c.request env nt net r []).2.2 = some resp ∧ resp.status = 200 ∧
      parseResponse env nt resp.body = (some x, none) ∧
      (∀ q ∈ posts (c.request env nt net r []).2.2, q.body = d.bytes) ∧
      ∀ b ∈ written (c.request env nt net r []).2.2, ∃ path host, b <+: toBytes (discoverHeaders path host d.bytes.length) ++ d.bytes := by
  obtain ⟨resp, h1, h2, h3, -⟩ := request_last env nt net c r x h
  have hd : ∃ d, (r.setClientFields net.now c.bc).marshal.1 = .ok d := by
    rcases noParse_cases net c r [] with ⟨e, -, h'⟩ | ⟨d, hd, -⟩
    · rcases request_cases env nt net c r [] with ⟨e', -, g⟩ | ⟨resp', g, -⟩
      · rw [g] at h; cases h
      · rw [h'] at g; cases g
    · exact ⟨d, hd⟩
  obtain ⟨d, hd⟩ := hd
  obtain ⟨k1, k2⟩ := noParse_docs net c r
  have htr : posts (c.request env nt net r []).2.2 = posts (c.requestNoParse net r []).2.2 ∧
      written (c.request env nt net r []).2.2 = written (c.requestNoParse net r []).2.2 := by
    rcases request_cases env nt net c r [] with ⟨e', -, g⟩ | ⟨resp', -, -, g, -⟩
    · rw [g]; exact ⟨rfl, rfl⟩
    · rw [g]; exact posts_closed _ _
  refine ⟨resp, d, hd, h1, h2, h3, ?_, ?_⟩
  · intro q hq
    rw [htr.1] at hq
    obtain ⟨d', g1, g2⟩ := k1 q hq
    rw [hd] at g1; cases g1; exact g2
  · intro b hb
    rw [htr.2] at hb
    obtain ⟨d', path, host, g1, g2⟩ := k2 b hb
    rw [hd] at g1; cases g1; exact ⟨path, host, g2⟩

/-- A response with a bank statement for an account with number 7001 or 7002. -/
def otherStatement (b : Bool) : StatementResponse :=
  { sampleBankStatement with
    BankAcctFrom := { sampleBankStatement.BankAcctFrom with AcctID := if b then "7001".toList else "7002".toList } }

def otherResponse (b : Bool) : Response Message :=
  { version := 7, signon := sampleSignonResponse, sets := fun s => if s = .bank then [.statementResponse (otherStatement b)] else [] }

theorem other_mem {b : Bool} {s : MsgSet} {m : Message} (h : m ∈ (otherResponse b).sets s) :
    s = .bank ∧ m = .statementResponse (otherStatement b) := by
  have h : m ∈ (if s = .bank then [Message.statementResponse (otherStatement b)] else []) := h
  by_cases hs : s = .bank
  · rw [if_pos hs, List.mem_singleton] at h; exact ⟨hs, h⟩
  · rw [if_neg hs] at h; cases h

theorem other_exact (b : Bool) : (∃ d, (otherResponse b).marshal.1 = .ok d) ∧
    (ExactSignon sampleEnv (otherResponse b).signon ∧ CleanSignonResponse (otherResponse b).signon ∧ SettledSignon (otherResponse b).signon) ∧
    ∀ s, s ≠ .signon → ∀ m ∈ (otherResponse b).sets s, ExactMessage sampleEnv m ∧ CleanMessage m ∧ SettledMessage m := by
  refine ⟨?_, ⟨sampleResponse_exact.1, sampleResponse_clean.1, sampleResponse_exact.2.1⟩, ?_⟩
  · rw [C26_response_marshal_iff]
    refine ⟨(C23_signon_response_valid_iff 7 _).mp (by cases b <;> decide +kernel), ?_⟩
    intro s hs m hm
    obtain ⟨rfl, rfl⟩ := other_mem hm
    exact ⟨rfl, by cases b <;> decide +kernel, fun p hp => by cases hp⟩
  · intro s hs m hm
    obtain ⟨rfl, rfl⟩ := other_mem hm
    cases b
    · exact ⟨exact_of_check _ _ _ (by decide +kernel), textB_sound _ _ (by decide +kernel), settledB_sound _ _ _ (by decide +kernel)⟩
    · exact ⟨exact_of_check _ _ _ (by decide +kernel), textB_sound _ _ (by decide +kernel), settledB_sound _ _ _ (by decide +kernel)⟩

/-- C89 fails: whatever the client and the request, asking about at most one bank account, there
is a server whose statement of another account is returned without error. -/
theorem C89_not_checked (nt : NameTable) (now : GoTime) (c : Client) (r : Request Message) (q : Doc)
    (hu : "https://".toList <+: r.url) (hq : (r.setClientFields now c.bc).marshal.1 = .ok q) (h1 : (r.sets .bank).length ≤ 1) :
    ∃ net got m, net.now = now ∧ (c.request sampleEnv nt net r []).1 = (some got, none) ∧ m ∈ got.sets .bank ∧ ¬ AskedFor r m := by
  obtain ⟨b, hb⟩ : ∃ b : Bool, ∀ m ∈ (otherResponse b).sets .bank, ¬ AskedFor r m := by
    by_cases hx : ∀ m ∈ (otherResponse true).sets .bank, ¬ AskedFor r m
    · exact ⟨true, hx⟩
    · refine ⟨false, fun m hm => ?_⟩
      rw [List.mem_singleton.mp hm]
      rintro ⟨p, g1, -, -, g2⟩
      apply hx
      intro m' hm'
      rw [List.mem_singleton.mp hm']
      rintro ⟨p', g1', -, -, g2'⟩
      rcases hl : r.sets .bank with _ | ⟨a, rest⟩
      · rw [hl] at g1; cases g1
      · rw [hl] at g1 g1' h1
        have : rest = [] := by
          cases rest with
          | nil => rfl
          | cons x xs => simp at h1
        subst this
        rw [List.mem_singleton] at g1 g1'
        rw [← g1] at g1'
        cases g1'
        rw [← g2] at g2'
        revert g2'
        decide +kernel
  obtain ⟨⟨d, hd⟩, h2, h3⟩ := other_exact b
  obtain ⟨got, g1, g2⟩ := C87_answered sampleEnv nt (constNet now ⟨200, [], 0, [], [], d.bytes⟩) c r [] q hu
    hq ⟨200, [], 0, [], [], d.bytes⟩
    ⟨⟨_, rfl⟩, fun _ _ _ _ _ => rfl, fun _ _ => ⟨_, rfl, rfl, fun _ _ => rfl⟩⟩ rfl (fun _ _ => .inr rfl)
    (otherResponse b) d [] (by simp) hd (by cases b <;> decide) h2 h3
  have hm : got.sets .bank = (otherResponse b).sets .bank := g2.2.2 .bank (by decide)
  refine ⟨_, got, _, rfl, g1, ?_, hb _ (List.mem_singleton.mpr rfl)⟩
  rw [hm]
  exact List.mem_singleton.mpr rfl

/-- The sample request is such a request. -/
example (nt : NameTable) (now : GoTime) (c : Client) (hc : c.bc = sampleClient) : ∃ net got m, net.now = now ∧
    (c.request sampleEnv nt net sampleRequest []).1 = (some got, none) ∧ m ∈ got.sets .bank ∧ ¬ AskedFor sampleRequest m := by
  obtain ⟨q, hq⟩ := sampleClient_ok now
  exact C89_not_checked nt now c sampleRequest q (by decide) (by rw [hc]; exact hq) (by decide)

/-- Of that answer C89 says that it was the last one received. -/
example (nt : NameTable) (now : GoTime) (c : Client) (hc : c.bc = sampleClient) : ∃ net x resp,
    lastResponse (c.request sampleEnv nt net sampleRequest []).2.2 = some resp ∧ parseResponse sampleEnv nt resp.body = (some x, none) := by
  obtain ⟨q, hq⟩ := sampleClient_ok now
  obtain ⟨net, x, -, -, h, -⟩ := C89_not_checked nt now c sampleRequest q (by decide) (by rw [hc]; exact hq) (by decide)
  obtain ⟨resp, -, -, h1, -, h2, -⟩ := C89_answer_partial sampleEnv nt net c sampleRequest x h
  exact ⟨net, x, resp, h1, h2⟩

/-- C89 fails for the commands: whatever the flags, the transactions shown may be those of another
account. -/
theorem C89_command (now : GoTime) (f : Flags) (hd : f.dryrun = false) (h : Usable .transactionsBank f) :
    ∃ (w : World) (x : Response Message) (s : StatementResponse), w.net.now = now ∧ (bankTransactions w f).fin = .exit 0 ∧
      Shown .transactionsBank x (bankTransactions w f).out ∧ x.sets .bank = [.statementResponse s] ∧
      s.BankAcctFrom.AcctID ≠ f.acctID := by
  obtain ⟨b, hb⟩ : ∃ b : Bool, (if b then "7001".toList else "7002".toList) ≠ f.acctID := by
    by_cases hx : "7001".toList = f.acctID
    · exact ⟨false, by rw [← hx]; decide⟩
    · exact ⟨true, hx⟩
  obtain ⟨⟨d, hdd⟩, h2, h3⟩ := other_exact b
  obtain ⟨x, g1, g2, g3, g4, g5⟩ := written_parsed sampleEnv (answering now d.bytes).names (otherResponse b) d hdd (by cases b <;> decide)
    h2 h3 []
  rw [List.append_nil] at g1
  have hx : parseResponse sampleEnv (answering now d.bytes).names d.bytes = (some x, none) := by
    unfold parseResponse
    rw [g1]; simp only [g2]
  have g5 := g5 .bank (by decide)
  have hcr : ¬ Crashes .transactionsBank x := by
    rintro ⟨s, rest, k1, k2⟩
    rw [g5] at k1
    cases k1; cases k2
  have := (C88_shows (answering now d.bytes) f .transactionsBank (.inr (.inl rfl)) hd h ⟨_, rfl, by decide⟩
    ⟨200, "200 OK".toList, d.bytes.length, [], [], d.bytes⟩
    ⟨fun _ _ => ⟨⟨_, rfl⟩, fun _ _ _ _ _ => rfl, fun _ _ => ⟨_, rfl, rfl, fun _ _ => rfl⟩⟩, rfl, .inr (.inr rfl)⟩ x hx
    (by rw [g4]; rfl)).1 hcr
  exact ⟨_, x, _, rfl, this.1, this.2 (by decide), g5, hb⟩

example (now : GoTime) := C89_command now sampleFlags rfl (sample_usable _)

end Ofx.Props
