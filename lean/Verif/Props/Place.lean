import Verif.Lemmas.Place
import Verif.Model.Client
import Verif.Props.Text
import Verif.Props.Reader
import Verif.Props.Says
/-
C83: what is read from a document does not depend on where it is read.
-/
namespace Ofx.Props
open Ofx Spec

/-- C83, dates: a text is refused everywhere, or is everywhere the same date, as it is known there. -/
theorem C83_date (s : Str) :
    (∃ e, ∀ here, Date.unmarshal here s = .error e) ∨ ∃ d, ∀ here, Date.unmarshal here s = .ok (known here d) := by
  cases h : Date.unmarshal nowhere s with
  | error e => exact .inl ⟨e, fun here => by rw [date_place here, h]; rfl⟩
  | ok d => exact .inr ⟨d, fun here => by rw [date_place here, h]; rfl⟩

/-- C83: a document is refused everywhere with the same error; or it is everywhere the same response, with the same verdict on
its validity, but that zone abbreviations missing in the document are supplied by the machine. -/
theorem C83_read (curr : CurrencyTable) (nt : NameTable) (b : Bufio) :
    ∃ (r : Option (Response Message)) (e : Option Err), ∀ here,
      parseReader ⟨here, curr⟩ nt b = (r.map (responseDates (known here)), e) :=
  ⟨(parseReader ⟨nowhere, curr⟩ nt b).1, (parseReader ⟨nowhere, curr⟩ nt b).2,
    fun here => parseReader_place ⟨here, curr⟩ here nt b⟩

/-- Forgetting the abbreviation undoes `known`. -/
theorem nameless_known (here : LocalZone) (d : GoTime) : nameless (known here d) = nameless d := by
  unfold known
  by_cases h : d.zone = [] ∧ (here (d.ns / nsPerSec)).2 = d.off
  · rw [if_pos h]; rfl
  · rw [if_neg h]

/-- C83: any two machines agree on the verdict and on everything in the response but zone abbreviations: in particular on every
instant and on every offset. -/
theorem C83_instants (curr : CurrencyTable) (nt : NameTable) (b : Bufio) (here there : LocalZone) :
    (parseReader ⟨here, curr⟩ nt b).2 = (parseReader ⟨there, curr⟩ nt b).2 ∧
      (parseReader ⟨here, curr⟩ nt b).1.map (responseDates nameless) =
        (parseReader ⟨there, curr⟩ nt b).1.map (responseDates nameless) := by
  obtain ⟨r, e, h⟩ := C83_read curr nt b
  rw [h here, h there]
  refine ⟨rfl, ?_⟩
  cases r with
  | none => rfl
  | some r =>
    show some _ = some _
    rw [responseDates_comp, responseDates_comp]
    simp only [nameless_known]

/-- C83: if a response has no date without zone abbreviation, and none at the offset of the machine that read it, every machine
reads exactly the same. -/
theorem C83_everywhere (curr : CurrencyTable) (nt : NameTable) (b : Bufio) (here : LocalZone) (r : Response Message) (e : Option Err)
    (h : parseReader ⟨here, curr⟩ nt b = (some r, e))
    (hr : ResponseDates (fun d => d.zone ≠ [] ∧ (here (d.ns / nsPerSec)).2 ≠ d.off) r) (there : LocalZone) :
    parseReader ⟨there, curr⟩ nt b = (some r, e) := by
  obtain ⟨r0, e0, h0⟩ := C83_read curr nt b
  rw [h0 here] at h
  rw [h0 there]
  cases r0 with
  | none => cases h
  | some r0 =>
    cases h
    refine Prod.ext (congrArg some ?_) rfl
    refine responseDates_congr (P := fun d => d.zone ≠ [] ∧ (here (d.ns / nsPerSec)).2 ≠ d.off) ?_ r0 hr
    intro d hd
    have h1 : known here d = d := by
      unfold known at hd ⊢
      by_cases hk : d.zone = [] ∧ (here (d.ns / nsPerSec)).2 = d.off
      · rw [if_pos hk] at hd; exact absurd hk.2 hd.2
      · rw [if_neg hk]
    rw [h1] at hd ⊢
    unfold known
    rw [if_neg]
    rintro ⟨hz, -⟩
    exact hd.1 hz

/-- C83 for Request: with the same network, what a client returns, what it does to the request and what it does on the network
do not depend on where it runs, but for the abbreviations. -/
theorem C83_request (curr : CurrencyTable) (nt : NameTable) (net : Net) (c : Client) (r : Request Message) (tr : Trace) :
    ∃ (res : Option (Response Message)) (e : Option Err) (r' : Request Message) (tr' : Trace), ∀ here,
      c.request ⟨here, curr⟩ nt net r tr = ((res.map (responseDates (known here)), e), r', tr') := by
  unfold Client.request
  generalize c.requestNoParse net r tr = x
  obtain ⟨⟨resp, err⟩, r', tr'⟩ := x
  cases err with
  | some e => cases resp <;> exact ⟨none, some e, r', tr', fun _ => rfl⟩
  | none =>
    cases resp with
    | none => exact ⟨none, some (.plain "nil dereference"), r', tr', fun _ => rfl⟩
    | some resp =>
      have h := fun here => parseResponse_place ⟨here, curr⟩ here nt resp.body
      generalize hp : parseResponse ((⟨nowhere, curr⟩ : Env).at nowhere) nt resp.body = p at h
      obtain ⟨res, err⟩ := p
      have h : ∀ here, parseResponse ⟨here, curr⟩ nt resp.body = (res.map (responseDates (known here)), err) := by
        intro here
        have hq := parseResponse_place ⟨here, curr⟩ here nt resp.body
        have hp' : parseResponse ((⟨here, curr⟩ : Env).at nowhere) nt resp.body = (res, err) := hp
        rw [hp'] at hq
        exact hq
      simp only [h]
      cases err with
      | some e => exact ⟨none, some e, r', tr' ++ [.closed resp.id], fun _ => rfl⟩
      | none => exact ⟨res, none, r', tr' ++ [.closed resp.id], fun _ => rfl⟩

/-! ### Cases -/

def estLocal : LocalZone := fun _ => ("EST".toList, -18000)
def kathmandu : LocalZone := fun _ => ("+0545".toList, 20700)

/-- The abbreviation does depend on the machine, and with it what is written. -/
example : (Date.unmarshal estLocal "20200101120000[-5]".toList).map Date.marshal = .ok "20200101120000.000[-5:EST]".toList ∧
    (Date.unmarshal kathmandu "20200101120000[-5]".toList).map Date.marshal = .ok "20200101120000.000[-5]".toList := by
  constructor <;> rfl

/-- `C83_everywhere` applies to `sampleResponse`, read in Kathmandu. -/
example (nt : NameTable) : ∃ src r, parseReader ⟨kathmandu, sampleEnv.curr⟩ nt (Bufio.new 1024 src) = (some r, none) ∧
    (r.sets .bank).length = 1 ∧ ∀ there, parseReader ⟨there, sampleEnv.curr⟩ nt (Bufio.new 1024 src) = (some r, none) := by
  obtain ⟨d, hd⟩ := sampleResponse_ok
  obtain ⟨h1, h2, h3⟩ := sampleResponse_exact
  have h1' : ExactSignon ⟨kathmandu, sampleEnv.curr⟩ sampleResponse.signon := exact_of_check _ _ _ (by decide +kernel)
  have h3' : ∀ s, s ≠ .signon → ∀ m ∈ sampleResponse.sets s, ExactMessage ⟨kathmandu, sampleEnv.curr⟩ m := by
    intro s _ m hm
    have hm : m ∈ (if s = .bank then [Message.statementResponse sampleBankStatement]
        else if s = .secList then [.securityList ⟨[]⟩] else []) := hm
    split_ifs at hm
    · simp only [List.mem_singleton] at hm
      subst hm
      exact exact_of_check _ _ _ (by decide +kernel)
    · simp only [List.mem_singleton] at hm
      subst hm
      exact exact_of_check _ _ _ (by decide +kernel)
    · cases hm
  obtain ⟨r', g1, g2, g3, g4⟩ := C37_tree_roundtrip_eq ⟨kathmandu, sampleEnv.curr⟩ sampleResponse d hd h1' h3' h2
    (fun s hs m hm => (h3 s hs m hm).2)
  obtain ⟨-, _, _, _, _, _, _, _, -, -, -, -, -, -, -, -, g5, -⟩ := (C75_response_iff _ _ _ _).mp g1
  have g6 : r' = sampleResponse := by
    obtain ⟨v, so, f⟩ := r'
    have hf : f = sampleResponse.sets := funext fun s => by
      by_cases hs : s = .signon
      · subst hs; exact g5
      · exact g4 s hs
    have g2 : v = sampleResponse.version := g2
    have g3 : so = sampleResponse.signon := g3
    subst hf; subst g2; subst g3; rfl
  rw [g6] at g1
  have g7 := (C37_written_read _ nt sampleResponse d hd (by decide) sampleResponse_clean.1 sampleResponse_clean.2 [] _).mpr g1
  rw [List.append_nil] at g7
  have g8 := (C32_parse _ nt (once_delivers d.bytes) sampleResponse none).mpr (by
    unfold parseResponse
    rw [g7]
    exact Prod.ext rfl (by rfl))
  refine ⟨_, sampleResponse, g8, rfl, C83_everywhere _ nt _ kathmandu _ _ g8 ?_⟩
  have hp : ∀ d : GoTime, (!d.zone.isEmpty && decide (d.off ≠ 20700)) = true →
      d.zone ≠ [] ∧ (kathmandu (d.ns / nsPerSec)).2 ≠ d.off := by
    intro d hd
    obtain ⟨a, b⟩ := (Bool.and_eq_true _ _).mp hd
    refine ⟨fun hz => ?_, fun ho => (of_decide_eq_true b) ho.symm⟩
    rw [hz] at a
    cases a
  refine ⟨datesB_sound hp _ _ (by decide +kernel), ?_⟩
  intro s m hm
  have hm : m ∈ (if s = .bank then [Message.statementResponse sampleBankStatement]
      else if s = .secList then [.securityList ⟨[]⟩] else []) := hm
  split_ifs at hm
  · simp only [List.mem_singleton] at hm
    subst hm
    exact datesB_sound hp _ _ (by decide +kernel)
  · simp only [List.mem_singleton] at hm
    subst hm
    exact datesB_sound hp _ _ (by decide +kernel)
  · cases hm

end Ofx.Props
