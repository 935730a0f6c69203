import Verif.Lemmas.Concurrent
import Verif.Props.Client
/-
Property C72: clients may be shared by goroutines.  The goroutines call Request, each on a request
of its own; a schedule says whose turn it is, step by step.  What each does alone is the
sequential `Client.request` of Model/Client.lean.
-/
namespace Ofx.Props
open Ofx Ofx.Spec

/-! ### C72 sharing clients between goroutines -/

theorem started_apart (env : Env) (nt : NameTable) (gs : Nat → Goroutine) (m : Mem) :
    (started env nt gs m).Apart fun i => (gs i).request := fun i =>
  requestProg_only env nt (gs i).kind (gs i).client (gs i).request

theorem started_outcome (env : Env) (nt : NameTable) (nets : Nat → Net) (gs : Nat → Goroutine) (m : Mem) (i : Nat) :
    (started env nt gs m).outcome nets (fun i => (gs i).request) i =
      ((gs i).kind.client (m.clients (gs i).client)).request env nt (nets i) (m.requests (gs i).request) [] := by
  have := requestProg_finish env nt (nets i) (gs i).kind (gs i).client (gs i).request m []
  unfold Running.outcome started
  simp only []
  rw [this]
  rcases ((gs i).kind.client (m.clients (gs i).client)).request env nt (nets i) (m.requests (gs i).request) []
    with ⟨res, r, tr⟩
  simp only [put_requests]

/-- C72: however the steps of goroutines calling Request on different requests are interleaved,
and whether or not they share clients, each that returns has returned, left in its request and
done on the network exactly what the call does with nobody else about. -/
theorem C72_as_alone (env : Env) (nt : NameTable) (nets : Nat → Net) (gs : Nat → Goroutine) (m : Mem)
    (distinct : ∀ i j, i ≠ j → (gs i).request ≠ (gs j).request) (sched : List Nat) (i : Nat) (x : RequestResult)
    (h : ((started env nt gs m).run nets sched).progs i = .ret x) :
    (x, ((started env nt gs m).run nets sched).mem.requests (gs i).request,
        ((started env nt gs m).run nets sched).traces i) =
      ((gs i).kind.client (m.clients (gs i).client)).request env nt (nets i) (m.requests (gs i).request) [] := by
  have := (running_run nets (fun i => (gs i).request) distinct sched _ (started_apart env nt gs m)).2.1 i
  rw [started_outcome] at this
  rw [← this]
  unfold Running.outcome
  rw [h]
  rfl

/-- C72: and at any moment, returned or not, what a goroutine has done on the network is the
beginning of what the call does with nobody else about. -/
theorem C72_so_far (env : Env) (nt : NameTable) (nets : Nat → Net) (gs : Nat → Goroutine) (m : Mem)
    (distinct : ∀ i j, i ≠ j → (gs i).request ≠ (gs j).request) (sched : List Nat) (i : Nat) :
    ((started env nt gs m).run nets sched).traces i <+:
      (((gs i).kind.client (m.clients (gs i).client)).request env nt (nets i) (m.requests (gs i).request) []).2.2 := by
  have := (running_run nets (fun i => (gs i).request) distinct sched _ (started_apart env nt gs m)).2.1 i
  rw [started_outcome] at this
  rw [← this]
  exact finish_extends ..

/-- C72: no goroutine waits for another: for each there is a number of steps of its own, the same
whatever the others do, after which it has returned. -/
theorem C72_finishes (env : Env) (nt : NameTable) (nets : Nat → Net) (gs : Nat → Goroutine) (m : Mem)
    (distinct : ∀ i j, i ≠ j → (gs i).request ≠ (gs j).request) (i : Nat) :
    ∃ n, ∀ sched : List Nat, (∃ x, ((started env nt gs m).run nets sched).progs i = .ret x) ↔ n ≤ sched.count i := by
  refine ⟨(started env nt gs m).todo nets i, fun sched => ?_⟩
  have := (running_run nets (fun i => (gs i).request) distinct sched _ (started_apart env nt gs m)).2.2.1 i
  constructor
  · rintro ⟨x, hx⟩
    unfold Running.todo at this
    rw [hx] at this
    simp only [Prog.steps] at this
    unfold Running.todo
    omega
  · intro h
    exact steps_zero (nets i) _ _ _ (this.trans (by omega))

/-- C72: no goroutine ever changes a client, nor a request other than those they were given. -/
theorem C72_untouched (env : Env) (nt : NameTable) (nets : Nat → Net) (gs : Nat → Goroutine) (m : Mem)
    (distinct : ∀ i j, i ≠ j → (gs i).request ≠ (gs j).request) (sched : List Nat) :
    ((started env nt gs m).run nets sched).mem.clients = m.clients ∧
    ∀ a, (∀ i, (gs i).request ≠ a) → ((started env nt gs m).run nets sched).mem.requests a = m.requests a := by
  obtain ⟨-, -, -, h4, h5⟩ :=
    running_run nets (fun i => (gs i).request) distinct sched _ (started_apart env nt gs m)
  exact ⟨h4, fun a ha => h5 a fun i _ => (ha i).symm⟩

/-- Two goroutines sharing a client, taking turns: both return, and each has got an answer to a
request it sent. -/
example (env : Env) (nt : NameTable) (now : GoTime) :
    ∃ nets sched x y, ∃ s : Running RequestResult,
      s = (started env nt (fun i => ⟨.basic, 7, i⟩) ⟨fun _ => sampleClient, fun _ => sampleRequest⟩).run nets sched ∧
      [0, 1, 0, 1] <+: sched ∧ s.progs 0 = .ret x ∧ s.progs 1 = .ret y ∧ (∃ q, .sent q ∈ s.traces 0) ∧ ∃ q, .sent q ∈ s.traces 1 := by
  have distinct : ∀ i j : Nat, i ≠ j → i ≠ j := fun _ _ h => h
  obtain ⟨n0, h0⟩ := C72_finishes env nt (fun _ => constNet now ⟨200, [], 7, [], [], []⟩) (fun i => ⟨.basic, 7, i⟩)
    ⟨fun _ => sampleClient, fun _ => sampleRequest⟩ distinct 0
  obtain ⟨n1, h1⟩ := C72_finishes env nt (fun _ => constNet now ⟨200, [], 7, [], [], []⟩) (fun i => ⟨.basic, 7, i⟩)
    ⟨fun _ => sampleClient, fun _ => sampleRequest⟩ distinct 1
  obtain ⟨x, hx⟩ := (h0 ([0, 1, 0, 1] ++ (List.replicate n0 0 ++ List.replicate n1 1))).mpr (by
    rw [List.count_append, List.count_append, List.count_replicate_self]; omega)
  obtain ⟨y, hy⟩ := (h1 ([0, 1, 0, 1] ++ (List.replicate n0 0 ++ List.replicate n1 1))).mpr (by
    rw [List.count_append, List.count_append, List.count_replicate_self]; omega)
  have posted : ∃ q, .sent q ∈ ((Client.basic sampleClient).request env nt (constNet now ⟨200, [], 7, [], [], []⟩) sampleRequest []).2.2 := by
    obtain ⟨q, k1, k2⟩ := constNet_basic now ⟨200, [], 7, [], [], []⟩ rfl
    rcases request_cases env nt (constNet now ⟨200, [], 7, [], [], []⟩) (.basic sampleClient) sampleRequest [] with
      ⟨e, k3, -⟩ | ⟨resp, -, -, k5, -⟩
    · rw [k1] at k3; simp [checkStatus] at k3
    · rw [k5, k2]; exact ⟨q, by simp⟩
  have ax := C72_as_alone env nt _ _ _ distinct _ 0 x hx
  have ay := C72_as_alone env nt _ _ _ distinct _ 1 y hy
  refine ⟨_, _, x, y, _, rfl, ⟨_, rfl⟩, hx, hy, ?_, ?_⟩
  · exact (congrArg (fun t : RequestResult × Request Message × Trace => ∃ q, Event.sent q ∈ t.2.2) ax).mpr posted
  · exact (congrArg (fun t : RequestResult × Request Message × Trace => ∃ q, Event.sent q ∈ t.2.2) ay).mpr posted

/-- C72: the requests have to be different.  If two goroutines use one request with two clients,
there is a schedule after which the first has returned and sent what the settings of the second
client ask for (all but those that concern the HTTP request itself). -/
theorem C72_shared_request (env : Env) (nt : NameTable) (net : Net) (kd : Kind) (c0 c1 a : Nat) (m : Mem) :
    ∃ sched x, ((started env nt (fun i => ⟨kd, if i = 0 then c0 else c1, a⟩) m).run (fun _ => net) sched).progs 0 = .ret x ∧
      (x, ((started env nt (fun i => ⟨kd, if i = 0 then c0 else c1, a⟩) m).run (fun _ => net) sched).traces 0) =
        (let alone := (kd.client { m.clients c1 with
            UserAgent := (m.clients c0).UserAgent, HTTPClient := (m.clients c0).HTTPClient }).request
              env nt net (m.requests a) []
         (alone.1, alone.2.2)) := by
  obtain ⟨sched, h1, h2⟩ := overtaken net (started env nt (fun i => ⟨kd, if i = 0 then c0 else c1, a⟩) m) c0 c1 a
    (sendProg kd c0 a (parseProg env nt)) (sendProg kd c1 a (parseProg env nt))
    (requestProg_eq env nt kd c0 a) (requestProg_eq env nt kd c1 a) rfl
  have hf := sendParse_finish env nt net kd c0 a m [] { m.clients c1 with
    UserAgent := (m.clients c0).UserAgent, HTTPClient := (m.clients c0).HTTPClient } rfl rfl (m.requests a)
  have hf : (sendProg kd c0 a (parseProg env nt)).finish net
      (m.put a ((m.requests a).setClientFields net.now (m.clients c1))) [] = _ := hf
  refine ⟨sched, _, h1, ?_⟩
  rw [h2]
  show (((sendProg kd c0 a (parseProg env nt)).finish net
      (m.put a ((m.requests a).setClientFields net.now (m.clients c1))) []).1,
    ((sendProg kd c0 a (parseProg env nt)).finish net
      (m.put a ((m.requests a).setClientFields net.now (m.clients c1))) []).2.2) = _
  rw [hf]

/-- The settings of a second client make a difference: another version is another header. -/
example : (sampleRequest.setClientFields GoTime.zero { sampleClient with SpecVersion := 1 }).version ≠
    (sampleRequest.setClientFields GoTime.zero sampleClient).version := by decide

end Ofx.Props
