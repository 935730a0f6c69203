import Verif.Lemmas.Sharing
import Verif.Props.Concurrent
import Verif.Spec.Race
import Verif.Props.Document
/-
Property C97: goroutines may send the same messages in different requests.
-/
namespace Ofx.Props
open Ofx Ofx.Spec

theorem sim_ret {α : Type} {a : Nat} {done : MsgSet → Nat → Bool} {p : SProg α} {p' : Prog α} (h : Sim a done p p') (x : α) :
    p = .ret x ↔ p' = .ret x := by
  cases h <;> simp

/-- C97: the goroutines' requests have to be different, but they may hold the same messages (as may
the message sets of one request): each goroutine that returns has returned and done on the network
exactly what the call does with nobody else about. -/
theorem C97_as_alone (env : Env) (nt : NameTable) (nets : Nat → Net) (gs : Nat → Goroutine) (m : SMem)
    (distinct : ∀ i j, i ≠ j → (gs i).request ≠ (gs j).request) (sched : List Nat) (i : Nat) (x : RequestResult)
    (h : ((startedS env nt gs m).run nets sched).progs i = .ret x) :
    let alone := ((gs i).kind.client (m.clients (gs i).client)).request env nt (nets i) (m.request (gs i).request) []
    let after := (startedS env nt gs m).run nets sched
    (x, after.traces i) = (alone.1, alone.2.2) ∧ (after.mem.requests (gs i).request).signon = alone.2.1.signon ∧
      (after.mem.requests (gs i).request).version = alone.2.1.version ∧ (after.mem.requests (gs i).request).url = alone.2.1.url := by
  obtain ⟨done, ht⟩ := together_run distinct nets sched (started_together env nt gs m)
  have := C72_as_alone env nt nets gs m.apart distinct sched i x ((sim_ret (ht.progs i) x).mp h)
  have ha := ht.requests i
  intro alone after
  have h0 : alone = ((gs i).kind.client (m.apart.clients (gs i).client)).request env nt (nets i) (m.apart.requests (gs i).request) [] := rfl
  rw [h0, ← this]
  exact ⟨by rw [← ht.traces], ha.signon, ha.version, ha.url⟩

/-- C97: at any moment what a goroutine has done on the network is the beginning of what the call
does with nobody else about, also if messages are shared. -/
theorem C97_so_far (env : Env) (nt : NameTable) (nets : Nat → Net) (gs : Nat → Goroutine) (m : SMem)
    (distinct : ∀ i j, i ≠ j → (gs i).request ≠ (gs j).request) (sched : List Nat) (i : Nat) :
    ((startedS env nt gs m).run nets sched).traces i <+:
      (((gs i).kind.client (m.clients (gs i).client)).request env nt (nets i) (m.request (gs i).request) []).2.2 := by
  obtain ⟨done, ht⟩ := together_run distinct nets sched (started_together env nt gs m)
  rw [ht.traces]
  exact C72_so_far env nt nets gs m.apart distinct sched i

/-- C97: nor does a goroutine wait for another if messages are shared. -/
theorem C97_finishes (env : Env) (nt : NameTable) (nets : Nat → Net) (gs : Nat → Goroutine) (m : SMem)
    (distinct : ∀ i j, i ≠ j → (gs i).request ≠ (gs j).request) (i : Nat) :
    ∃ n, ∀ sched : List Nat, (∃ x, ((startedS env nt gs m).run nets sched).progs i = .ret x) ↔ n ≤ sched.count i := by
  obtain ⟨n, hn⟩ := C72_finishes env nt nets gs m.apart distinct i
  refine ⟨n, fun sched => ?_⟩
  rw [← hn sched]
  obtain ⟨done, ht⟩ := together_run distinct nets sched (started_together env nt gs m)
  exact exists_congr fun x => sim_ret (ht.progs i) x

/-- C97: at any moment each message is as it was, but that a profile request may have got its
client routing, as it does when it is sent by one goroutine. -/
theorem C97_messages_kept (env : Env) (nt : NameTable) (nets : Nat → Net) (gs : Nat → Goroutine) (m : SMem)
    (distinct : ∀ i j, i ≠ j → (gs i).request ≠ (gs j).request) (sched : List Nat) (p : Nat) :
    ((startedS env nt gs m).run nets sched).mem.messages p = m.messages p ∨
    ∃ q, m.messages p = .profileRequest q ∧
      ((startedS env nt gs m).run nets sched).mem.messages p = .profileRequest { q with ClientRouting := "NONE".toList } := by
  obtain ⟨done, ht⟩ := together_run distinct nets sched (started_together env nt gs m)
  rcases ht.cells p with h | h
  · exact .inl h
  · rw [h]
    cases hm : m.messages p with
    | profileRequest q =>
      have hc : (Message.profileRequest q).checked = .profileRequest (q.valid 0).2 := rfl
      rw [hc]
      unfold ProfileRequest.valid
      cases UID.valid q.TrnUID with
      | some e => exact .inl rfl
      | none => exact .inr ⟨q, rfl, rfl⟩
    | _ => exact .inl rfl

/-- Two requests that hold one profile request, the first of them twice. -/
def sharedProfile : SMem :=
  let r (l : List Nat) : Request Nat := ⟨"https://example.com".toList, 11, sampleSignon, fun s => if s = .prof then l else [], false, true⟩
  ⟨fun _ => sampleClient, fun a => if a = 0 then r [3, 3] else r [3],
    fun _ => .profileRequest ⟨"12345678901234567890".toList, [], [], [], GoTime.zero⟩⟩

/-- Two goroutines sharing a client and a profile request: both return, and the second has returned
what it does alone. -/
example (env : Env) (nt : NameTable) (nets : Nat → Net) : ∃ sched x y,
    ((startedS env nt (fun i => ⟨.basic, 7, i⟩) sharedProfile).run nets sched).progs 0 = .ret x ∧
    ((startedS env nt (fun i => ⟨.basic, 7, i⟩) sharedProfile).run nets sched).progs 1 = .ret y ∧
    y = ((Client.basic sampleClient).request env nt (nets 1) (sharedProfile.request 1) []).1 := by
  have distinct : ∀ i j : Nat, i ≠ j → i ≠ j := fun _ _ h => h
  obtain ⟨n0, h0⟩ := C97_finishes env nt nets (fun i => ⟨.basic, 7, i⟩) sharedProfile distinct 0
  obtain ⟨n1, h1⟩ := C97_finishes env nt nets (fun i => ⟨.basic, 7, i⟩) sharedProfile distinct 1
  obtain ⟨x, hx⟩ := (h0 ([0, 1, 0, 1] ++ (List.replicate n0 0 ++ List.replicate n1 1))).mpr (by
    rw [List.count_append, List.count_append, List.count_replicate_self]; omega)
  obtain ⟨y, hy⟩ := (h1 ([0, 1, 0, 1] ++ (List.replicate n0 0 ++ List.replicate n1 1))).mpr (by
    rw [List.count_append, List.count_append, List.count_replicate_self]; omega)
  refine ⟨_, x, y, hx, hy, ?_⟩
  exact congrArg Prod.fst (C97_as_alone env nt nets _ sharedProfile distinct _ 1 y hy).1

/-! ### Data races -/

/-- What a program for the request at `a` accesses: clients, to read them, that request, and
messages of that request. -/
theorem touches_sim {α : Type} {a : Nat} {done : MsgSet → Nat → Bool} {p : SProg α} {p' : Prog α} (h : Sim a done p p') (m : SMem)
    (x : Place × Bool) (hx : x ∈ touches m p) :
    (∃ c, x = (.client c, false)) ∨ (∃ w, x = (.request a, w)) ∨
      ∃ s i q w, m.pointer a s i = some q ∧ x = (.message q, w) ∧ (w = true → writesMessage (m.messages q) = true) := by
  cases h with
  | settings => simp only [touches, List.mem_singleton] at hx; exact .inl ⟨_, hx⟩
  | get => simp only [touches, List.mem_singleton] at hx; exact .inr (.inl ⟨_, hx⟩)
  | set => simp only [touches, List.mem_singleton] at hx; exact .inr (.inl ⟨_, hx⟩)
  | msg _ s i =>
    simp only [touches, List.mem_cons, List.mem_map, Option.mem_toList] at hx
    rcases hx with hx | ⟨q, hq, rfl⟩
    · exact .inr (.inl ⟨_, hx⟩)
    · exact .inr (.inr ⟨s, i, q, _, hq, rfl, fun h => by cases h⟩)
  | setMsg _ s i =>
    simp only [touches, List.mem_cons, List.mem_map, Option.mem_toList] at hx
    rcases hx with hx | ⟨q, hq, rfl⟩
    · exact .inr (.inl ⟨_, hx⟩)
    · exact .inr (.inr ⟨s, i, q, _, hq, rfl, fun h => h⟩)
  | ret | clock | send | close => simp only [touches, List.not_mem_nil] at hx

theorem writes_checked (m : Message) : writesMessage m.checked = writesMessage m := by
  cases m <;> first | rfl | skip
  rename_i m
  show (UID.valid (m.valid 0).2.TrnUID == none) = (UID.valid m.TrnUID == none)
  unfold ProfileRequest.valid
  cases h : UID.valid m.TrnUID <;> simp [h]

/-- C97: no schedule leads to a data race, unless two requests hold the same profile request.
Missing: those, where it is false: see C97_race. -/
theorem C97_no_race_partial (env : Env) (nt : NameTable) (nets : Nat → Net) (gs : Nat → Goroutine) (m : SMem)
    (distinct : ∀ i j, i ≠ j → (gs i).request ≠ (gs j).request)
    (shared : ∀ i j s t p, i ≠ j → p ∈ (m.requests (gs i).request).sets s → p ∈ (m.requests (gs j).request).sets t →
      ∀ q, m.messages p ≠ .profileRequest q) (sched : List Nat) :
    ¬ Race ((startedS env nt gs m).run nets sched) := by
  obtain ⟨done, ht⟩ := together_run distinct nets sched (started_together env nt gs m)
  generalize (startedS env nt gs m).run nets sched = s at ht
  have hptr : ∀ i t n p, s.mem.pointer (gs i).request t n = some p → p ∈ (m.requests (gs i).request).sets t := by
    intro i t n p h
    unfold SMem.pointer at h
    rw [ht.same i] at h
    exact List.mem_of_getElem? h
  have hw : ∀ p, writesMessage (s.mem.messages p) = true → ∃ q, m.messages p = .profileRequest q := by
    intro p h
    have : writesMessage (m.messages p) = true := by
      rcases ht.cells p with e | e
      · rw [← e]; exact h
      · rw [e, writes_checked] at h; exact h
    cases hm : m.messages p with
    | profileRequest q => exact ⟨q, rfl⟩
    | _ => rw [hm] at this; cases this
  rintro ⟨i, j, hij, x, hx, y, hy, hxy, hw'⟩
  rcases touches_sim (ht.progs i) _ x hx with ⟨c, rfl⟩ | ⟨w, rfl⟩ | ⟨t, n, p, w, hp, rfl, hpw⟩
  · rcases touches_sim (ht.progs j) _ y hy with ⟨c', rfl⟩ | ⟨w, rfl⟩ | ⟨t, n, p, w, hp, rfl, hpw⟩
    · simp at hw'
    · cases hxy
    · cases hxy
  · rcases touches_sim (ht.progs j) _ y hy with ⟨c', rfl⟩ | ⟨w', rfl⟩ | ⟨t, n, p, w', hp, rfl, hpw⟩
    · cases hxy
    · exact distinct i j hij (Place.request.inj hxy)
    · cases hxy
  · rcases touches_sim (ht.progs j) _ y hy with ⟨c', rfl⟩ | ⟨w', rfl⟩ | ⟨t', n', p', w', hp', rfl, hpw'⟩
    · cases hxy
    · cases hxy
    · obtain rfl : p = p' := Place.message.inj hxy
      have : ∃ q, m.messages p = .profileRequest q := by
        rcases hw' with h | h
        · exact hw p (hpw h)
        · exact hw p (hpw' h)
      obtain ⟨q, hq⟩ := this
      exact shared i j t t' p hij (hptr i t n p hp) (hptr j t' n' p hp') q hq

/-- C72: no schedule leads to a data race if the requests, and the messages in them, are different,
whatever clients the goroutines share.  (So Go's memory model promises that nothing happens but
what some schedule makes happen.) -/
theorem C72_no_race (env : Env) (nt : NameTable) (nets : Nat → Net) (gs : Nat → Goroutine) (m : SMem)
    (distinct : ∀ i j, i ≠ j → (gs i).request ≠ (gs j).request)
    (own : ∀ i j s t p, i ≠ j → p ∈ (m.requests (gs i).request).sets s → p ∉ (m.requests (gs j).request).sets t) (sched : List Nat) :
    ¬ Race ((startedS env nt gs m).run nets sched) :=
  C97_no_race_partial env nt nets gs m distinct (fun i j s t p hij h1 h2 => absurd h2 (own i j s t p hij h1)) sched

/-- The message a goroutine is about to validate. -/
def validating {α : Type} (m : SMem) : SProg α → Option Nat
  | .setMsg a s i _ _ => m.pointer a s i
  | _ => none

theorem validating_touches {α : Type} {m : SMem} {p : SProg α} {q : Nat} (h : validating m p = some q) :
    (.message q, writesMessage (m.messages q)) ∈ touches m p := by
  cases p <;> first | (cases h) | skip
  rename_i a s i f k
  have h : m.pointer a s i = some q := h
  simp [touches, h]

/-- C97, where the code violates it: two goroutines that send a profile request in different
requests can come to write it at the same time, a data race. -/
theorem C97_race : ∃ env nt nets m sched,
    (∃ q, (m.request 0).sets .prof = [.profileRequest q, .profileRequest q] ∧ (m.request 1).sets .prof = [.profileRequest q]) ∧
    Race ((startedS env nt (fun i => ⟨.basic, 7, i⟩) m).run nets sched) := by
  refine ⟨sampleEnv, ⟨fun _ => false, fun _ => false⟩, fun _ => constNet GoTime.zero ⟨200, [], 7, [], [], []⟩, sharedProfile,
    List.replicate 48 0 ++ List.replicate 48 1, ⟨_, rfl, rfl⟩, 0, 1, by decide, _, validating_touches (q := 3) (by decide +kernel), _,
    validating_touches (q := 3) (by decide +kernel), rfl, .inl (by decide +kernel)⟩

/-- A statement request may be shared: requests that meet the hypotheses of C97_no_race_partial. -/
example (env : Env) (nt : NameTable) (nets : Nat → Net) (sched : List Nat) : ∃ m : SMem,
    (∃ q, (m.request 0).sets .bank = [.statementRequest q] ∧ (m.request 1).sets .bank = [.statementRequest q]) ∧
    ¬ Race ((startedS env nt (fun i => ⟨.vanguard, 7, i⟩) m).run nets sched) := by
  let m : SMem := ⟨fun _ => sampleClient,
    fun _ => ⟨"https://example.com".toList, 11, sampleSignon, fun s => if s = .bank then [3] else [], false, true⟩,
    fun _ => .statementRequest sampleStatementRequest⟩
  exact ⟨m, ⟨_, rfl, rfl⟩, C97_no_race_partial env nt nets _ m (fun _ _ h => h) (fun _ _ _ _ _ _ _ _ q h => by cases h) sched⟩

end Ofx.Props
