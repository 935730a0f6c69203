import Verif.Model.Sharing
import Verif.Lemmas.Concurrent
/-
Goroutines whose requests share messages do what they do with messages of their own.
-/
namespace Ofx

/-! ### Messages -/

/-- A message after Valid. -/
def Message.checked (m : Message) : Message := (m.valid 0).2

theorem profile_valid_again (v : Nat) (m : ProfileRequest) : ((m.valid 0).2.valid v) = ((m.valid v).1, (m.valid 0).2) ∧ (m.valid v).2 = (m.valid 0).2 := by
  unfold ProfileRequest.valid
  constructor
  · cases h : UID.valid m.TrnUID <;> simp [h]
  · cases h : UID.valid m.TrnUID <;> simp

theorem valid_checked (v : Nat) (m : Message) : (MessageImpl.valid v m).2 = m.checked := by
  cases m <;> rfl

theorem valid_of_checked (v : Nat) (m : Message) : (MessageImpl.valid v m.checked).1 = (MessageImpl.valid v m).1 := by
  cases m <;> first | rfl | skip
  rename_i m
  show ((m.valid 0).2.valid v).1.map Err.plain = (m.valid v).1.map Err.plain
  rw [(profile_valid_again v m).1]

theorem checked_checked (m : Message) : m.checked.checked = m.checked := by
  cases m <;> first | rfl | skip
  rename_i m
  show Message.profileRequest ((m.valid 0).2.valid 0).2 = Message.profileRequest (m.valid 0).2
  rw [(profile_valid_again 0 m).1]

theorem type_checked (m : Message) : MessageImpl.type m.checked = MessageImpl.type m := by
  cases m <;> rfl

/-! ### Programs -/

/-- Two requests are alike but for their messages. -/
structure Agree (r : Request Nat) (r' : Request Message) : Prop where
  url : r.url = r'.url
  version : r.version = r'.version
  signon : r.signon = r'.signon
  indent : r.indent = r'.indent
  carriageReturn : r.carriageReturn = r'.carriageReturn
  lengths : ∀ s, (r.sets s).length = (r'.sets s).length

/-- The message `m` after it has been validated, or before. -/
def Message.after (done : Bool) (m : Message) : Message := if done then m.checked else m

/-- A program for shared messages and one for messages of one's own do the same; `done` says which
messages of the request at `a` the latter has validated. -/
inductive Sim {α : Type} (a : Nat) : (MsgSet → Nat → Bool) → SProg α → Prog α → Prop
  | ret (done x) : Sim a done (.ret x) (.ret x)
  | settings (done c k k') : (∀ bc, Sim a done (k bc) (k' bc)) → Sim a done (.settings c k) (.settings c k')
  | get (done k k') : (∀ r r', Agree r r' → Sim a done (k r) (k' r')) → Sim a done (.get a k) (.get a k')
  | set (done f f' k k') : (∀ r r', Agree r r' → Agree (f r) (f' r')) → (∀ r, (f r).sets = r.sets) → (∀ r, (f' r).sets = r.sets) →
      Sim a done k k' → Sim a done (.set a f k) (.set a f' k')
  | msg (done s i k k') : (∀ r', (r'.sets s)[i]? = none → Sim a done (k none) (k' r')) →
      (∀ r' m v, (r'.sets s)[i]? = some (m.after (done s i)) → (v = m ∨ v = m.checked) → (done s i = true → v = m.checked) →
        Sim a done (k (some v)) (k' r')) → Sim a done (.msg a s i k) (.get a k')
  | setMsg (done s i f f' k k') : (∀ m, f m = m.checked) → (∀ r, f' r = { r with sets := Function.update r.sets s ((r.sets s).modify i f) }) →
      Sim a (Function.update done s (Function.update (done s) i true)) k k' → Sim a done (.setMsg a s i f k) (.set a f' k')
  | clock (done k k') : (∀ t, Sim a done (k t) (k' t)) → Sim a done (.clock k) (.clock k')
  | send (done c k k') : (∀ r, Sim a done (k r) (k' r)) → Sim a done (.send c k) (.send c k')
  | close (done id k k') : Sim a done k k' → Sim a done (.close id k) (.close id k')

section
variable {α : Type}

theorem setClientFields_sim (c a : Nat) (done : MsgSet → Nat → Bool) (k : SProg α) (k' : Prog α) (hk : Sim a done k k') :
    Sim a done (setClientFieldsS c a k) (setClientFieldsProg c a k') := by
  unfold setClientFieldsS setClientFieldsProg
  refine .clock _ _ _ fun now => .set _ _ _ _ _ ?_ (fun _ => rfl) (fun _ => rfl) <|
    .settings _ _ _ _ fun b1 => .set _ _ _ _ _ ?_ (fun _ => rfl) (fun _ => rfl) <|
    .settings _ _ _ _ fun b2 => .set _ _ _ _ _ ?_ (fun _ => rfl) (fun _ => rfl) <|
    .settings _ _ _ _ fun b3 => .set _ _ _ _ _ ?_ (fun _ => rfl) (fun _ => rfl) <|
    .settings _ _ _ _ fun b4 => .set _ _ _ _ _ ?_ (fun _ => rfl) (fun _ => rfl) <|
    .settings _ _ _ _ fun b5 => .set _ _ _ _ _ ?_ (fun _ => rfl) (fun _ => rfl) hk
  all_goals
    intro r r' h
    obtain ⟨h1, h2, h3, h4, h5, h6⟩ := h
    constructor <;> first | assumption | rfl | (simp only [h3])

theorem messages_sim (a version : Nat) (s : MsgSet) (set : MsgType) (i n : Nat) (acc : List Node) (k : Except Err (List Node) → SProg α)
    (k' : Except Err (List Node) → Prog α) (hk : ∀ done x, Sim a done (k x) (k' x)) (done : MsgSet → Nat → Bool) :
    Sim a done (messagesS a version s set i n acc k) (messagesProg a version s set i n acc k') := by
  induction n generalizing i acc done with
  | zero => exact hk ..
  | succ n ih =>
    unfold messagesS messagesProg
    refine .msg _ _ _ _ _ (fun r' h => by rw [h]; exact hk ..) fun r' m v h h1 _ => ?_
    rw [h]
    simp only
    have hv : MessageImpl.type v = MessageImpl.type (m.after (done s i)) ∧
        (MessageImpl.valid version v).1 = (MessageImpl.valid version (m.after (done s i))).1 := by
      unfold Message.after
      rcases h1 with rfl | rfl <;> cases done s i <;> simp [type_checked, valid_of_checked]
    rw [hv.1, hv.2]
    by_cases ht : MessageImpl.type (m.after (done s i)) ≠ set
    · rw [if_pos ht, if_pos ht]
      exact hk ..
    · rw [if_neg ht, if_neg ht]
      refine .setMsg _ _ _ _ _ _ _ (valid_checked version) (fun r => rfl) ?_
      cases (MessageImpl.valid version (m.after (done s i))).1 with
      | some e => exact hk ..
      | none =>
        refine .msg _ _ _ _ _ (fun r' h => by rw [h]; exact hk ..) fun r' m v h h1 h2 => ?_
        rw [h]
        rw [Function.update_self, Function.update_self] at h2 ⊢
        rw [h2 rfl]
        simp only [Message.after, if_true]
        cases MessageImpl.encode m.checked with
        | error e => exact hk ..
        | ok ns => exact ih ..

theorem sets_sim (a : Nat) (ss : List MsgSet) (acc : List Node) (k : Except Err (List Node) → SProg α)
    (k' : Except Err (List Node) → Prog α) (hk : ∀ done x, Sim a done (k x) (k' x)) (done : MsgSet → Nat → Bool) :
    Sim a done (setsS a ss acc k) (setsProg a ss acc k') := by
  induction ss generalizing acc done with
  | nil => exact hk ..
  | cons s ss ih =>
    unfold setsS setsProg
    refine .get _ _ _ fun r r' h => .get _ _ _ fun q q' h2 => ?_
    rw [h.lengths s, h2.version]
    by_cases hl : (r'.sets s).length > 0
    · rw [if_pos hl, if_pos hl]
      refine messages_sim _ _ _ _ _ _ _ _ _ (fun done x => ?_) _
      cases x with
      | error e => exact hk ..
      | ok ns => exact ih ..
    · rw [if_neg hl, if_neg hl]
      exact ih ..

theorem marshal_sim (a : Nat) (k : Except Err Doc → SProg α) (k' : Except Err Doc → Prog α) (hk : ∀ done x, Sim a done (k x) (k' x))
    (done : MsgSet → Nat → Bool) : Sim a done (marshalS a k) (marshalProg a k') := by
  unfold marshalS marshalProg
  refine .get _ _ _ fun r1 q1 h1 => .get _ _ _ fun r2 q2 h2 => .get _ _ _ fun r3 q3 h3 => .get _ _ _ fun r4 q4 h4 =>
    .get _ _ _ fun r5 q5 h5 => .get _ _ _ fun r6 q6 h6 => .get _ _ _ fun r7 q7 h7 =>
    .set _ _ _ _ _ ?_ (fun _ => rfl) (fun _ => rfl) ?_
  · intro r r' h
    obtain ⟨g1, g2, g3, g4, g5, g6⟩ := h
    constructor <;> first | assumption | (simp only [g3, h6.version])
  · rw [h7.signon, h6.version]
    cases (q7.signon.valid q6.version).1 with
    | some e => exact hk ..
    | none =>
      refine .get _ _ _ fun r8 q8 h8 => ?_
      rw [h8.signon]
      cases encodeAs "SONRQ".toList q8.signon with
      | error e => exact hk ..
      | ok ns =>
        refine sets_sim _ _ _ _ _ (fun done x => ?_) _
        cases x with
        | error e => exact hk ..
        | ok rest =>
          simp only
          rw [h1.version, h2.carriageReturn, h3.indent, h4.carriageReturn, h5.version]
          exact hk ..

theorem send_sim (kd : Kind) (c a : Nat) (k : RawResult → SProg α) (k' : RawResult → Prog α) (hk : ∀ done x, Sim a done (k x) (k' x))
    (done : MsgSet → Nat → Bool) : Sim a done (sendS kd c a k) (sendProg kd c a k') := by
  unfold sendS sendProg
  refine marshal_sim _ _ _ (fun done x => ?_) _
  cases x with
  | error e => exact hk ..
  | ok d =>
    refine .get _ _ _ fun r r' h => .settings _ _ _ _ fun bc => ?_
    rw [h.url]
    refine .send _ _ _ _ fun res => ?_
    cases kd with
    | basic => exact hk ..
    | discover => exact hk ..
    | vanguard =>
      cases res.1 with
      | none => exact hk ..
      | some resp =>
        simp only
        by_cases hc : resp.contentLength ≤ 0 ∧ resp.cookies.length > 0
        · rw [if_pos hc, if_pos hc]
          refine marshal_sim _ _ _ (fun done x => ?_) _
          cases x with
          | error e => exact hk ..
          | ok d =>
            refine .get _ _ _ fun r r' h => ?_
            rw [h.url]
            exact .send _ _ _ _ fun res => hk ..
        · rw [if_neg hc, if_neg hc]
          exact hk ..

theorem request_sim (env : Env) (nt : NameTable) (kd : Kind) (c a : Nat) (done : MsgSet → Nat → Bool) :
    Sim a done (requestS env nt kd c a) (requestProg env nt kd c a) := by
  unfold requestS requestProg requestNoParseProg
  refine setClientFields_sim _ _ _ _ _ (send_sim _ _ _ _ _ (fun done x => ?_) _)
  obtain ⟨resp, e⟩ := x
  cases e with
  | some e => exact .ret ..
  | none =>
    cases resp with
    | none => exact .ret ..
    | some resp =>
      simp only
      obtain ⟨res, e⟩ := parseResponse env nt resp.body
      cases e <;> exact .close _ _ _ _ (.ret ..)

/-! ### Goroutines -/

/-- Goroutines that share messages, and goroutines with messages of their own, at the same point.
`base` is what the messages were in the beginning. -/
structure Together (base : Nat → Message) (lists : Nat → MsgSet → List Nat) (req : Nat → Nat) (done : Nat → MsgSet → Nat → Bool) (s : SRunning α)
    (u : Running α) : Prop where
  progs : ∀ i, Sim (req i) (done i) (s.progs i) (u.progs i)
  traces : s.traces = u.traces
  clients : s.mem.clients = u.mem.clients
  requests : ∀ i, Agree (s.mem.requests (req i)) (u.mem.requests (req i))
  own : ∀ i t j p, s.mem.pointer (req i) t j = some p → ((u.mem.requests (req i)).sets t)[j]? = some ((base p).after (done i t j))
  cells : ∀ p, s.mem.messages p = base p ∨ s.mem.messages p = (base p).checked
  ahead : ∀ i t j p, s.mem.pointer (req i) t j = some p → done i t j = true → s.mem.messages p = (base p).checked
  same : ∀ i, (s.mem.requests (req i)).sets = lists i

theorem pointer_none {r : Request Nat} {r' : Request Message} (h : Agree r r') (t : MsgSet) (j : Nat) :
    (r.sets t)[j]? = none ↔ (r'.sets t)[j]? = none := by
  rw [List.getElem?_eq_none_iff, List.getElem?_eq_none_iff, h.lengths t]

theorem step_s (nets : Nat → Net) (s : SRunning α) (i : Nat) {p : SProg α} {m : SMem} {tr : Trace}
    (h : (s.progs i).step (nets i) s.mem (s.traces i) = (p, m, tr)) :
    s.step nets i = ⟨m, Function.update s.progs i p, Function.update s.traces i tr⟩ := by
  unfold SRunning.step
  rw [h]

theorem step_u (nets : Nat → Net) (s : Running α) (i : Nat) {p : Prog α} {m : Mem} {tr : Trace}
    (h : (s.progs i).step (nets i) s.mem (s.traces i) = (p, m, tr)) :
    s.step nets i = ⟨m, Function.update s.progs i p, Function.update s.traces i tr⟩ := by
  unfold Running.step
  rw [h]

/-- A step that changes no request and no message. -/
theorem together_same {base : Nat → Message} {lists : Nat → MsgSet → List Nat} {req : Nat → Nat} {done : Nat → MsgSet → Nat → Bool} {s : SRunning α} {u : Running α}
    (h : Together base lists req done s u) (i : Nat) (p : SProg α) (p' : Prog α) (tr : Trace) (hp : Sim (req i) (done i) p p') :
    Together base lists req done ⟨s.mem, Function.update s.progs i p, Function.update s.traces i tr⟩
      ⟨u.mem, Function.update u.progs i p', Function.update u.traces i tr⟩ := by
  refine ⟨fun j => ?_, by simp only [h.traces], h.clients, h.requests, h.own, h.cells, h.ahead, h.same⟩
  by_cases e : j = i
  · subst e
    simp only [Function.update_self]
    exact hp
  · simp only [Function.update_of_ne e]
    exact h.progs j

theorem together_step {base : Nat → Message} {lists : Nat → MsgSet → List Nat} {req : Nat → Nat} (distinct : ∀ i j, i ≠ j → req i ≠ req j) (nets : Nat → Net)
    {done : Nat → MsgSet → Nat → Bool} {s : SRunning α} {u : Running α} (h : Together base lists req done s u) (i : Nat) :
    ∃ done', Together base lists req done' (s.step nets i) (u.step nets i) := by
  have hp := h.progs i
  have ht : s.traces i = u.traces i := by rw [h.traces]
  generalize hsp : s.progs i = sp at hp
  generalize hup : u.progs i = up at hp
  generalize hd : done i = d at hp
  cases hp with
  | ret _ x =>
    refine ⟨done, ?_⟩
    rw [step_s nets s i (by rw [hsp]), step_u nets u i (by rw [hup]), ht]
    exact together_same h i _ _ _ (.ret ..)
  | settings _ c k k' hk =>
    refine ⟨done, ?_⟩
    rw [step_s nets s i (by rw [hsp]), step_u nets u i (by rw [hup]), ht]
    exact together_same h i _ _ _ (by
      rw [hd]
      show Sim _ _ (k (s.mem.clients c)) (k' (u.mem.clients c))
      rw [h.clients]
      exact hk _)
  | get _ k k' hk =>
    refine ⟨done, ?_⟩
    rw [step_s nets s i (by rw [hsp]), step_u nets u i (by rw [hup]), ht]
    exact together_same h i _ _ _ (by rw [hd]; exact hk _ _ (h.requests i))
  | clock _ k k' hk =>
    refine ⟨done, ?_⟩
    rw [step_s nets s i (by rw [hsp]), step_u nets u i (by rw [hup]), ht]
    exact together_same h i _ _ _ (by rw [hd]; exact hk _)
  | send _ c k k' hk =>
    refine ⟨done, ?_⟩
    rw [step_s nets s i (by rw [hsp]), step_u nets u i (by rw [hup]), ht]
    exact together_same h i _ _ _ (by rw [hd]; exact hk _)
  | close _ id k k' hk =>
    refine ⟨done, ?_⟩
    rw [step_s nets s i (by rw [hsp]), step_u nets u i (by rw [hup]), ht]
    exact together_same h i _ _ _ (by rw [hd]; exact hk)
  | msg _ t j k k' h1 h2 =>
    refine ⟨done, ?_⟩
    rw [step_s nets s i (by rw [hsp]), step_u nets u i (by rw [hup]), ht]
    refine together_same h i _ _ _ ?_
    rw [hd]
    show Sim _ d (k ((s.mem.pointer (req i) t j).map s.mem.messages)) (k' (u.mem.requests (req i)))
    cases hq : s.mem.pointer (req i) t j with
    | none => exact h1 _ ((pointer_none (h.requests i) t j).mp hq)
    | some p =>
      refine h2 _ (base p) _ ?_ (h.cells p) (fun e => h.ahead i t j p hq (by rw [hd]; exact e))
      rw [← hd]
      exact h.own i t j p hq
  | set _ f f' k k' h1 h2 h3 h4 =>
    refine ⟨done, ?_⟩
    rw [step_s nets s i (by rw [hsp]), step_u nets u i (by rw [hup]), ht]
    simp only [SProg.step, Prog.step]
    have hs : ∀ j t n, (SMem.mk s.mem.clients (Function.update s.mem.requests (req i) (f (s.mem.requests (req i)))) s.mem.messages).pointer (req j) t n =
        s.mem.pointer (req j) t n := by
      intro j t n
      unfold SMem.pointer
      by_cases e : j = i
      · subst e
        simp only [Function.update_self, h2]
      · simp only [Function.update_of_ne (distinct j i e)]
    refine ⟨fun j => ?_, by simp only [h.traces], h.clients, fun j => ?_, fun j t n p hq => ?_, h.cells, fun j t n p hq => ?_, fun j => ?_⟩
    · by_cases e : j = i
      · subst e
        simp only [Function.update_self]
        rw [hd]
        exact h4
      · simp only [Function.update_of_ne e]
        exact h.progs j
    · by_cases e : j = i
      · subst e
        simp only [Function.update_self]
        exact h1 _ _ (h.requests j)
      · simp only [Function.update_of_ne (distinct j i e)]
        exact h.requests j
    · rw [hs] at hq
      rw [← h.own j t n p hq]
      by_cases e : j = i
      · subst e
        simp only [Function.update_self, h3]
      · simp only [Function.update_of_ne (distinct j i e)]
    · rw [hs] at hq
      exact h.ahead j t n p hq
    · by_cases e : j = i
      · subst e
        simp only [Function.update_self, h2]
        exact h.same j
      · simp only [Function.update_of_ne (distinct j i e)]
        exact h.same j
  | setMsg _ t n f f' k k' h1 h2 h3 =>
    refine ⟨Function.update done i (Function.update d t (Function.update (d t) n true)), ?_⟩
    have hagree : Agree (s.mem.requests (req i)) (f' (u.mem.requests (req i))) := by
      obtain ⟨g1, g2, g3, g4, g5, g6⟩ := h.requests i
      rw [h2]
      refine ⟨g1, g2, g3, g4, g5, fun t' => ?_⟩
      by_cases e : t' = t
      · subst e
        simp only [Function.update_self, List.length_modify]
        exact g6 t'
      · simp only [Function.update_of_ne e]
        exact g6 t'
    have hown : ∀ j t' n' p, s.mem.pointer (req j) t' n' = some p →
        ((Function.update u.mem.requests (req i) (f' (u.mem.requests (req i))) (req j)).sets t')[n']? =
          some ((base p).after (Function.update done i (Function.update d t (Function.update (d t) n true)) j t' n')) := by
      intro j t' n' p hq
      by_cases e : j = i
      · subst e
        rw [Function.update_self, Function.update_self, h2]
        by_cases et : t' = t
        · subst et
          simp only [Function.update_self]
          rw [List.getElem?_modify, h.own j t' n' p hq]
          by_cases en : n = n'
          · subst en
            rw [Function.update_self]
            simp only [Option.map_eq_map, Option.map_some, h1, Message.after, if_true]
            cases done j t' n <;> simp [checked_checked]
          · rw [Function.update_of_ne (Ne.symm en), hd]
            simp only [if_neg en]
            rfl
        · simp only [Function.update_of_ne et]
          rw [h.own j t' n' p hq, hd]
      · rw [Function.update_of_ne (distinct j i e), Function.update_of_ne e]
        exact h.own j t' n' p hq
    have hprogs : ∀ j, Sim (req j) (Function.update done i (Function.update d t (Function.update (d t) n true)) j)
        (Function.update s.progs i k j) (Function.update u.progs i k' j) := by
      intro j
      by_cases e : j = i
      · subst e
        simp only [Function.update_self]
        exact h3
      · simp only [Function.update_of_ne e]
        exact h.progs j
    have hreq : ∀ j, Agree (s.mem.requests (req j)) (Function.update u.mem.requests (req i) (f' (u.mem.requests (req i))) (req j)) := by
      intro j
      by_cases e : j = i
      · subst e
        rw [Function.update_self]
        exact hagree
      · rw [Function.update_of_ne (distinct j i e)]
        exact h.requests j
    cases hq : s.mem.pointer (req i) t n with
    | none =>
      rw [step_s nets s i (p := k) (m := s.mem) (tr := s.traces i) (by rw [hsp]; simp only [SProg.step, hq]),
        step_u nets u i (by rw [hup]), ht]
      simp only [Prog.step]
      refine ⟨hprogs, by simp only [h.traces], h.clients, hreq, hown, h.cells, fun j t' n' p hq' hd' => ?_, h.same⟩
      by_cases e : j = i
      · subst e
        rw [Function.update_self] at hd'
        refine h.ahead j t' n' p hq' ?_
        by_cases et : t' = t
        · subst et
          rw [Function.update_self] at hd'
          by_cases en : n' = n
          · subst en
            rw [hq] at hq'
            cases hq'
          · rw [Function.update_of_ne en] at hd'
            rw [hd]
            exact hd'
        · rw [Function.update_of_ne et] at hd'
          rw [hd]
          exact hd'
      · rw [Function.update_of_ne e] at hd'
        exact h.ahead j t' n' p hq' hd'
    | some p =>
      rw [step_s nets s i (p := k) (m := { s.mem with messages := Function.update s.mem.messages p (f (s.mem.messages p)) }) (tr := s.traces i)
        (by rw [hsp]; simp only [SProg.step, hq]), step_u nets u i (by rw [hup]), ht]
      simp only [Prog.step]
      have hcell : f (s.mem.messages p) = (base p).checked := by
        rw [h1]
        rcases h.cells p with e | e <;> rw [e]
        exact checked_checked _
      refine ⟨hprogs, by simp only [h.traces], h.clients, hreq, hown, fun q => ?_, fun j t' n' q hq0 hd' => ?_, h.same⟩
      · by_cases e : q = p
        · subst e
          simp only [Function.update_self]
          exact .inr hcell
        · simp only [Function.update_of_ne e]
          exact h.cells q
      · have hq' : s.mem.pointer (req j) t' n' = some q := hq0
        clear hq0
        by_cases e : q = p
        · subst e
          simp only [Function.update_self]
          exact hcell
        · simp only [Function.update_of_ne e]
          by_cases ej : j = i
          · subst ej
            rw [Function.update_self] at hd'
            refine h.ahead j t' n' q hq' ?_
            by_cases et : t' = t
            · subst et
              rw [Function.update_self] at hd'
              by_cases en : n' = n
              · subst en
                rw [hq] at hq'
                cases hq'
                exact absurd rfl e
              · rw [Function.update_of_ne en] at hd'
                rw [hd]
                exact hd'
            · rw [Function.update_of_ne et] at hd'
              rw [hd]
              exact hd'
          · rw [Function.update_of_ne ej] at hd'
            exact h.ahead j t' n' q hq' hd'

theorem together_run {base : Nat → Message} {lists : Nat → MsgSet → List Nat} {req : Nat → Nat} (distinct : ∀ i j, i ≠ j → req i ≠ req j) (nets : Nat → Net)
    (sched : List Nat) {done : Nat → MsgSet → Nat → Bool} {s : SRunning α} {u : Running α} (h : Together base lists req done s u) :
    ∃ done', Together base lists req done' (s.run nets sched) (u.run nets sched) := by
  induction sched generalizing done s u with
  | nil => exact ⟨done, h⟩
  | cons i sched ih =>
    obtain ⟨done', h'⟩ := together_step distinct nets h i
    exact ih h'

end

/-- The same memory, with messages of their own for all requests. -/
def SMem.apart (m : SMem) : Mem := ⟨m.clients, m.request⟩

theorem started_together (env : Env) (nt : NameTable) (gs : Nat → Goroutine) (m : SMem) :
    Together m.messages (fun i => (m.requests (gs i).request).sets) (fun i => (gs i).request) (fun _ _ _ => false) (startedS env nt gs m) (started env nt gs m.apart) := by
  refine ⟨fun i => request_sim .., rfl, rfl, fun i => ⟨rfl, rfl, rfl, rfl, rfl, fun s => ?_⟩, fun i t j p hq => ?_, fun p => .inl rfl,
    fun i t j p hq hd => (by cases hd), fun i => rfl⟩
  · simp [startedS, started, SMem.apart, SMem.request]
  · have hq : ((m.requests (gs i).request).sets t)[j]? = some p := hq
    show (((m.requests (gs i).request).sets t).map m.messages)[j]? = _
    rw [List.getElem?_map, hq]
    rfl

end Ofx
