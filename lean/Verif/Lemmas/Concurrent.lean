import Verif.Model.Concurrent
import Verif.Lemmas.Client
/-
Goroutines with requests of their own do not disturb each other: a program run to its end alone
(`finish`), the number of steps it takes (`steps`), and that both are unchanged by steps of
programs that touch other requests.
-/
namespace Ofx
section
variable {α : Type}

/-- A program run to its end with nobody else about. -/
def Prog.finish (net : Net) : Prog α → Mem → Trace → α × Mem × Trace
  | .ret x, m, tr => (x, m, tr)
  | .settings c k, m, tr => (k (m.clients c)).finish net m tr
  | .get a k, m, tr => (k (m.requests a)).finish net m tr
  | .set a f k, m, tr =>
    k.finish net { m with requests := Function.update m.requests a (f (m.requests a)) } tr
  | .clock k, m, tr => (k net.now).finish net m tr
  | .send c k, m, tr => (k (c.make net tr).1).finish net m (c.make net tr).2
  | .close id k, m, tr => k.finish net m (tr ++ [.closed id])

/-- The number of steps until a program returns. -/
def Prog.steps (net : Net) : Prog α → Mem → Trace → Nat
  | .ret _, _, _ => 0
  | .settings c k, m, tr => (k (m.clients c)).steps net m tr + 1
  | .get a k, m, tr => (k (m.requests a)).steps net m tr + 1
  | .set a f k, m, tr =>
    k.steps net { m with requests := Function.update m.requests a (f (m.requests a)) } tr + 1
  | .clock k, m, tr => (k net.now).steps net m tr + 1
  | .send c k, m, tr => (k (c.make net tr).1).steps net m (c.make net tr).2 + 1
  | .close id k, m, tr => k.steps net m (tr ++ [.closed id]) + 1

/-- The program touches no request but the one at address a. -/
def Prog.Only (a : Nat) : Prog α → Prop
  | .ret _ => True
  | .settings _ k => ∀ x, (k x).Only a
  | .get b k => b = a ∧ ∀ x, (k x).Only a
  | .set b _ k => b = a ∧ k.Only a
  | .clock k => ∀ x, (k x).Only a
  | .send _ k => ∀ x, (k x).Only a
  | .close _ k => k.Only a

theorem messagesProg_only (a v : Nat) (s : MsgSet) (t : MsgType) (k : Except Err (List Node) → Prog α)
    (hk : ∀ x, (k x).Only a) (n : Nat) : ∀ i acc, (messagesProg a v s t i n acc k).Only a := by
  induction n with
  | zero => intro i acc; exact hk _
  | succ n ih =>
    intro i acc
    refine ⟨rfl, fun r => ?_⟩
    beta_reduce
    cases (r.sets s)[i]? with
    | none => exact hk _
    | some m =>
      simp only []
      by_cases ht : MessageImpl.type m ≠ t
      · rw [if_pos ht]; exact hk _
      · rw [if_neg ht]
        refine ⟨rfl, ?_⟩
        cases (MessageImpl.valid v m).1 with
        | some e => exact hk _
        | none =>
          refine ⟨rfl, fun r => ?_⟩
          beta_reduce
          cases (r.sets s)[i]? with
          | none => exact hk _
          | some m =>
            simp only []
            cases MessageImpl.encode m with
            | error e => exact hk _
            | ok ns => exact ih _ _

theorem setsProg_only (a : Nat) (k : Except Err (List Node) → Prog α) (hk : ∀ x, (k x).Only a)
    (ss : List MsgSet) : ∀ acc, (setsProg a ss acc k).Only a := by
  induction ss with
  | nil => intro acc; exact hk _
  | cons s ss ih =>
    intro acc
    refine ⟨rfl, fun r => ⟨rfl, fun r' => ?_⟩⟩
    beta_reduce
    by_cases hl : (r.sets s).length > 0
    · rw [if_pos hl]
      apply messagesProg_only
      intro x
      cases x with
      | error e => exact hk _
      | ok ns => exact ih _
    · rw [if_neg hl]; exact ih _

theorem marshalProg_only (a : Nat) (k : Except Err Doc → Prog α) (hk : ∀ x, (k x).Only a) :
    (marshalProg a k).Only a := by
  refine ⟨rfl, fun r1 => ⟨rfl, fun r2 => ⟨rfl, fun r3 => ⟨rfl, fun r4 => ⟨rfl, fun r5 =>
    ⟨rfl, fun r6 => ⟨rfl, fun r7 => ⟨rfl, ?_⟩⟩⟩⟩⟩⟩⟩⟩
  cases (r7.signon.valid r6.version).1 with
  | some e => exact hk _
  | none =>
    refine ⟨rfl, fun r8 => ?_⟩
    beta_reduce
    cases encodeAs "SONRQ".toList r8.signon with
    | error e => exact hk _
    | ok ns =>
      apply setsProg_only
      intro x
      cases x with
      | error e => exact hk _
      | ok rest => exact hk _

theorem requestNoParseProg_only (kd : Kind) (c a : Nat) (k : RawResult → Prog α) (hk : ∀ x, (k x).Only a) :
    (requestNoParseProg kd c a k).Only a := by
  refine fun now => ⟨rfl, fun b1 => ⟨rfl, fun b2 => ⟨rfl, fun b3 => ⟨rfl, fun b4 => ⟨rfl, fun b5 => ⟨rfl, ?_⟩⟩⟩⟩⟩⟩
  apply marshalProg_only
  intro x
  cases x with
  | error e => exact hk _
  | ok d =>
    refine ⟨rfl, fun r bc res => ?_⟩
    beta_reduce
    cases kd with
    | basic => exact hk _
    | discover => exact hk _
    | vanguard =>
      simp only []
      cases res.1 with
      | none => exact hk _
      | some resp =>
        simp only []
        by_cases hc : resp.contentLength ≤ 0 ∧ resp.cookies.length > 0
        · rw [if_pos hc]
          apply marshalProg_only
          intro x
          cases x with
          | error e => exact hk _
          | ok d => exact ⟨rfl, fun r => fun x => hk x⟩
        · rw [if_neg hc]; exact hk _

theorem requestProg_only (env : Env) (nt : NameTable) (kd : Kind) (c a : Nat) :
    (requestProg env nt kd c a).Only a := by
  apply requestNoParseProg_only
  rintro ⟨r, e⟩
  cases e with
  | some e => cases r <;> trivial
  | none =>
    cases r with
    | none => trivial
    | some resp =>
      simp only []
      rcases parseResponse env nt resp.body with ⟨res, e⟩
      cases e <;> trivial

/-- Two memories a program of the request at address a cannot tell apart. -/
def Mem.Alike (a : Nat) (m m' : Mem) : Prop := m'.clients = m.clients ∧ m'.requests a = m.requests a

theorem finish_alike (net : Net) (a : Nat) (p : Prog α) : ∀ (_ : p.Only a) (m m' : Mem) (tr : Trace),
    m.Alike a m' →
    (p.finish net m' tr).1 = (p.finish net m tr).1 ∧
    (p.finish net m' tr).2.1.requests a = (p.finish net m tr).2.1.requests a ∧
    (p.finish net m' tr).2.2 = (p.finish net m tr).2.2 ∧
    p.steps net m' tr = p.steps net m tr := by
  induction p with
  | ret x => exact fun _ m m' tr h => ⟨rfl, h.2, rfl, rfl⟩
  | settings c k ih =>
    intro ho m m' tr h
    have := ih (m.clients c) (ho _) m m' tr h
    simp only [Prog.finish, Prog.steps, h.1]
    exact ⟨this.1, this.2.1, this.2.2.1, by rw [this.2.2.2]⟩
  | get b k ih =>
    intro ho m m' tr h
    obtain ⟨rfl, ho⟩ := ho
    have := ih (m.requests b) (ho _) m m' tr h
    simp only [Prog.finish, Prog.steps, h.2]
    exact ⟨this.1, this.2.1, this.2.2.1, by rw [this.2.2.2]⟩
  | set b f k ih =>
    intro ho m m' tr h
    obtain ⟨rfl, ho⟩ := ho
    have := ih ho { m with requests := Function.update m.requests b (f (m.requests b)) }
      { m' with requests := Function.update m'.requests b (f (m'.requests b)) } tr
      ⟨h.1, by simp [h.2]⟩
    simp only [Prog.finish, Prog.steps]
    exact ⟨this.1, this.2.1, this.2.2.1, by rw [this.2.2.2]⟩
  | clock k ih =>
    intro ho m m' tr h
    have := ih net.now (ho _) m m' tr h
    simp only [Prog.finish, Prog.steps]
    exact ⟨this.1, this.2.1, this.2.2.1, by rw [this.2.2.2]⟩
  | send c k ih =>
    intro ho m m' tr h
    have := ih (c.make net tr).1 (ho _) m m' (c.make net tr).2 h
    simp only [Prog.finish, Prog.steps]
    exact ⟨this.1, this.2.1, this.2.2.1, by rw [this.2.2.2]⟩
  | close id k ih =>
    intro ho m m' tr h
    have := ih ho m m' (tr ++ [.closed id]) h
    simp only [Prog.finish, Prog.steps]
    exact ⟨this.1, this.2.1, this.2.2.1, by rw [this.2.2.2]⟩

/-- A step leaves the end of the program as it was. -/
theorem step_finish (net : Net) (p : Prog α) (m : Mem) (tr : Trace) :
    (p.step net m tr).1.finish net (p.step net m tr).2.1 (p.step net m tr).2.2 = p.finish net m tr := by
  cases p <;> rfl

/-- A step brings the end one step nearer. -/
theorem step_steps (net : Net) (p : Prog α) (m : Mem) (tr : Trace) :
    (p.step net m tr).1.steps net (p.step net m tr).2.1 (p.step net m tr).2.2 = p.steps net m tr - 1 := by
  cases p <;> rfl

theorem step_only (net : Net) (a : Nat) (p : Prog α) (m : Mem) (tr : Trace) (h : p.Only a) :
    (p.step net m tr).1.Only a := by
  cases p with
  | ret x => exact h
  | settings c k => exact h _
  | get b k => exact h.2 _
  | set b f k => exact h.2
  | clock k => exact h _
  | send c k => exact h _
  | close id k => exact h

/-- A step changes no settings and no other request. -/
theorem step_mem (net : Net) (a : Nat) (p : Prog α) (m : Mem) (tr : Trace) (h : p.Only a) :
    (p.step net m tr).2.1.clients = m.clients ∧
    ∀ b, b ≠ a → (p.step net m tr).2.1.requests b = m.requests b := by
  cases p with
  | set b f k =>
    obtain ⟨rfl, -⟩ := h
    exact ⟨rfl, fun b hb => Function.update_of_ne hb _ _⟩
  | ret x => exact ⟨rfl, fun _ _ => rfl⟩
  | settings c k => exact ⟨rfl, fun _ _ => rfl⟩
  | get b k => exact ⟨rfl, fun _ _ => rfl⟩
  | clock k => exact ⟨rfl, fun _ _ => rfl⟩
  | send c k => exact ⟨rfl, fun _ _ => rfl⟩
  | close id k => exact ⟨rfl, fun _ _ => rfl⟩

/-- Goroutine i, from here on, were it alone: what it returns, its request and what it does. -/
def Running.outcome (nets : Nat → Net) (addr : Nat → Nat) (s : Running α) (i : Nat) :
    α × Request Message × Trace :=
  let r := (s.progs i).finish (nets i) s.mem (s.traces i)
  (r.1, r.2.1.requests (addr i), r.2.2)

/-- The steps goroutine i still has to make. -/
def Running.todo (nets : Nat → Net) (s : Running α) (i : Nat) : Nat :=
  (s.progs i).steps (nets i) s.mem (s.traces i)

/-- Every goroutine touches its own request only. -/
def Running.Apart (addr : Nat → Nat) (s : Running α) : Prop := ∀ i, (s.progs i).Only (addr i)

theorem step_own (nets : Nat → Net) (s : Running α) (i : Nat) :
    (s.step nets i).progs i = ((s.progs i).step (nets i) s.mem (s.traces i)).1 ∧
    (s.step nets i).traces i = ((s.progs i).step (nets i) s.mem (s.traces i)).2.2 :=
  ⟨Function.update_self _ _ _, Function.update_self _ _ _⟩

theorem step_other (nets : Nat → Net) (s : Running α) {i j : Nat} (h : i ≠ j) :
    (s.step nets j).progs i = s.progs i ∧ (s.step nets j).traces i = s.traces i :=
  ⟨Function.update_of_ne h _ _, Function.update_of_ne h _ _⟩

theorem step_memory (nets : Nat → Net) (s : Running α) (i : Nat) :
    (s.step nets i).mem = ((s.progs i).step (nets i) s.mem (s.traces i)).2.1 := rfl

theorem running_step (nets : Nat → Net) (addr : Nat → Nat) (hd : ∀ i j, i ≠ j → addr i ≠ addr j)
    (s : Running α) (h : s.Apart addr) (j : Nat) :
    (s.step nets j).Apart addr ∧
    (∀ i, (s.step nets j).outcome nets addr i = s.outcome nets addr i) ∧
    (∀ i, (s.step nets j).todo nets i = if i = j then s.todo nets i - 1 else s.todo nets i) ∧
    (s.step nets j).mem.clients = s.mem.clients ∧
    (∀ b, b ≠ addr j → (s.step nets j).mem.requests b = s.mem.requests b) := by
  have hm := step_mem (nets j) (addr j) (s.progs j) s.mem (s.traces j) (h j)
  refine ⟨fun i => ?_, fun i => ?_, fun i => ?_, hm.1, hm.2⟩
  · by_cases hi : i = j
    · subst hi
      rw [(step_own nets s i).1]
      exact step_only _ _ _ _ _ (h i)
    · rw [(step_other nets s hi).1]
      exact h i
  · unfold Running.outcome
    by_cases hi : i = j
    · subst hi
      rw [(step_own nets s i).1, (step_own nets s i).2, step_memory, step_finish]
    · have := finish_alike (nets i) (addr i) (s.progs i) (h i) s.mem
        ((s.progs j).step (nets j) s.mem (s.traces j)).2.1 (s.traces i)
        ⟨hm.1, hm.2 _ (hd i j hi)⟩
      rw [(step_other nets s hi).1, (step_other nets s hi).2, step_memory]
      simp only []
      rw [this.1, this.2.1, this.2.2.1]
  · unfold Running.todo
    by_cases hi : i = j
    · subst hi
      rw [if_pos rfl, (step_own nets s i).1, (step_own nets s i).2, step_memory, step_steps]
    · rw [if_neg hi]
      have := finish_alike (nets i) (addr i) (s.progs i) (h i) s.mem
        ((s.progs j).step (nets j) s.mem (s.traces j)).2.1 (s.traces i)
        ⟨hm.1, hm.2 _ (hd i j hi)⟩
      rw [(step_other nets s hi).1, (step_other nets s hi).2, step_memory]
      exact this.2.2.2

theorem running_run (nets : Nat → Net) (addr : Nat → Nat) (hd : ∀ i j, i ≠ j → addr i ≠ addr j)
    (sched : List Nat) : ∀ (s : Running α), s.Apart addr →
    (s.run nets sched).Apart addr ∧
    (∀ i, (s.run nets sched).outcome nets addr i = s.outcome nets addr i) ∧
    (∀ i, (s.run nets sched).todo nets i = s.todo nets i - sched.count i) ∧
    (s.run nets sched).mem.clients = s.mem.clients ∧
    (∀ b, (∀ i ∈ sched, b ≠ addr i) → (s.run nets sched).mem.requests b = s.mem.requests b) := by
  induction sched with
  | nil => exact fun s h => ⟨h, fun _ => rfl, fun _ => rfl, rfl, fun _ _ => rfl⟩
  | cons j sched ih =>
    intro s h
    obtain ⟨h1, h2, h3, h4, h5⟩ := running_step nets addr hd s h j
    obtain ⟨g1, g2, g3, g4, g5⟩ := ih _ h1
    refine ⟨g1, fun i => (g2 i).trans (h2 i), fun i => ?_, g4.trans h4, fun b hb => ?_⟩
    · rw [show (s.run nets (j :: sched)).todo nets i = ((s.step nets j).run nets sched).todo nets i from rfl,
        g3, h3]
      by_cases hi : i = j
      · subst hi
        rw [if_pos rfl, List.count_cons_self]
        omega
      · rw [if_neg hi, List.count_cons_of_ne (Ne.symm hi)]
    · exact (g5 b fun i hi => hb i (List.mem_cons_of_mem _ hi)).trans (h5 b (hb j List.mem_cons_self))

/-- Nothing to do: the goroutine has returned. -/
theorem steps_zero (net : Net) (p : Prog α) (m : Mem) (tr : Trace) (h : p.steps net m tr = 0) :
    ∃ x, p = .ret x := by
  cases p with
  | ret x => exact ⟨x, rfl⟩
  | settings c k => simp [Prog.steps] at h
  | get b k => simp [Prog.steps] at h
  | set b f k => simp [Prog.steps] at h
  | clock k => simp [Prog.steps] at h
  | send c k => simp [Prog.steps] at h
  | close id k => simp [Prog.steps] at h

/-! ### Alone, a program does what the sequential model says -/

/-- Memory with another request at address a. -/
def Mem.put (m : Mem) (a : Nat) (r : Request Message) : Mem :=
  { m with requests := Function.update m.requests a r }

@[simp] theorem put_requests (m : Mem) (a : Nat) (r : Request Message) : (m.put a r).requests a = r :=
  Function.update_self _ _ _

@[simp] theorem put_clients (m : Mem) (a : Nat) (r : Request Message) : (m.put a r).clients = m.clients := rfl

@[simp] theorem put_put (m : Mem) (a : Nat) (r r' : Request Message) : (m.put a r).put a r' = m.put a r' := by
  simp [Mem.put]

theorem put_same (m : Mem) (a : Nat) : m.put a (m.requests a) = m := by
  simp [Mem.put]

theorem finish_set (net : Net) (a : Nat) (f : Request Message → Request Message) (k : Prog α) (m : Mem) (tr : Trace) :
    (Prog.set a f k).finish net m tr = k.finish net (m.put a (f (m.requests a))) tr := rfl

theorem setClientFieldsProg_finish (net : Net) (c a : Nat) (k : Prog α) (m : Mem) (tr : Trace) :
    (setClientFieldsProg c a k).finish net m tr =
      k.finish net (m.put a ((m.requests a).setClientFields net.now (m.clients c))) tr := by
  simp only [setClientFieldsProg, Prog.finish.eq_2, Prog.finish.eq_5, finish_set, put_requests, put_put,
    put_clients]
  rfl

theorem modify_at {β : Type} (f : β → β) (x : β) (l : List β) : ∀ pre : List β,
    (pre ++ x :: l).modify pre.length f = pre ++ f x :: l := by
  intro pre
  induction pre with
  | nil => rfl
  | cons y pre ih => simp [ih]

theorem at_length {β : Type} (x : β) (pre l : List β) : (pre ++ x :: l)[pre.length]? = some x := by
  simp

/-- The loop over the messages of a set. -/
theorem messagesProg_finish (net : Net) (a v : Nat) (s : MsgSet) (t : MsgType)
    (k : Except Err (List Node) → Prog α) (m : Mem) (tr : Trace) (ms : List Message) :
    ∀ (pre : List Message) (acc : List Node) (r : Request Message), r.sets s = pre ++ ms →
      (messagesProg a v s t pre.length ms.length acc k).finish net (m.put a r) tr =
        (k (match (encodeMessages v t ms).1 with | .error e => .error e | .ok ns => .ok (acc ++ ns))).finish net
          (m.put a { r with sets := Function.update r.sets s (pre ++ (encodeMessages v t ms).2) }) tr := by
  induction ms with
  | nil =>
    intro pre acc r hr
    have : ({ r with sets := Function.update r.sets s (pre ++ []) } : Request Message) = r := by
      rw [← hr, Function.update_eq_self]
    simp only [encodeMessages, List.append_nil, List.length_nil, messagesProg] at *
    rw [this]
  | cons x ms ih =>
    intro pre acc r hr
    have same : ({ r with sets := Function.update r.sets s (pre ++ x :: ms) } : Request Message) = r := by
      rw [← hr, Function.update_eq_self]
    rw [List.length_cons, messagesProg, Prog.finish.eq_3, put_requests, hr, at_length]
    simp only []
    rw [encodeMessages]
    by_cases ht : MessageImpl.type x ≠ t
    · rw [if_pos ht, if_pos ht, same]
    · rw [if_neg ht, if_neg ht, finish_set, put_requests, put_put, hr, modify_at]
      rcases hv : MessageImpl.valid v x with ⟨o, x'⟩
      cases o with
      | some e => rfl
      | none =>
        simp only []
        rw [Prog.finish.eq_3, put_requests]
        simp only [Function.update_self, at_length]
        cases he : MessageImpl.encode x' with
        | error e => rfl
        | ok ns =>
          simp only []
          have := ih (pre ++ [x']) (acc ++ ns)
            { r with sets := Function.update r.sets s (pre ++ x' :: ms) } (by simp)
          rw [List.length_append, List.length_singleton] at this
          rw [this]
          rcases encodeMessages v t ms with ⟨o, ms'⟩
          cases o with
          | error e => simp
          | ok rest => simp

theorem setsProg_finish (net : Net) (a : Nat) (k : Except Err (List Node) → Prog α) (m : Mem) (tr : Trace)
    (ss : List MsgSet) : ∀ (acc : List Node) (r : Request Message),
      (setsProg a ss acc k).finish net (m.put a r) tr =
        (k (match (encodeSets r.version .rq ss r.sets).1 with
            | .error e => .error e | .ok ns => .ok (acc ++ ns))).finish net
          (m.put a { r with sets := (encodeSets r.version .rq ss r.sets).2 }) tr := by
  induction ss with
  | nil =>
    intro acc r
    simp only [setsProg, encodeSets, List.append_nil]
  | cons s ss ih =>
    intro acc r
    rw [setsProg, Prog.finish.eq_3, Prog.finish.eq_3, put_requests, encodeSets, encodeMessageSet]
    by_cases hl : (r.sets s).length > 0
    · rw [if_pos hl, if_pos hl]
      have := messagesProg_finish net a r.version s (.rq s) (k := fun
          | .error e => k (.error e)
          | .ok ns => setsProg a ss (acc ++ [.elem (MsgType.rq s).string ns]) k) m tr (r.sets s) [] [] r rfl
      refine Eq.trans this ?_
      rcases encodeMessages r.version (MsgType.rq s) (r.sets s) with ⟨o, ms'⟩
      cases o with
      | error e => rfl
      | ok ns =>
        simp only [List.nil_append]
        rw [ih]
        simp only []
        rcases encodeSets r.version .rq ss (Function.update r.sets s ms') with ⟨o, g⟩
        cases o with
        | error e => rfl
        | ok rest => simp
    · rw [if_neg hl, if_neg hl, ih]
      simp only [Function.update_eq_self]
      rcases encodeSets r.version .rq ss r.sets with ⟨o, g⟩
      cases o with
      | error e => rfl
      | ok rest => simp

theorem marshalProg_finish (net : Net) (a : Nat) (k : Except Err Doc → Prog α) (m : Mem) (tr : Trace)
    (r : Request Message) :
    (marshalProg a k).finish net (m.put a r) tr = (k r.marshal.1).finish net (m.put a r.marshal.2) tr := by
  rw [marshalProg]
  simp only [Prog.finish.eq_3, put_requests, finish_set, put_put]
  unfold Request.marshal
  rcases hv : r.signon.valid r.version with ⟨o, so⟩
  cases o with
  | some e => rfl
  | none =>
    simp only []
    rw [Prog.finish.eq_3, put_requests]
    cases he : encodeAs "SONRQ".toList so with
    | error e => rfl
    | ok ns =>
      simp only []
      rw [setsProg_finish]
      simp only []
      rcases encodeSets r.version .rq MsgSet.lists r.sets with ⟨o, g⟩
      cases o with
      | error e => rfl
      | ok rest => rfl

/-- What is left after SetClientFields of a client that agrees with the one at address c in what
concerns the HTTP request. -/
theorem sendProg_finish (net : Net) (kd : Kind) (c a : Nat) (k : RawResult → Prog α) (m : Mem) (tr : Trace)
    (bc : BasicClient) (hu : bc.UserAgent = (m.clients c).UserAgent) (hh : bc.HTTPClient = (m.clients c).HTTPClient)
    (q : Request Message) :
    (sendProg kd c a k).finish net (m.put a (q.setClientFields net.now bc)) tr =
      match (kd.client bc).requestNoParse net q tr with
      | (res, r, tr) => (k res).finish net (m.put a r) tr := by
  rw [sendProg, marshalProg_finish]
  unfold Client.requestNoParse
  have hb : (kd.client bc).bc = bc := by cases kd <;> rfl
  have hr : ∀ url body, (kd.client bc).rawRequest net url body tr = (kd.client (m.clients c)).rawRequest net url body tr := by
    intro url body
    cases kd with
    | basic => simp only [Kind.client, Client.rawRequest, BasicClient.rawRequest, BasicClient.userAgentHeader, hu, hh]
    | discover => rfl
    | vanguard => simp only [Kind.client, Client.rawRequest, vanguardRawRequest, BasicClient.userAgentHeader, hu]
  rw [hb]
  rcases (q.setClientFields net.now bc).marshal with ⟨o, r⟩
  cases o with
  | error e => rfl
  | ok d =>
    simp only []
    rw [Prog.finish.eq_3, put_requests, Prog.finish.eq_2, Prog.finish.eq_6, put_clients]
    simp only [Call.make]
    rw [hr]
    rcases Client.rawRequest net (kd.client (m.clients c)) r.url d.bytes tr with ⟨⟨o, e⟩, tr1⟩
    cases kd with
    | basic => rfl
    | discover => rfl
    | vanguard =>
      simp only [Kind.client]
      cases o with
      | none => rfl
      | some resp =>
        simp only []
        by_cases hc : resp.contentLength ≤ 0 ∧ resp.cookies.length > 0
        · rw [if_pos hc, if_pos hc, marshalProg_finish]
          rcases r.marshal with ⟨o, r'⟩
          cases o with
          | error e => rfl
          | ok d =>
            simp only []
            rw [Prog.finish.eq_3, put_requests, Prog.finish.eq_6]
            rfl
        · rw [if_neg hc, if_neg hc]

theorem requestNoParseProg_finish (net : Net) (kd : Kind) (c a : Nat) (k : RawResult → Prog α) (m : Mem) (tr : Trace) :
    (requestNoParseProg kd c a k).finish net m tr =
      match (kd.client (m.clients c)).requestNoParse net (m.requests a) tr with
      | (res, r, tr) => (k res).finish net (m.put a r) tr := by
  rw [requestNoParseProg, setClientFieldsProg_finish, sendProg_finish net kd c a k m tr _ rfl rfl]

/-- What Request does with what RequestNoParse gave. -/
def parseProg (env : Env) (nt : NameTable) : RawResult → Prog RequestResult
  | (_, some e) => .ret (none, some e)
  | (none, none) => .ret (none, some (.plain "nil dereference"))
  | (some resp, none) =>
    match parseResponse env nt resp.body with
    | (_, some e) => .close resp.id (.ret (none, some e))
    | (res, none) => .close resp.id (.ret (res, none))

theorem requestProg_eq (env : Env) (nt : NameTable) (kd : Kind) (c a : Nat) :
    requestProg env nt kd c a = setClientFieldsProg c a (sendProg kd c a (parseProg env nt)) := rfl

/-- What is left of Request after SetClientFields. -/
theorem sendParse_finish (env : Env) (nt : NameTable) (net : Net) (kd : Kind) (c a : Nat) (m : Mem) (tr : Trace)
    (bc : BasicClient) (hu : bc.UserAgent = (m.clients c).UserAgent) (hh : bc.HTTPClient = (m.clients c).HTTPClient)
    (q : Request Message) :
    (sendProg kd c a (parseProg env nt)).finish net (m.put a (q.setClientFields net.now bc)) tr =
      match (kd.client bc).request env nt net q tr with
      | (res, r, tr) => (res, m.put a r, tr) := by
  rw [sendProg_finish net kd c a _ m tr bc hu hh]
  unfold Client.request
  rcases (kd.client bc).requestNoParse net q tr with ⟨⟨o, e⟩, r, tr1⟩
  cases e with
  | some e => cases o <;> rfl
  | none =>
    cases o with
    | none => rfl
    | some resp =>
      simp only [parseProg]
      rcases parseResponse env nt resp.body with ⟨res, e⟩
      cases e <;> rfl

/-- A call of Request with nobody else about is the call of the sequential model. -/
theorem requestProg_finish (env : Env) (nt : NameTable) (net : Net) (kd : Kind) (c a : Nat) (m : Mem) (tr : Trace) :
    (requestProg env nt kd c a).finish net m tr =
      match (kd.client (m.clients c)).request env nt net (m.requests a) tr with
      | (res, r, tr) => (res, m.put a r, tr) := by
  rw [requestProg_eq, setClientFieldsProg_finish, sendParse_finish env nt net kd c a m tr _ rfl rfl]

/-! ### What was done so far is the beginning of what is done alone -/

theorem make_extends (net : Net) (c : Call) (tr : Trace) : ∃ evs, (c.make net tr).2 = tr ++ evs := by
  cases c with
  | raw c url body =>
    obtain ⟨evs, h, -⟩ := raw_effect net c url body tr
    exact ⟨evs, h⟩
  | retry url body cookies =>
    obtain ⟨evs, h, -⟩ := retry_effect net url body cookies tr
    exact ⟨evs, h⟩

theorem finish_extends (net : Net) (p : Prog α) : ∀ (m : Mem) (tr : Trace), tr <+: (p.finish net m tr).2.2 := by
  induction p with
  | ret x => exact fun m tr => List.prefix_rfl
  | settings c k ih => exact fun m tr => ih _ m tr
  | get b k ih => exact fun m tr => ih _ m tr
  | set b f k ih => exact fun m tr => ih _ tr
  | clock k ih => exact fun m tr => ih _ m tr
  | send c k ih =>
    intro m tr
    obtain ⟨evs, h⟩ := make_extends net c tr
    exact List.IsPrefix.trans ⟨evs, h.symm⟩ (ih _ m _)
  | close id k ih => exact fun m tr => List.IsPrefix.trans ⟨_, rfl⟩ (ih m _)

/-! ### One goroutine at a time -/

/-- Several steps of one program. -/
def Prog.stepN (net : Net) : Nat → Prog α → Mem → Trace → Prog α × Mem × Trace
  | 0, p, m, tr => (p, m, tr)
  | n + 1, p, m, tr => stepN net n (p.step net m tr).1 (p.step net m tr).2.1 (p.step net m tr).2.2

theorem run_replicate (nets : Nat → Net) (i n : Nat) : ∀ s : Running α,
    ((s.run nets (List.replicate n i)).progs i, (s.run nets (List.replicate n i)).mem,
      (s.run nets (List.replicate n i)).traces i) = (s.progs i).stepN (nets i) n s.mem (s.traces i) ∧
    ∀ j, j ≠ i → (s.run nets (List.replicate n i)).progs j = s.progs j ∧
      (s.run nets (List.replicate n i)).traces j = s.traces j := by
  induction n with
  | zero => exact fun s => ⟨rfl, fun _ _ => ⟨rfl, rfl⟩⟩
  | succ n ih =>
    intro s
    obtain ⟨h1, h2⟩ := ih (s.step nets i)
    refine ⟨?_, fun j hj => ?_⟩
    · refine h1.trans ?_
      rw [(step_own nets s i).1, (step_own nets s i).2, step_memory]
      rfl
    · have := step_other nets s hj
      exact ⟨(h2 j hj).1.trans this.1, (h2 j hj).2.trans this.2⟩

theorem stepN_steps (net : Net) (n : Nat) : ∀ (p : Prog α) (m : Mem) (tr : Trace), p.steps net m tr ≤ n →
    p.stepN net n m tr = (.ret (p.finish net m tr).1, (p.finish net m tr).2) := by
  induction n with
  | zero =>
    intro p m tr h
    obtain ⟨x, rfl⟩ := steps_zero net p m tr (by omega)
    rfl
  | succ n ih =>
    intro p m tr h
    rw [Prog.stepN, ih _ _ _ (by rw [step_steps]; omega), step_finish]

theorem setClientFieldsProg_stepN (net : Net) (c a : Nat) (k : Prog α) (m : Mem) (tr : Trace) :
    (setClientFieldsProg c a k).stepN net 12 m tr =
      (k, m.put a ((m.requests a).setClientFields net.now (m.clients c)), tr) := by
  simp only [setClientFieldsProg, Prog.stepN, Prog.step]
  simp [Mem.put, Request.setClientFields]

theorem run_append (nets : Nat → Net) (s : Running α) (a b : List Nat) :
    s.run nets (a ++ b) = (s.run nets a).run nets b := List.foldl_append ..

/-- Two goroutines set the fields of one request, the second one last; then the first goes on. -/
theorem overtaken (net : Net) (s : Running α) (c0 c1 a : Nat) (p0 p1 : Prog α)
    (h0 : s.progs 0 = setClientFieldsProg c0 a p0) (h1 : s.progs 1 = setClientFieldsProg c1 a p1)
    (t0 : s.traces 0 = []) :
    ∃ sched, (s.run (fun _ => net) sched).progs 0 =
        .ret (p0.finish net (s.mem.put a ((s.mem.requests a).setClientFields net.now (s.mem.clients c1))) []).1 ∧
      (s.run (fun _ => net) sched).traces 0 =
        (p0.finish net (s.mem.put a ((s.mem.requests a).setClientFields net.now (s.mem.clients c1))) []).2.2 := by
  obtain ⟨s1, hs1⟩ : ∃ s1, s1 = s.run (fun _ => net) (List.replicate 12 0) := ⟨_, rfl⟩
  obtain ⟨s2, hs2⟩ : ∃ s2, s2 = s1.run (fun _ => net) (List.replicate 12 1) := ⟨_, rfl⟩
  obtain ⟨n, hn⟩ : ∃ n, n = p0.steps net s2.mem [] := ⟨_, rfl⟩
  obtain ⟨k1, g1⟩ := run_replicate (fun _ => net) 0 12 s
  obtain ⟨k2, g2⟩ := run_replicate (fun _ => net) 1 12 s1
  obtain ⟨k3, -⟩ := run_replicate (fun _ => net) 0 n s2
  obtain ⟨g1, -⟩ := g1 1 (by decide)
  obtain ⟨g2, g3⟩ := g2 0 (by decide)
  rw [← hs1] at k1 g1
  rw [← hs2] at k2 g2 g3
  rw [h0, t0, setClientFieldsProg_stepN, Prod.mk.injEq, Prod.mk.injEq] at k1
  obtain ⟨e1, e2, e3⟩ := k1
  rw [g1, h1, setClientFieldsProg_stepN, Prod.mk.injEq, Prod.mk.injEq, e2] at k2
  obtain ⟨-, e4, -⟩ := k2
  rw [put_put, put_requests, put_clients] at e4
  have e5 : s2.mem = s.mem.put a ((s.mem.requests a).setClientFields net.now (s.mem.clients c1)) := e4
  rw [g2, e1, g3, e3, stepN_steps net n _ _ _ (by omega), e5, Prod.mk.injEq, Prod.ext_iff] at k3
  refine ⟨List.replicate 12 0 ++ (List.replicate 12 1 ++ List.replicate n 0), ?_, ?_⟩
  · rw [run_append, run_append, ← hs1, ← hs2]
    exact k3.1
  · rw [run_append, run_append, ← hs1, ← hs2]
    exact k3.2.2

end
end Ofx
