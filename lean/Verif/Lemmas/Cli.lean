import Verif.Spec.Cli
import Verif.Props.Client
import Mathlib.Data.List.Nodup
/-
Lemmas about the command-line client.
-/
namespace Ofx
open Spec

theorem forEach_flatMap {α β S R : Type} (body : β → S → R ⊕ S) (g : α → List β) (l : List α) (s : S) :
    forEach body (l.flatMap g) s = forEach (fun a => forEach body (g a)) l s := by
  have happ : ∀ (a b : List β) (s : S), forEach body (a ++ b) s =
      match forEach body a s with
      | .inl r => .inl r
      | .inr s => forEach body b s := by
    intro a b s
    induction a generalizing s with
    | nil => rfl
    | cons x xs ih =>
      simp only [List.cons_append, forEach]
      cases body x s with
      | inl r => rfl
      | inr s => exact ih s
  induction l generalizing s with
  | nil => rfl
  | cons x xs ih =>
    rw [List.flatMap_cons, happ]
    simp only [forEach]
    cases forEach body (g x) s with
    | inl r => rfl
    | inr s => exact ih s

theorem forEach_map {α β S R : Type} (body : β → S → R ⊕ S) (g : α → β) (l : List α) (s : S) :
    forEach body (l.map g) s = forEach (fun a => body (g a)) l s := by
  induction l generalizing s with
  | nil => rfl
  | cons x xs ih =>
    simp only [List.map_cons, forEach]
    cases body (g x) s with
    | inl r => rfl
    | inr s => exact ih s

theorem modelCombinations : (appIDs.flatMap fun a => (appVersions a).flatMap fun v => versions.flatMap fun o =>
    [false, true].map fun n => (⟨a, v, o, n⟩ : Setting)) = combinations := by decide +kernel

theorem detect_eq (w : World) (f : Flags) :
    detectSettings w f = match forEach (detectStep w f) combinations ⟨0, [], []⟩ with
      | .inl r => r
      | .inr d => ⟨d.out, .exit 0, d.trace, []⟩ := by
  have h1 : ∀ {α β S R : Type} (body : β → S → R ⊕ S) (g : α → List β) (l : List α),
      forEach body (l.flatMap g) = forEach (fun a => forEach body (g a)) l := fun b g l => funext (forEach_flatMap b g l)
  have h2 : ∀ {α β S R : Type} (body : β → S → R ⊕ S) (g : α → β) (l : List α),
      forEach body (l.map g) = forEach (fun a => body (g a)) l := fun b g l => funext (forEach_map b g l)
  unfold detectSettings
  rw [← modelCombinations]
  simp only [h1, h2]
  rfl

theorem combinations_nodup : combinations.Nodup := by
  unfold combinations
  rw [List.nodup_flatMap]
  constructor
  · intro p hp
    rw [List.nodup_flatMap]
    constructor
    · intro v hv
      rw [List.nodup_flatMap]
      constructor
      · intro o ho
        simp
      · have : ofxVersions.Pairwise (fun a b => a ≠ b) := by decide
        refine this.imp ?_
        intro a b hab x hx hy
        simp at hx hy
        apply hab
        rcases hx with rfl | rfl <;> rcases hy with h | h <;> simp at h <;> exact String.toList_inj.mp h
    · have : ∀ p ∈ programs, p.2.Pairwise (fun a b => a ≠ b) := by decide
      refine (this p hp).imp ?_
      intro a b hab x hx hy
      simp at hx hy
      obtain ⟨o, -, hx⟩ := hx
      obtain ⟨o', -, hy⟩ := hy
      apply hab
      rcases hx with rfl | rfl <;> rcases hy with h | h <;> simp at h <;> exact String.toList_inj.mp h.1
  · have : programs.Pairwise (fun a b => a.1 ≠ b.1) := by decide
    refine this.imp ?_
    intro a b hab x hx hy
    simp at hx hy
    obtain ⟨v, -, o, -, hx⟩ := hx
    obtain ⟨v', -, o', -, hy⟩ := hy
    apply hab
    rcases hx with rfl | rfl <;> rcases hy with h | h <;> simp at h <;> exact String.toList_inj.mp h.1

theorem combination_version {s : Setting} (h : s ∈ combinations) :
    enumOfxVersion.new s.version = (versionNumber s.version, none) := by
  have hv : ∀ o ∈ ofxVersions, enumOfxVersion.new o.toList = (versionNumber o.toList, none) := by decide +kernel
  simp only [combinations, List.mem_flatMap] at h
  obtain ⟨p, -, v, -, o, ho, h⟩ := h
  simp at h
  rcases h with rfl | rfl <;> exact hv o ho

/-- The results of Request. -/
theorem request_result (env : Env) (nt : NameTable) (net : Net) (c : Client) (r : Request Message) (tr : Trace) :
    (∃ e r' tr', c.request env nt net r tr = ((none, some e), r', tr')) ∨
    ∃ x r' tr', c.request env nt net r tr = ((some x, none), r', tr') := by
  rcases Props.request_cases env nt net c r tr with ⟨e, -, h⟩ | ⟨resp, h1, -, h2, ⟨e, -, h3⟩ | ⟨h3, h4⟩⟩
  · exact .inl ⟨e, _, _, h⟩
  · left
    refine ⟨e, (c.request env nt net r tr).2.1, (c.request env nt net r tr).2.2, ?_⟩
    rw [← h3]
  · right
    have : ∃ x, parseResponse env nt resp.body = (some x, none) := by
      cases hp : parseResponse env nt resp.body with
      | mk a b =>
        rw [hp] at h3
        simp only at h3
        subst h3
        cases a with
        | some x => exact ⟨x, rfl⟩
        | none =>
          exfalso
          unfold parseResponse at hp
          revert hp
          cases decodeResponse env nt resp.body with
          | error e => intro h; cases h
          | ok x => intro h; cases h
    obtain ⟨x, hx⟩ := this
    refine ⟨x, (c.request env nt net r tr).2.1, (c.request env nt net r tr).2.2, ?_⟩
    rw [← hx, ← h4]

theorem tryProfile_cases (w : World) (f : Flags) (s : Setting) (hs : s ∈ combinations) (tr : Trace) :
    (∃ e, randomUID (w.entropy tr) = .error e ∧
      tryProfile w f s tr = .error ("Error creating uid for transaction: ".toList ++ e.toList ++ "\n".toList)) ∨
    (∃ tr', tryProfile w f s tr = .ok (true, tr') ∧ AttemptWorks w f s tr tr') ∨
    ∃ tr', tryProfile w f s tr = .ok (false, tr') ∧ AttemptFails w f s tr tr' := by
  unfold tryProfile
  rw [combination_version hs]
  simp only
  cases hu : randomUID (w.entropy tr) with
  | error e => exact .inl ⟨e, rfl, rfl⟩
  | ok uid =>
    right
    simp only
    rcases request_result w.env w.names w.net (settingClient f s) (profileQuery w f uid) tr with
      ⟨e, r, tr₁, h1⟩ | ⟨x, r, tr₁, h1⟩
    · rcases request_result w.env w.names w.net (settingClient f s) (asAnonymous r) tr₁ with
        ⟨e', r', tr', h2⟩ | ⟨x, r', tr', h2⟩
      · right
        refine ⟨tr', ?_, uid, r, tr₁, e, r', e', hu, h1, h2⟩
        unfold settingClient profileQuery at h1
        unfold settingClient asAnonymous at h2
        rw [h1]; simp only
        unfold anonymous; rw [h2]; rfl
      · left
        refine ⟨tr', ?_, uid, hu, .inr ⟨e, r, tr₁, x, r', h1, h2⟩⟩
        unfold settingClient profileQuery at h1
        unfold settingClient asAnonymous at h2
        rw [h1]; simp only
        unfold anonymous; rw [h2]; rfl
    · left
      refine ⟨tr₁, ?_, uid, hu, .inl ⟨x, r, h1⟩⟩
      unfold settingClient profileQuery at h1
      rw [h1]

theorem attemptLines_snoc (delay : Nat) (ss : List Setting) (s : Setting) :
    attemptLines delay (ss ++ [s]) = attemptLines delay ss ++ attemptText delay (ss.length + 1) s := by
  have h : ∀ n, attemptLine delay n s = attemptText delay n s := fun n => rfl
  unfold attemptLines
  rw [List.zipIdx_append, List.flatMap_append, List.zipIdx_singleton, List.flatMap_cons, List.flatMap_nil, List.append_nil, h,
    Nat.add_comm]

theorem foundText_eq (s : Setting) : foundText s = settingsText s := by
  unfold foundText settingsText
  cases s.noIndent <;> simp

theorem wrap64_eq (n : Int) : wrap64 n = Int.bmod n (2 ^ 64) := by
  unfold wrap64
  rw [Int.bmod_def]
  norm_num
  split <;> omega

theorem pauseNs_eq (delay : Nat) : pauseNs delay = waitedNs delay := by
  unfold pauseNs waitedNs
  rw [wrap64_eq, wrap64_eq, Int.bmod_mul_bmod]

/-- The loop of detectSettings. -/
theorem detect_loop (w : World) (f : Flags) (rest : List Setting) (ss : List Setting) (d : Detecting)
    (hr : ∀ s ∈ rest, s ∈ combinations) (hf : AllFailed w f ss d.trace) (hn : d.attempts = ss.length)
    (ho : d.out = attemptLines f.delay ss) :
    (∃ d', forEach (detectStep w f) rest d = .inr d' ∧ AllFailed w f (ss ++ rest) d'.trace ∧
      d'.out = attemptLines f.delay (ss ++ rest)) ∨
    ∃ a s b r tr, forEach (detectStep w f) rest d = .inl r ∧ rest = a ++ s :: b ∧ AllFailed w f (ss ++ a) tr ∧ r.files = [] ∧
      ((AttemptWorks w f s tr r.trace ∧ r.out = attemptLines f.delay (ss ++ a) ++ settingsText s ∧ r.fin = .exit 0) ∨
       (∃ e, randomUID (w.entropy tr) = .error e ∧
          r.out = attemptLines f.delay (ss ++ a) ++ ("Error creating uid for transaction: ".toList ++ e.toList ++ "\n".toList)) ∧
        r.fin = .exit 1 ∧ r.trace = tr) := by
  induction rest generalizing ss d with
  | nil => left; exact ⟨d, rfl, by simpa using hf, by simpa using ho⟩
  | cons s rest ih =>
    rcases tryProfile_cases w f s (hr s List.mem_cons_self) d.trace with ⟨e, hu, h⟩ | ⟨tr', h, hw⟩ | ⟨tr', h, hw⟩
    · right
      refine ⟨[], s, rest, ⟨d.out ++ ("Error creating uid for transaction: ".toList ++ e.toList ++ "\n".toList), .exit 1, d.trace, []⟩, d.trace, ?_, rfl, by simpa using hf, rfl,
        .inr ⟨⟨e, hu, by rw [List.append_nil, ← ho]⟩, rfl, rfl⟩⟩
      simp only [forEach, detectStep]; rw [h]
    · right
      refine ⟨[], s, rest, ⟨d.out ++ foundText s, .exit 0, tr', []⟩, d.trace, ?_, rfl, by simpa using hf, rfl, .inl ⟨hw, ?_, rfl⟩⟩
      · simp only [forEach, detectStep]; rw [h]
      · simp [ho, foundText_eq]
    · have hstep : forEach (detectStep w f) (s :: rest) d = forEach (detectStep w f) rest
          ⟨d.attempts + 1, d.out ++ attemptText f.delay (d.attempts + 1) s, tr' ++ [.paused (pauseNs f.delay)]⟩ := by
        simp only [forEach, detectStep]; rw [h]
      rw [hstep]
      rcases ih (ss ++ [s]) ⟨d.attempts + 1, d.out ++ attemptText f.delay (d.attempts + 1) s, tr' ++ [.paused (pauseNs f.delay)]⟩
          (fun x hx => hr x (List.mem_cons_of_mem _ hx)) (pauseNs_eq f.delay ▸ .more hf hw) (by simp [hn])
          (by rw [attemptLines_snoc, ho, hn]) with ⟨d', h1, h2, h3⟩ | ⟨a, s', b, r, tr, h1, h2, h3, h4, h5⟩
      · left
        rw [List.append_assoc] at h2 h3
        exact ⟨d', h1, h2, h3⟩
      · right
        rw [List.append_assoc] at h3 h5
        exact ⟨s :: a, s', b, r, tr, h1, by rw [h2]; rfl, h3, h4, h5⟩

theorem forPrint_panics {α : Type} (f : α → Printed) (l : List α) :
    (forPrint f l).panics = true ↔ ∃ x ∈ l, (f x).panics = true := by
  induction l with
  | nil => simp [forPrint, say]
  | cons x xs ih =>
    simp only [forPrint, Printed.andThen]
    by_cases h : (f x).panics = true
    · rw [if_pos h]; simp [h]
    · rw [if_neg h]; simp [h, ih]

theorem forPrint_out {α : Type} (f : α → Printed) (l : List α) (h : (forPrint f l).panics = false) :
    (forPrint f l).out = l.flatMap (fun x => (f x).out) := by
  induction l with
  | nil => rfl
  | cons x xs ih =>
    simp only [forPrint, Printed.andThen] at h ⊢
    by_cases hx : (f x).panics = true
    · rw [if_pos hx] at h; rw [hx] at h; cases h
    · rw [if_neg hx] at h ⊢
      rw [List.flatMap_cons]
      simp only at h ⊢
      rw [ih h]

theorem andThen_panics (a b : Printed) : (a.andThen b).panics = true ↔ a.panics = true ∨ b.panics = true := by
  unfold Printed.andThen
  by_cases h : a.panics = true
  · rw [if_pos h]; simp [h]
  · rw [if_neg h]; simp [h]

theorem say_andThen (s : Str) (b : Printed) : (say s).andThen b = ⟨s ++ b.out, b.panics⟩ := rfl

/-- The request a command makes. -/
def Command.query (w : World) (f : Flags) : Command → Except Str (Client × Request Message)
  | .downloadProfile => prepareProfile w f
  | .getAccounts => prepareAccounts w f
  | .downloadBank => prepareBank w f
  | .downloadCC => prepareCC w f
  | .downloadInv => prepareInv w f
  | .transactionsBank => prepareBank w f
  | .transactionsCC => prepareCC w f
  | .transactionsInv => prepareInv w f
  | .detectSettings => .error []

/-- How a command prints the response. -/
def Command.printer : Command → Response Message → Printed
  | .getAccounts => printAccounts
  | .transactionsBank => printBank
  | .transactionsCC => printCC
  | .transactionsInv => printInv
  | _ => fun _ => say []

theorem run_saves {c : Command} (h : Saves c) (w : World) (f : Flags) :
    ∃ onError, c.run w f = saveCommand w f (c.query w f) onError := by
  rcases h with rfl | rfl | rfl | rfl <;> exact ⟨_, rfl⟩

theorem run_shows {c : Command} (h : Shows c) (w : World) (f : Flags) :
    ∃ onError, c.run w f = showCommand w f (c.query w f) onError c.printer := by
  rcases h with rfl | rfl | rfl | rfl <;> exact ⟨_, rfl⟩

theorem saves_or_shows {c : Command} (h : OneRequest c) : Saves c ∨ Shows c := by
  cases c <;> first | exact absurd rfl h | (left; unfold Saves; decide) | (right; unfold Shows; decide)

theorem prepare_ok {w : World} {f : Flags} {set : MsgSet} {msg : Str → Message} {c : Client} {r : Request Message}
    (h : prepare w f set msg = .ok (c, r)) : ∃ ver uid, enumOfxVersion.new f.ofxVersion = (ver, none) ∧
      randomUID (w.entropy []) = .ok uid ∧
      c = getClient f.serverURL ⟨ver, f.appID, f.appVer, f.noIndentRequests, f.carriageReturn, f.userAgent, none⟩ ∧
      r.url = f.serverURL ∧
      r.signon = ⟨GoTime.zero, f.username, f.password, [], false, [], f.org, f.fid, [], [], f.clientUID⟩ ∧
      ∀ s, r.sets s = if s = set then [msg uid] else [] := by
  unfold prepare newRequest at h
  revert h
  generalize enumOfxVersion.new f.ofxVersion = x
  obtain ⟨ver, _ | e⟩ := x
  · simp only
    generalize randomUID (w.entropy []) = y
    obtain e | uid := y
    · intro h; cases h
    · intro h
      cases h
      refine ⟨ver, uid, rfl, rfl, rfl, rfl, rfl, fun s => ?_⟩
      show (if s = set then [] ++ [msg uid] else []) = _
      rfl
  · intro h; cases h

/-- The message of a command. -/
def Command.message (w : World) (f : Flags) (uid : Str) : Command → MsgSet × Message
  | .downloadProfile => (.prof, .profileRequest ⟨uid, [], [], [], GoTime.zero⟩)
  | .getAccounts => (.signup, .acctInfoRequest ⟨uid, [], [], unixEpoch w⟩)
  | .downloadBank | .transactionsBank => (.bank, .statementRequest
      ⟨uid, [], [], ⟨[], f.bankID, [], f.acctID, (enumAcctType.new f.acctType).1, []⟩, none, none, true, false, false⟩)
  | .downloadCC | .transactionsCC => (.creditCard, .ccStatementRequest
      ⟨uid, [], [], ⟨[], f.acctID, []⟩, none, none, true, false, false⟩)
  | .downloadInv | .transactionsInv => (.invStmt, .invStatementRequest
      ⟨uid, [], [], ⟨[], f.brokerID, f.acctID⟩, none, none, true, true, none, true, true, true, true, false⟩)
  | .detectSettings => (.prof, .profileRequest ⟨uid, [], [], [], unixEpoch w⟩)

theorem prepareBank_ok {w : World} {f : Flags} {x : Client × Request Message} (h : prepareBank w f = .ok x) :
    (enumAcctType.new f.acctType).2 = none ∧ prepare w f .bank (fun uid => .statementRequest
        ⟨uid, [], [], ⟨[], f.bankID, [], f.acctID, (enumAcctType.new f.acctType).1, []⟩, none, none, true, false, false⟩) = .ok x := by
  unfold prepareBank at h
  revert h
  cases newRequest f with
  | error e => intro h; cases h
  | ok y =>
    simp only
    generalize enumAcctType.new f.acctType = z
    obtain ⟨t, _ | e⟩ := z
    · exact fun h => ⟨rfl, h⟩
    · intro h; cases h

theorem query_ok {cmd : Command} {w : World} {f : Flags} {c : Client} {r : Request Message}
    (h : cmd.query w f = .ok (c, r)) : ∃ ver uid, enumOfxVersion.new f.ofxVersion = (ver, none) ∧
      randomUID (w.entropy []) = .ok uid ∧
      c = getClient f.serverURL ⟨ver, f.appID, f.appVer, f.noIndentRequests, f.carriageReturn, f.userAgent, none⟩ ∧
      r.url = f.serverURL ∧
      r.signon = ⟨GoTime.zero, f.username, f.password, [], false, [], f.org, f.fid, [], [], f.clientUID⟩ ∧
      ∀ s, r.sets s = if s = (cmd.message w f uid).1 then [(cmd.message w f uid).2] else [] := by
  cases cmd
  case detectSettings => cases h
  case downloadBank => exact prepare_ok (prepareBank_ok h).2
  case transactionsBank => exact prepare_ok (prepareBank_ok h).2
  all_goals exact prepare_ok h

theorem checkSignon_none {s : Status} : checkSignon s = none ↔ s.Code = 0 := by
  unfold checkSignon
  by_cases h : s.Code = 0
  · rw [if_neg (by simpa using h)]; exact ⟨fun _ => h, fun _ => rfl⟩
  · rw [if_pos (by simpa using h)]; exact ⟨fun h' => (by cases h'), fun h' => absurd h' h⟩

/-- All that a printing command can do. -/
theorem show_cases (w : World) (f : Flags) (query : Except Str (Client × Request Message)) (onError : Err → Str)
    (print : Response Message → Printed) :
    (∃ e, query = .error e ∧ showCommand w f query onError print = ⟨e, .exit 1, [], []⟩) ∨
    ∃ c r, query = .ok (c, r) ∧
      ((f.dryrun = true ∧ showCommand w f query onError print = ⟨printRequest w.net c r, .exit 0, [], []⟩) ∨
       f.dryrun = false ∧ (showCommand w f query onError print).trace = (c.request w.env w.names w.net r []).2.2 ∧
         (showCommand w f query onError print).files = [] ∧
         ((∃ e, (c.request w.env w.names w.net r []).1 = (none, some e) ∧ (showCommand w f query onError print).out = onError e ∧
            (showCommand w f query onError print).fin = .exit 1) ∨
          ∃ x, (c.request w.env w.names w.net r []).1 = (some x, none) ∧
            ((x.signon.Status.Code ≠ 0 ∧ checkSignon x.signon.Status = some (showCommand w f query onError print).out ∧
              (showCommand w f query onError print).fin = .exit 1) ∨
             x.signon.Status.Code = 0 ∧ (showCommand w f query onError print).out = (print x).out ∧
              (showCommand w f query onError print).fin = if (print x).panics then .panic else .exit 0))) := by
  unfold showCommand
  obtain e | ⟨c, r⟩ := query
  · exact .inl ⟨e, rfl, rfl⟩
  · refine .inr ⟨c, r, rfl, ?_⟩
    simp only
    by_cases hd : f.dryrun = true
    · rw [if_pos hd]; exact .inl ⟨hd, rfl⟩
    · rw [if_neg hd]
      refine .inr ⟨by simpa using hd, ?_⟩
      have hr := request_result w.env w.names w.net c r []
      revert hr
      generalize c.request w.env w.names w.net r [] = y
      obtain ⟨⟨res, err⟩, r', tr'⟩ := y
      rintro (⟨e, r1, t1, h⟩ | ⟨x, r1, t1, h⟩) <;> cases h
      · exact ⟨rfl, rfl, .inl ⟨e, rfl, rfl, rfl⟩⟩
      · simp only
        have hc := @checkSignon_none x.signon.Status
        revert hc
        generalize hz : checkSignon x.signon.Status = z
        intro hc
        cases z with
        | some e => exact ⟨rfl, rfl, .inr ⟨x, rfl, .inl ⟨fun h => (by cases hc.mpr h), hz, rfl⟩⟩⟩
        | none => exact ⟨rfl, rfl, .inr ⟨x, rfl, .inr ⟨hc.mp rfl, rfl, rfl⟩⟩⟩

/-- All that a saving command can do. -/
theorem save_cases (w : World) (f : Flags) (query : Except Str (Client × Request Message)) (onError : Err → Str) :
    (∃ e, query = .error e ∧ saveCommand w f query onError = ⟨e, .exit 1, [], []⟩) ∨
    ∃ c r, query = .ok (c, r) ∧
      ((f.dryrun = true ∧ saveCommand w f query onError = ⟨printRequest w.net c r, .exit 0, [], []⟩) ∨
       f.dryrun = false ∧
         ((∃ e, (c.requestNoParse w.net r []).1.2 = some e ∧ saveCommand w f query onError =
            ⟨onError e, .exit 1, (c.requestNoParse w.net r []).2.2, []⟩) ∨
          ∃ x, (c.requestNoParse w.net r []).1 = (some x, none) ∧ x.status = 200 ∧
            ((∃ m, saveCommand w f query onError = ⟨m, .exit 1, (c.requestNoParse w.net r []).2.2, []⟩) ∨
             (∃ m n, w.copies f.filename = some n ∧ saveCommand w f query onError =
               ⟨m, .exit 1, (c.requestNoParse w.net r []).2.2, [(f.filename, x.body.take n)]⟩) ∨
             w.copies f.filename = none ∧ saveCommand w f query onError =
               ⟨[], .exit 0, (c.requestNoParse w.net r []).2.2 ++ [.closed x.id], [(f.filename, x.body)]⟩))) := by
  unfold saveCommand
  obtain e | ⟨c, r⟩ := query
  · exact .inl ⟨e, rfl, rfl⟩
  · refine .inr ⟨c, r, rfl, ?_⟩
    simp only
    by_cases hd : f.dryrun = true
    · rw [if_pos hd]; exact .inl ⟨hd, rfl⟩
    · rw [if_neg hd]
      refine .inr ⟨by simpa using hd, ?_⟩
      have hok : (c.requestNoParse w.net r []).1.2 = none →
          ∃ resp, (c.requestNoParse w.net r []).1.1 = some resp ∧ resp.status = 200 := by
        intro h
        obtain ⟨evs, -, h1⟩ := noParse_effect w.net c r []
        rcases h1 with ⟨e, -, h1, -⟩ | ⟨d, -, ⟨h1, -⟩ | ⟨resp, err, e1, e2, -, -, -, h1, -⟩⟩
        · rw [h1] at h; cases h
        · exact h1.ok h
        · exact h1.ok h
      revert hok
      generalize c.requestNoParse w.net r [] = y
      obtain ⟨⟨res, _ | e⟩, r', tr'⟩ := y
      · intro hok
        obtain ⟨resp, h1, h2⟩ := hok rfl
        simp only at h1
        subst h1
        refine .inr ⟨resp, rfl, h2, ?_⟩
        simp only
        by_cases hc : w.creatable f.filename = true
        · rw [if_neg (by simpa using hc)]
          right
          cases hn : w.copies f.filename with
          | none => right; exact ⟨rfl, rfl⟩
          | some n => left; exact ⟨_, n, rfl, rfl⟩
        · rw [if_pos (by simpa using hc)]
          exact .inl ⟨_, rfl⟩
      · exact fun _ => .inl ⟨e, rfl, rfl⟩

theorem printBank_panics (r : Response Message) : (printBank r).panics = true ↔ Crashes .transactionsBank r := by
  show _ ↔ ∃ s rest, r.sets .bank = .statementResponse s :: rest ∧ s.BankTranList = none
  unfold printBank
  generalize r.sets .bank = ms
  obtain _ | ⟨m, rest⟩ := ms
  · constructor
    · intro h; cases h
    · rintro ⟨s, rest, h, -⟩; cases h
  · cases m
    case statementResponse s =>
      simp only [say_andThen]
      cases hl : s.BankTranList with
      | none => exact ⟨fun _ => ⟨s, rest, rfl, hl⟩, fun _ => rfl⟩
      | some l =>
        simp only
        rw [forPrint_panics]
        constructor
        · rintro ⟨t, -, h⟩; cases h
        · rintro ⟨s', rest', h, h'⟩; cases h; rw [hl] at h'; cases h'
    all_goals
      constructor
      · intro h; cases h
      · rintro ⟨s, rest, h, -⟩; cases h

theorem printCCTransaction_eq (cur : CurrSymbol) (t : Transaction) :
    printCCTransaction cur t = if t.Name = [] ∧ t.Payee = none then nilDeref else printTransaction cur t := by
  unfold printCCTransaction
  by_cases h : t.Name = []
  · rw [if_neg (by rw [h]; decide)]
    cases hp : t.Payee with
    | none => rw [if_pos ⟨h, rfl⟩]
    | some p => rw [if_neg (fun h' => by cases h'.2)]
  · rw [if_pos (blen_pos.mpr h), if_neg (fun h' => h h'.1)]

theorem printCC_panics (r : Response Message) : (printCC r).panics = true ↔ Crashes .transactionsCC r := by
  show _ ↔ ∃ s rest, r.sets .creditCard = .ccStatementResponse s :: rest ∧
      (s.BankTranList = none ∨ ∃ l, s.BankTranList = some l ∧ ∃ t ∈ l.Transactions, t.Name = [] ∧ t.Payee = none)
  unfold printCC
  generalize r.sets .creditCard = ms
  obtain _ | ⟨m, rest⟩ := ms
  · constructor
    · intro h; cases h
    · rintro ⟨s, rest, h, -⟩; cases h
  · cases m
    case ccStatementResponse s =>
      simp only [say_andThen]
      cases hl : s.BankTranList with
      | none => exact ⟨fun _ => ⟨s, rest, rfl, .inl hl⟩, fun _ => rfl⟩
      | some l =>
        simp only
        rw [forPrint_panics]
        constructor
        · rintro ⟨t, ht, h⟩
          rw [printCCTransaction_eq] at h
          by_cases hn : t.Name = [] ∧ t.Payee = none
          · exact ⟨s, rest, rfl, .inr ⟨l, hl, t, ht, hn⟩⟩
          · rw [if_neg hn] at h; cases h
        · rintro ⟨s', rest', h, h'⟩
          cases h
          rcases h' with h' | ⟨l', h', t, ht, hn⟩
          · rw [hl] at h'; cases h'
          · rw [hl] at h'; cases h'
            exact ⟨t, ht, by rw [printCCTransaction_eq, if_pos hn]; rfl⟩
    all_goals
      constructor
      · intro h; cases h
      · rintro ⟨s, rest, h, -⟩; cases h

theorem printInv_panics (r : Response Message) : (printInv r).panics = true ↔ Crashes .transactionsInv r := by
  show _ ↔ ∃ s rest, r.sets .invStmt = .invStatementResponse s :: rest ∧
      (s.InvBal = none ∨ s.InvTranList = none)
  unfold printInv
  generalize r.sets .invStmt = ms
  obtain _ | ⟨m, rest⟩ := ms
  · constructor
    · intro h; cases h
    · rintro ⟨s, rest, h, -⟩; cases h
  · cases m
    case invStatementResponse s =>
      simp only
      cases hb : s.InvBal with
      | none => exact ⟨fun _ => ⟨s, rest, rfl, .inl hb⟩, fun _ => rfl⟩
      | some bal =>
        simp only [say_andThen]
        cases hl : s.InvTranList with
        | none => exact ⟨fun _ => ⟨s, rest, rfl, .inr hl⟩, fun _ => rfl⟩
        | some l =>
          simp only
          rw [andThen_panics, forPrint_panics]
          constructor
          · rintro (⟨b, -, h⟩ | h)
            · have h : ((say _).andThen (forPrint _ _)).panics = true := h
              rw [andThen_panics, forPrint_panics] at h
              rcases h with h | ⟨t, -, h⟩ <;> cases h
            · have h : (forPrint _ _).panics = true := h
              rw [forPrint_panics] at h
              rcases h with ⟨t, -, h⟩; cases h
          · rintro ⟨s', rest', h, h'⟩
            cases h
            rcases h' with h' | h'
            · rw [hb] at h'; cases h'
            · rw [hl] at h'; cases h'
    all_goals
      constructor
      · intro h; cases h
      · rintro ⟨s, rest, h, -⟩; cases h

theorem printAccounts_panics (r : Response Message) : (printAccounts r).panics = false := by
  unfold printAccounts
  generalize r.sets .signup = ms
  obtain _ | ⟨m, rest⟩ := ms
  · rfl
  · cases m
    case acctInfoResponse a =>
      simp only [say_andThen]
      rw [← Bool.not_eq_true, forPrint_panics]
      rintro ⟨t, -, h⟩; cases h
    all_goals rfl

theorem printer_panics (c : Command) (r : Response Message) : (c.printer r).panics = true ↔ Crashes c r := by
  cases c
  case transactionsBank => exact printBank_panics r
  case transactionsCC => exact printCC_panics r
  case transactionsInv => exact printInv_panics r
  case getAccounts =>
    have := printAccounts_panics r
    exact ⟨fun h => absurd (show (printAccounts r).panics = true from h) (by rw [this]; decide), fun h => False.elim h⟩
  all_goals exact ⟨fun h => (by cases h), fun h => False.elim h⟩

end Ofx
