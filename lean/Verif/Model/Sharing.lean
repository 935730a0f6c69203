import Verif.Model.Concurrent
/-
Goroutines calling Client.Request at the same time on requests that share messages: as
Model/Concurrent, but a message is at an address of its own, and the message sets of a request are
lists of such addresses (they hold pointers).  One message may be in several requests, or several
times in one.

Simplifications: as in Model/Concurrent, except that requests may share messages.  Reading a
pointer from a message set (which nothing changes) and looking at the message are one step.
-/
namespace Ofx

/-- The shared memory: BasicClient values (basic_client.go 13-28), Request values (request.go
15-36) with the addresses of their messages, and messages (common.go 50-56), by address. -/
structure SMem where
  clients : Nat → BasicClient
  requests : Nat → Request Nat
  messages : Nat → Message

/-- A goroutine from some point on, as `Prog`.  `msg` looks at the i-th message of a set, `setMsg`
changes it.  client.go 80-105, vanguard_client.go 111-142. -/
inductive SProg (α : Type) where
  | ret (x : α)
  | settings (a : Nat) (k : BasicClient → SProg α)
  | get (a : Nat) (k : Request Nat → SProg α)
  | set (a : Nat) (f : Request Nat → Request Nat) (k : SProg α)
  | msg (a : Nat) (s : MsgSet) (i : Nat) (k : Option Message → SProg α)
  | setMsg (a : Nat) (s : MsgSet) (i : Nat) (f : Message → Message) (k : SProg α)
  | clock (k : GoTime → SProg α)
  | send (c : Call) (k : RawResult → SProg α)
  | close (id : Nat) (k : SProg α)

section
variable {α : Type}

/-- request.go 66-75 `SetClientFields`. -/
def setClientFieldsS (c a : Nat) (k : SProg α) : SProg α :=
  .clock fun now =>
  .set a (fun r => { r with signon := { r.signon with DtClient := now } }) <|
  .settings c fun b1 =>
  .set a (fun r => { r with version := b1.ofxVersion }) <|
  .settings c fun b2 =>
  .set a (fun r => { r with signon := { r.signon with AppID := b2.id } }) <|
  .settings c fun b3 =>
  .set a (fun r => { r with signon := { r.signon with AppVer := b3.version } }) <|
  .settings c fun b4 =>
  .set a (fun r => { r with indent := !b4.NoIndent }) <|
  .settings c fun b5 =>
  .set a (fun r => { r with carriageReturn := b5.CarriageReturn }) k

/-- request.go 45-55, the loop of `encodeMessageSet`. -/
def messagesS (a : Nat) (version : Nat) (s : MsgSet) (set : MsgType) :
    Nat → Nat → List Node → (Except Err (List Node) → SProg α) → SProg α
  | _, 0, acc, k => k (.ok acc)
  | i, n + 1, acc, k =>
    .msg a s i fun
      | none => k (.ok acc)
      | some m =>
        if MessageImpl.type m ≠ set then
          k (.error (.plain ("Expected " ++ String.ofList set.string ++ " message , found " ++
            String.ofList (MessageImpl.type m).string)))
        else
          .setMsg a s i (fun m => (MessageImpl.valid version m).2) <|
          match (MessageImpl.valid version m).1 with
          | some e => k (.error e)
          | none =>
            .msg a s i fun
              | none => k (.ok acc)
              | some m =>
                match MessageImpl.encode m with
                | .error e => k (.error (.plain e))
                | .ok ns => messagesS a version s set (i + 1) n (acc ++ ns) k

/-- request.go 137-141 with 38-62 `encodeMessageSet`: all sets in turn. -/
def setsS (a : Nat) : List MsgSet → List Node → (Except Err (List Node) → SProg α) → SProg α
  | [], acc, k => k (.ok acc)
  | s :: ss, acc, k =>
    .get a fun r =>
    .get a fun r' =>
      if (r.sets s).length > 0 then
        messagesS a r'.version s (.rq s) 0 (r.sets s).length [] fun
          | .error e => k (.error e)
          | .ok ns => setsS a ss (acc ++ [.elem (MsgType.rq s).string ns]) k
      else setsS a ss acc k

/-- request.go 80-152 `Request.Marshal`. -/
def marshalS (a : Nat) (k : Except Err Doc → SProg α) : SProg α :=
  .get a fun r1 => .get a fun r2 =>            -- the header: version and line ends (line 84)
  .get a fun r3 =>                             -- indent (line 87)
  .get a fun r4 =>                             -- carriageReturn (line 90)
  .get a fun r5 =>                             -- Version (line 93)
  .get a fun r6 => .get a fun r7 =>            -- Signon.Valid (line 104)
  .set a (fun r => { r with signon := (r.signon.valid r6.version).2 }) <|
  match (r7.signon.valid r6.version).1 with
  | some e => k (.error (.plain e))
  | none =>
    .get a fun r8 =>                           -- writing the signon (line 111)
      match encodeAs "SONRQ".toList r8.signon with
      | .error e => k (.error (.plain e))
      | .ok ns =>
        setsS a MsgSet.lists [] fun
          | .error e => k (.error e)
          | .ok rest =>
            k (.ok { header := (writeHeader r1.version r2.carriageReturn).getD [],
                     indent := r3.indent, carriageReturn := r4.carriageReturn,
                     openLeaves := decide (r5.version < ofxVersion200),
                     body := .elem "OFX".toList (.elem (MsgType.rq .signon).string ns :: rest) })

/-- client.go 83-88 and vanguard_client.go 114-135: `RequestNoParse` after SetClientFields. -/
def sendS (kd : Kind) (c a : Nat) (k : RawResult → SProg α) : SProg α :=
  marshalS a fun
    | .error e => k (none, some e)
    | .ok d =>
      .get a fun r => .settings c fun bc =>
      .send (.raw (kd.client bc) r.url d.bytes) fun res =>
        match kd with
        | .vanguard =>
          match res.1 with
          | none => k res
          | some resp =>
            if resp.contentLength ≤ 0 ∧ resp.cookies.length > 0 then
              marshalS a fun
                | .error e => k (none, some e)
                | .ok d =>
                  .get a fun r => .send (.retry r.url d.bytes resp.cookies) k
            else k res
        | _ => k res

/-- client.go 93-105 `clientRequest` with 80-89 and vanguard_client.go 111-142: `Request` of the
client at address c with the request at address a. -/
def requestS (env : Env) (nt : NameTable) (kd : Kind) (c a : Nat) : SProg RequestResult :=
  setClientFieldsS c a <| sendS kd c a fun
    | (_, some e) => .ret (none, some e)
    | (none, none) => .ret (none, some (.plain "nil dereference"))
    | (some resp, none) =>
      match parseResponse env nt resp.body with
      | (_, some e) => .close resp.id (.ret (none, some e))
      | (res, none) => .close resp.id (.ret (res, none))

/-- The address of the i-th message of a set of a request. request.go 18-31, 45. -/
def SMem.pointer (m : SMem) (a : Nat) (s : MsgSet) (i : Nat) : Option Nat := ((m.requests a).sets s)[i]?

/-- One step of a goroutine, with its network. client.go 80-105, vanguard_client.go 111-142. -/
def SProg.step (net : Net) : SProg α → SMem → Trace → SProg α × SMem × Trace
  | .ret x, m, tr => (.ret x, m, tr)
  | .settings c k, m, tr => (k (m.clients c), m, tr)
  | .get a k, m, tr => (k (m.requests a), m, tr)
  | .set a f k, m, tr => (k, { m with requests := Function.update m.requests a (f (m.requests a)) }, tr)
  | .msg a s i k, m, tr => (k ((m.pointer a s i).map m.messages), m, tr)
  | .setMsg a s i f k, m, tr =>
    match m.pointer a s i with
    | none => (k, m, tr)
    | some p => (k, { m with messages := Function.update m.messages p (f (m.messages p)) }, tr)
  | .clock k, m, tr => (k net.now, m, tr)
  | .send c k, m, tr => (k (c.make net tr).1, m, (c.make net tr).2)
  | .close id k, m, tr => (k, m, tr ++ [.closed id])

/-- Goroutines running at the same time: the memory they share, what is left of each, and what
each has done on the network. client.go 80-105. -/
structure SRunning (α : Type) where
  mem : SMem
  progs : Nat → SProg α
  traces : Nat → Trace

/-- The i-th goroutine makes a step. client.go 80-105. -/
def SRunning.step (nets : Nat → Net) (s : SRunning α) (i : Nat) : SRunning α :=
  match (s.progs i).step (nets i) s.mem (s.traces i) with
  | (p, m, tr) => ⟨m, Function.update s.progs i p, Function.update s.traces i tr⟩

/-- Steps are made in the order of the schedule. client.go 80-105. -/
def SRunning.run (nets : Nat → Net) (s : SRunning α) (sched : List Nat) : SRunning α :=
  sched.foldl (SRunning.step nets) s

/-- Goroutines about to call Request. client.go 93. -/
def startedS (env : Env) (nt : NameTable) (gs : Nat → Goroutine) (m : SMem) : SRunning RequestResult :=
  ⟨m, fun i => requestS env nt (gs i).kind (gs i).client (gs i).request, fun _ => []⟩

/-- The request at an address, with its messages. request.go 15-36. -/
def SMem.request (m : SMem) (a : Nat) : Request Message :=
  { m.requests a with sets := fun s => ((m.requests a).sets s).map m.messages }

end
end Ofx
