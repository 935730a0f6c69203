import Verif.Model.Client
/-
Goroutines calling Client.Request (client.go 80-105, vanguard_client.go 111-142) at the same
time.  Memory is shared: the settings of clients and the requests, each at an address.  A call
is a program of single memory accesses, calls into net/http (or tls) and readings of the clock;
a schedule says which goroutine makes its next step.  What a goroutine does on the network and
what it gets back is described by a `Net` of its own: the theorems hold for every choice of
these, so they cover servers that answer one goroutine depending on what others did.

Simplifications: a request includes its messages, so two requests never share a message;
Signon.Valid, a message's Valid, and writing the signon or one message are one access each; a
round trip of net/http (with its redirections) is one step, since http.Client is documented to
be safe for concurrent use; parsing a response touches memory of its own only.
-/
namespace Ofx

/-- The shared memory: BasicClient values (basic_client.go 13-28) and Request values
(request.go 15-36) by address. -/
structure Mem where
  clients : Nat → BasicClient
  requests : Nat → Request Message

/-- What goes through the network: RawRequest of a client (basic_client.go 70,
discovercard_client.go 82, vanguard_client.go 53), or vanguard_client.go 82
`rawRequestCookiesInsecureCiphers`. -/
inductive Call where
  | raw (c : Client) (url : Str) (body : List UInt8)
  | retry (url : Str) (body : List UInt8) (cookies : List (Str × Str))

/-- What happens when the call is made: basic_client.go 70, discovercard_client.go 82,
vanguard_client.go 53, 82. -/
def Call.make (net : Net) : Call → Trace → RawResult × Trace
  | .raw c url body, tr => c.rawRequest net url body tr
  | .retry url body cookies, tr => vanguardRetry net url body cookies tr

/-- A goroutine from some point on: it has returned, or does one step and goes on.  `get` reads
a request and `set` changes one part of it; `settings` reads from a BasicClient.
client.go 80-105, vanguard_client.go 111-142. -/
inductive Prog (α : Type) where
  | ret (x : α)
  | settings (a : Nat) (k : BasicClient → Prog α)
  | get (a : Nat) (k : Request Message → Prog α)
  | set (a : Nat) (f : Request Message → Request Message) (k : Prog α)
  | clock (k : GoTime → Prog α)
  | send (c : Call) (k : RawResult → Prog α)
  | close (id : Nat) (k : Prog α)

/-- Which of the three types a client has: basic_client.go 13, discovercard_client.go 18,
vanguard_client.go 15. -/
inductive Kind where
  | basic
  | discover
  | vanguard
deriving DecidableEq

/-- A client of that type: basic_client.go 13-28, discovercard_client.go 18-20,
vanguard_client.go 15-17. -/
def Kind.client : Kind → BasicClient → Client
  | .basic, bc => .basic bc
  | .discover, bc => .discover bc
  | .vanguard, bc => .vanguard bc

section
variable {α : Type}

/-- request.go 66-75 `SetClientFields`: six assignments, each with a call of a method of the
client before it. -/
def setClientFieldsProg (c a : Nat) (k : Prog α) : Prog α :=
  .clock fun now =>
  .set a (fun r => { r with signon := { r.signon with DtClient := now } }) <|
  .settings c fun b1 =>
  .set a (fun r => { r with version := b1.ofxVersion }) <|
  .settings c fun b2 =>
  .set a (fun r => { r with signon := { r.signon with AppID := b2.id } }) <|
  .settings c fun b3 =>
  .set a (fun r => { r with signon := { r.signon with AppVer := b3.version } }) <|
  .settings c fun b4 =>
  .set a (fun r => { r with indent := !b4.NoIndent }) <|
  .settings c fun b5 =>
  .set a (fun r => { r with carriageReturn := b5.CarriageReturn }) k

/-- request.go 45-55, the loop of `encodeMessageSet`, from the i-th message of the set on, with
n messages to come; `acc` is what was written before. -/
def messagesProg (a : Nat) (version : Nat) (s : MsgSet) (set : MsgType) :
    Nat → Nat → List Node → (Except Err (List Node) → Prog α) → Prog α
  | _, 0, acc, k => k (.ok acc)
  | i, n + 1, acc, k =>
    .get a fun r =>
      match (r.sets s)[i]? with
      | none => k (.ok acc)
      | some m =>
        if MessageImpl.type m ≠ set then
          k (.error (.plain ("Expected " ++ String.ofList set.string ++ " message , found " ++
            String.ofList (MessageImpl.type m).string)))
        else
          .set a (fun r => { r with sets := Function.update r.sets s <|
                    (r.sets s).modify i fun m => (MessageImpl.valid version m).2 }) <|
          match (MessageImpl.valid version m).1 with
          | some e => k (.error e)
          | none =>
            .get a fun r =>
              match (r.sets s)[i]? with
              | none => k (.ok acc)
              | some m =>
                match MessageImpl.encode m with
                | .error e => k (.error (.plain e))
                | .ok ns => messagesProg a version s set (i + 1) n (acc ++ ns) k

/-- request.go 137-141 with 38-62 `encodeMessageSet`: all sets in turn; how many messages there
are is read once, the version once for each set. -/
def setsProg (a : Nat) : List MsgSet → List Node → (Except Err (List Node) → Prog α) → Prog α
  | [], acc, k => k (.ok acc)
  | s :: ss, acc, k =>
    .get a fun r =>
    .get a fun r' =>
      if (r.sets s).length > 0 then
        messagesProg a r'.version s (.rq s) 0 (r.sets s).length [] fun
          | .error e => k (.error e)
          | .ok ns => setsProg a ss (acc ++ [.elem (MsgType.rq s).string ns]) k
      else setsProg a ss acc k

/-- request.go 80-152 `Request.Marshal`. -/
def marshalProg (a : Nat) (k : Except Err Doc → Prog α) : Prog α :=
  .get a fun r1 => .get a fun r2 =>            -- the header: version and line ends (line 84)
  .get a fun r3 =>                             -- indent (line 87)
  .get a fun r4 =>                             -- carriageReturn (line 90)
  .get a fun r5 =>                             -- Version (line 93)
  .get a fun r6 => .get a fun r7 =>            -- Signon.Valid (line 104)
  .set a (fun r => { r with signon := (r.signon.valid r6.version).2 }) <|
  match (r7.signon.valid r6.version).1 with
  | some e => k (.error (.plain e))
  | none =>
    .get a fun r8 =>                           -- writing the signon (line 111)
      match encodeAs "SONRQ".toList r8.signon with
      | .error e => k (.error (.plain e))
      | .ok ns =>
        setsProg a MsgSet.lists [] fun
          | .error e => k (.error e)
          | .ok rest =>
            k (.ok { header := (writeHeader r1.version r2.carriageReturn).getD [],
                     indent := r3.indent, carriageReturn := r4.carriageReturn,
                     openLeaves := decide (r5.version < ofxVersion200),
                     body := .elem "OFX".toList (.elem (MsgType.rq .signon).string ns :: rest) })

/-- client.go 83-88 and vanguard_client.go 114-135: `RequestNoParse` of the client at address c
with the request at address a, after SetClientFields. -/
def sendProg (kd : Kind) (c a : Nat) (k : RawResult → Prog α) : Prog α :=
  marshalProg a fun
    | .error e => k (none, some e)
    | .ok d =>
      .get a fun r => .settings c fun bc =>
      .send (.raw (kd.client bc) r.url d.bytes) fun res =>
        match kd with
        | .vanguard =>
          match res.1 with
          | none => k res
          | some resp =>
            if resp.contentLength ≤ 0 ∧ resp.cookies.length > 0 then
              marshalProg a fun
                | .error e => k (none, some e)
                | .ok d =>
                  .get a fun r => .send (.retry r.url d.bytes resp.cookies) k
            else k res
        | _ => k res

/-- client.go 80-89 `clientRequestNoParse` and vanguard_client.go 111-136: `RequestNoParse` of
the client at address c with the request at address a. -/
def requestNoParseProg (kd : Kind) (c a : Nat) (k : RawResult → Prog α) : Prog α :=
  setClientFieldsProg c a (sendProg kd c a k)

/-- What Request returns: client.go 93. -/
abbrev RequestResult := Option (Response Message) × Option Err

/-- client.go 93-105 `clientRequest`: `Request` of the client at address c with the request at
address a. -/
def requestProg (env : Env) (nt : NameTable) (kd : Kind) (c a : Nat) : Prog RequestResult :=
  requestNoParseProg kd c a fun
    | (_, some e) => .ret (none, some e)
    | (none, none) => .ret (none, some (.plain "nil dereference"))
    | (some resp, none) =>
      match parseResponse env nt resp.body with
      | (_, some e) => .close resp.id (.ret (none, some e))
      | (res, none) => .close resp.id (.ret (res, none))

/-- One step of a goroutine, with its network: what is left of it, the memory, and what it has
done so far. client.go 80-105, vanguard_client.go 111-142. -/
def Prog.step (net : Net) : Prog α → Mem → Trace → Prog α × Mem × Trace
  | .ret x, m, tr => (.ret x, m, tr)
  | .settings c k, m, tr => (k (m.clients c), m, tr)
  | .get a k, m, tr => (k (m.requests a), m, tr)
  | .set a f k, m, tr => (k, { m with requests := Function.update m.requests a (f (m.requests a)) }, tr)
  | .clock k, m, tr => (k net.now, m, tr)
  | .send c k, m, tr => (k (c.make net tr).1, m, (c.make net tr).2)
  | .close id k, m, tr => (k, m, tr ++ [.closed id])

/-- Goroutines running at the same time: the memory they share, what is left of each, and what
each has done on the network. client.go 80-105. -/
structure Running (α : Type) where
  mem : Mem
  progs : Nat → Prog α
  traces : Nat → Trace

/-- The i-th goroutine makes a step. client.go 80-105. -/
def Running.step (nets : Nat → Net) (s : Running α) (i : Nat) : Running α :=
  match (s.progs i).step (nets i) s.mem (s.traces i) with
  | (p, m, tr) => ⟨m, Function.update s.progs i p, Function.update s.traces i tr⟩

/-- Steps are made in the order of the schedule. client.go 80-105. -/
def Running.run (nets : Nat → Net) (s : Running α) (sched : List Nat) : Running α :=
  sched.foldl (Running.step nets) s

/-- A call of Request: the type of the client, and where client and request are. client.go 93. -/
structure Goroutine where
  kind : Kind
  client : Nat
  request : Nat

/-- Goroutines about to call Request. client.go 93. -/
def started (env : Env) (nt : NameTable) (gs : Nat → Goroutine) (m : Mem) : Running RequestResult :=
  ⟨m, fun i => requestProg env nt (gs i).kind (gs i).client (gs i).request, fun _ => []⟩

end
end Ofx
