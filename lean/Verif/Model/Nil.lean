import Verif.Model.Marshal
/-
Message lists as Go has them: an entry of a `[]Message` may be nil, or a nil pointer to one of the
message types.  (Elsewhere in the model every entry is a message.)
-/
namespace Ofx

/-- The types implementing Message, all with pointer receivers. common.go 50-56. -/
inductive MsgKind where
  | statementRequest | statementResponse | ccStatementRequest | ccStatementResponse | invStatementRequest | invStatementResponse
  | profileRequest | profileResponse | secListRequest | secListResponse | securityList | acctInfoRequest | acctInfoResponse
deriving DecidableEq

/-- The `Type` methods, which do not look at their receiver: bank.go 48-50, 364-366;
creditcard.go 41-43, 89-91; invstmt.go 47-49, 1519-1521; profile.go 40-42, 204-206; seclist.go
55-57, 89-91, 267-269; signup.go 36-38, 164-166. -/
def MsgKind.type : MsgKind → MsgType
  | .statementRequest => .rq .bank
  | .statementResponse => .rs .bank
  | .ccStatementRequest => .rq .creditCard
  | .ccStatementResponse => .rs .creditCard
  | .invStatementRequest => .rq .invStmt
  | .invStatementResponse => .rs .invStmt
  | .profileRequest => .rq .prof
  | .profileResponse => .rs .prof
  | .secListRequest => .rq .secList
  | .secListResponse => .rs .secList
  | .securityList => .rs .secList
  | .acctInfoRequest => .rq .signup
  | .acctInfoResponse => .rs .signup

/-- An entry of a list of messages (request.go 19-32, response.go 21-34): the nil interface, a nil
pointer of one of the types, or a pointer to a message. -/
inductive Entry where
  | nil
  | nilPtr (k : MsgKind)
  | msg (m : Message)

/-- Calling `Type` (request.go 46): panics for the nil interface. -/
def Entry.type : Entry → Outcome MsgType
  | .nil => .panic
  | .nilPtr k => .ret k.type
  | .msg m => .ret m.type

/-- Calling `Valid` (request.go 49, response.go 403): all methods start by reading a field of their
receiver (bank.go 34, 328; creditcard.go 32, 80; invstmt.go 38, 1510; profile.go 30, 195; seclist.go
46, 80; signup.go 27, 155) except that of SecurityList (seclist.go 260-263). -/
def Entry.valid (version : Nat) : Entry → Outcome (Option Err × Entry)
  | .nil => .panic
  | .nilPtr k => if k = .securityList then .ret (none, .nilPtr k) else .panic
  | .msg m => .ret (((m.valid version).1.map Err.plain), .msg (m.valid version).2)

/-- `e.Encode` (request.go 52): encoding/xml writes nothing for nil interfaces and pointers. -/
def Entry.encode : Entry → Except String (List Node)
  | .nil => .ok []
  | .nilPtr _ => .ok []
  | .msg m => m.encode

/-- request.go 45-55: the loop of `encodeMessageSet`. (What Valid changes is not tracked here.) -/
def encodeEntries (version : Nat) (set : MsgType) : List Entry → Outcome (Except Err (List Node))
  | [] => .ret (.ok [])
  | e :: es =>
    e.type.bind fun t =>
      if t ≠ set then
        .ret (.error (.plain ("Expected " ++ String.ofList set.string ++ " message , found " ++ String.ofList t.string)))
      else (e.valid version).bind fun v =>
        match v.1 with
        | some err => .ret (.error err)
        | none =>
          match v.2.encode with
          | .error err => .ret (.error (.plain err))
          | .ok ns =>
            (encodeEntries version set es).bind fun r => .ret (r.map (ns ++ ·))

/-- request.go 38-62 `encodeMessageSet`. -/
def encodeEntrySet (version : Nat) (set : MsgType) (es : List Entry) : Outcome (Except Err (List Node)) :=
  if es.length > 0 then (encodeEntries version set es).bind fun r => .ret (r.map fun ns => [.elem set.string ns])
  else .ret (.ok [])

/-- request.go 137-141 / response.go 462-466: all sets in turn. -/
def encodeEntrySets (version : Nat) (type : MsgSet → MsgType) (f : MsgSet → List Entry) :
    List MsgSet → Outcome (Except Err (List Node))
  | [] => .ret (.ok [])
  | s :: ss =>
    (encodeEntrySet version (type s) (f s)).bind fun r =>
      match r with
      | .error e => .ret (.error e)
      | .ok ns => (encodeEntrySets version type f ss).bind fun r => .ret (r.map (ns ++ ·))

/-- request.go 80-152 `Request.Marshal`. -/
def Request.marshalEntries (r : Request Entry) : Outcome (Except Err Doc) :=
  match r.signon.valid r.version with
  | (some e, _) => .ret (.error (.plain e))
  | (none, so) =>
    match encodeAs "SONRQ".toList so with
    | .error e => .ret (.error (.plain e))
    | .ok ns =>
      (encodeEntrySets r.version .rq r.sets MsgSet.lists).bind fun x => .ret (x.map fun rest =>
        { header := (writeHeader r.version r.carriageReturn).getD [],
          indent := r.indent, carriageReturn := r.carriageReturn,
          openLeaves := decide (r.version < ofxVersion200),
          body := .elem "OFX".toList (.elem (MsgType.rq .signon).string ns :: rest) })

/-- response.go 414-476 `Response.Marshal`. -/
def Response.marshalEntries (r : Response Entry) : Outcome (Except Err Doc) :=
  match r.signon.valid r.version with
  | some e => .ret (.error (.plain e))
  | none =>
    match encodeAs "SONRS".toList r.signon with
    | .error e => .ret (.error (.plain e))
    | .ok ns =>
      (encodeEntrySets r.version .rs r.sets MsgSet.lists).bind fun x => .ret (x.map fun rest =>
        { header := (writeHeader r.version false).getD [], indent := true, carriageReturn := false,
          openLeaves := false,
          body := .elem "OFX".toList (.elem (MsgType.rs .signon).string ns :: rest) })

/-- response.go 401-405: the loop over the messages of one list. -/
def addEntryErrs (version : Nat) : List Err → List Entry → Outcome (List Err)
  | errs, [] => .ret errs
  | errs, e :: es => (e.valid version).bind fun v => addEntryErrs version (addErr errs v.1) es

/-- response.go 385-406: the loop over the message lists. -/
def addEntrySetErrs (version : Nat) (f : MsgSet → List Entry) : List Err → List MsgSet → Outcome (List Err)
  | errs, [] => .ret errs
  | errs, s :: ss => (addEntryErrs version errs (f s)).bind fun errs => addEntrySetErrs version f errs ss

/-- response.go 380-409 `Response.Valid`. -/
def Response.validEntries (r : Response Entry) : Outcome (Option Err) :=
  (addEntrySetErrs r.version r.sets (addErr [] ((r.signon.valid r.version).map Err.plain)) MsgSet.lists).bind fun errs =>
    .ret (errOrNil errs)

/-- A request whose lists hold messages only. request.go 15-36. -/
def Request.entries (r : Request Message) : Request Entry := { r with sets := fun s => (r.sets s).map .msg }

/-- A response whose lists hold messages only. response.go 19-36. -/
def Response.entries (r : Response Message) : Response Entry := { r with sets := fun s => (r.sets s).map .msg }

end Ofx
