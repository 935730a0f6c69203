import Verif.Model.Message
/-
Model of request.go and of Response.Marshal/Valid (response.go 380-508), writeHeader
(common.go 14-47).  A marshalled document is kept as header text, body element and
rendering options; how encoding/xml renders elements as text is modelled in Codec/Text.
-/
namespace Ofx

/-- Text of an enum value; the panics of `String` are for out-of-range values only.
constants.go 42-47. -/
def ofxVersionString (v : Nat) : Str :=
  match enumOfxVersion.string v with
  | .ret s => s
  | .panic => []

/-- strings.Replace(s, "\n", "\r\n", -1). common.go 30. -/
def crlf (s : Str) : Str := s.flatMap (fun c => if c = '\n' then ['\r', '\n'] else [c])

/-- common.go 14-47 `writeHeader`: the text written; `none` stands for the error, with
nothing written. -/
def writeHeader (v : Nat) (carriageReturn : Bool) : Option Str :=
  if 1 ≤ v ∧ v ≤ 4 then
    let header := "OFXHEADER:100\nDATA:OFXSGML\nVERSION:".toList ++ ofxVersionString v ++
      "\nSECURITY:NONE\nENCODING:USASCII\nCHARSET:1252\nCOMPRESSION:NONE\nOLDFILEUID:NONE\nNEWFILEUID:NONE\n\n".toList
    some (if carriageReturn then crlf header else header)
  else if 5 ≤ v ∧ v ≤ 11 then
    let nl := if carriageReturn then ['\r', '\n'] else ['\n']
    some ("<?xml version=\"1.0\" encoding=\"UTF-8\" standalone=\"no\"?>".toList ++ nl ++
      "<?OFX OFXHEADER=\"200\" VERSION=\"".toList ++ ofxVersionString v ++
      "\" SECURITY=\"NONE\" OLDFILEUID=\"NONE\" NEWFILEUID=\"NONE\"?>".toList ++ nl)
  else none

/-- A marshalled document. request.go 80-152, response.go 414-476. -/
structure Doc where
  header : Str
  /-- encoder.Indent was called -/
  indent : Bool
  /-- encoder.CarriageReturn(true) was called -/
  carriageReturn : Bool
  /-- leaf elements are written without end tags (SetDisableAutoClose) -/
  openLeaves : Bool
  body : Node

/-- request.go 15-36 `Request`: the message lists are indexed by message set, e.g.
`sets .bank` is the field Bank. -/
structure Request (M : Type) where
  url : Str
  version : Nat
  signon : SignonRequest
  sets : MsgSet → List M
  indent : Bool
  carriageReturn : Bool

/-- response.go 19-36 `Response`. -/
structure Response (M : Type) where
  version : Nat
  signon : SignonResponse
  sets : MsgSet → List M

section
variable {M : Type} [MessageImpl M]

/-- request.go 45-55: the loop of `encodeMessageSet`: the elements written and the messages
afterwards. -/
def encodeMessages (version : Nat) (set : MsgType) : List M → Except Err (List Node) × List M
  | [] => (.ok [], [])
  | m :: ms =>
    if MessageImpl.type m ≠ set then
      (.error (.plain ("Expected " ++ String.ofList set.string ++ " message , found " ++
        String.ofList (MessageImpl.type m).string)), m :: ms)
    else
      match MessageImpl.valid version m with
      | (some e, m') => (.error e, m' :: ms)
      | (none, m') =>
        match MessageImpl.encode m' with
        | .error e => (.error (.plain e), m' :: ms)
        | .ok ns =>
          match encodeMessages version set ms with
          | (.error e, ms') => (.error e, m' :: ms')
          | (.ok rest, ms') => (.ok (ns ++ rest), m' :: ms')

/-- request.go 38-62 `encodeMessageSet`. -/
def encodeMessageSet (version : Nat) (set : MsgType) (ms : List M) : Except Err (List Node) × List M :=
  if ms.length > 0 then
    match encodeMessages version set ms with
    | (.ok ns, ms') => (.ok [.elem set.string ns], ms')
    | (.error e, ms') => (.error e, ms')
  else (.ok [], ms)

/-- request.go 137-141 / response.go 462-466: all sets in turn. -/
def encodeSets (version : Nat) (type : MsgSet → MsgType) :
    List MsgSet → (MsgSet → List M) → Except Err (List Node) × (MsgSet → List M)
  | [], f => (.ok [], f)
  | s :: ss, f =>
    match encodeMessageSet version (type s) (f s) with
    | (.error e, ms) => (.error e, Function.update f s ms)
    | (.ok ns, ms) =>
      match encodeSets version type ss (Function.update f s ms) with
      | (.error e, g) => (.error e, g)
      | (.ok rest, g) => (.ok (ns ++ rest), g)

/-- request.go 80-152 `Request.Marshal`: the document or error, and the request afterwards.
The error of writeHeader is ignored (line 84).  Indentation and line ends are rendering
options only. -/
def Request.marshal (r : Request M) : Except Err Doc × Request M :=
  match r.signon.valid r.version with
  | (some e, so) => (.error (.plain e), { r with signon := so })
  | (none, so) =>
    match encodeAs "SONRQ".toList so with
    | .error e => (.error (.plain e), { r with signon := so })
    | .ok ns =>
      match encodeSets r.version .rq MsgSet.lists r.sets with
      | (.error e, f) => (.error e, { r with signon := so, sets := f })
      | (.ok rest, f) =>
        (.ok { header := (writeHeader r.version r.carriageReturn).getD [],
               indent := r.indent, carriageReturn := r.carriageReturn,
               openLeaves := decide (r.version < ofxVersion200),
               body := .elem "OFX".toList (.elem (MsgType.rq .signon).string ns :: rest) },
         { r with signon := so, sets := f })

/-- response.go 414-476 `Response.Marshal`: always indented, leaf elements always closed. -/
def Response.marshal (r : Response M) : Except Err Doc × Response M :=
  match r.signon.valid r.version with
  | some e => (.error (.plain e), r)
  | none =>
    match encodeAs "SONRS".toList r.signon with
    | .error e => (.error (.plain e), r)
    | .ok ns =>
      match encodeSets r.version .rs MsgSet.lists r.sets with
      | (.error e, f) => (.error e, { r with sets := f })
      | (.ok rest, f) =>
        (.ok { header := (writeHeader r.version false).getD [], indent := true, carriageReturn := false,
               openLeaves := false,
               body := .elem "OFX".toList (.elem (MsgType.rs .signon).string ns :: rest) },
         { r with sets := f })

/-- response.go 490-498 `errInvalid.AddErr`. -/
def addErr (errs : List Err) : Option Err → List Err
  | none => errs
  | some (.invalid es) => errs ++ es
  | some e => errs ++ [e]

/-- response.go 500-505 `errInvalid.ErrOrNil`. -/
def errOrNil (errs : List Err) : Option Err :=
  if errs.length > 0 then some (.invalid errs) else none

/-- response.go 401-405: the loop over the messages of one list.  (The changes that Valid
makes to a message are not tracked here.) -/
def addMessageErrs (version : Nat) : List Err → List M → List Err
  | errs, [] => errs
  | errs, m :: ms => addMessageErrs version (addErr errs (MessageImpl.valid version m).1) ms

/-- response.go 385-406: the loop over the message lists. -/
def addSetErrs (version : Nat) (f : MsgSet → List M) : List Err → List MsgSet → List Err
  | errs, [] => errs
  | errs, s :: ss => addSetErrs version f (addMessageErrs version errs (f s)) ss

/-- response.go 380-409 `Response.Valid`. -/
def Response.valid (r : Response M) : Option Err :=
  errOrNil (addSetErrs r.version r.sets (addErr [] ((r.signon.valid r.version).map Err.plain)) MsgSet.lists)

end

mutual
/-- response.go 482-488 `errInvalid.Error`, and `Error` of plain errors. -/
def Err.error : Err → String
  | .plain m => m
  | .invalid es => "Validation failed: " ++ String.intercalate "; " (Err.errors es)
/-- The errors of an errInvalid, response.go 480-505. -/
def Err.errors : List Err → List String
  | [] => []
  | e :: es => e.error :: Err.errors es
end

/-! ### DecodeResponse on element trees -/

/-- response.go 342-357 `messageSlices` (and the keys of `responseTypes`). -/
def setOfName (n : Str) : Option MsgSet := MsgSet.lists.find? (fun s => (MsgType.rs s).string == n)

/-- response.go 238-263: the elements of one message set. -/
def decodeMessageNode (env : Env) (set : MsgSet) : Node → Except String Message
  | .elem n cs => decodeMessage env set n cs
  | _ => .error "Didn't find an opening element"

/-- response.go 233-264 `decodeMessageSet`: the messages appended to the list. -/
def decodeMessageSet (env : Env) (set : MsgSet) (cs : List Node) : Except String (List Message) :=
  mapE (decodeMessageNode env set) (cs.filter (fun c => !isBlank c))

/-- response.go 359-376: the message sets after the signon. -/
def decodeSets (env : Env) (f : MsgSet → List Message) : List Node → Except String (MsgSet → List Message)
  | [] => .ok f
  | .elem n cs :: rest =>
    match setOfName n with
    | none => .error "Invalid message set"
    | some s =>
      match decodeMessageSet env s cs with
      | .error e => .error e
      | .ok ms => decodeSets env (Function.update f s (f s ++ ms)) rest
  | _ :: _ => .error "Found unexpected token"

/-- decoder.Decode: skip to the first start element (everything before it, including text
and comments). response.go 328. -/
def firstElem : List Node → Option (Str × List Node × List Node)
  | [] => none
  | .elem n cs :: rest => some (n, cs, rest)
  | _ :: rest => firstElem rest

/-- response.go 323-340: the children of SIGNONMSGSRSV1.  If it holds no element, Decode runs
past its end tag: whatever element follows, the closing tag is then missing (line 339), so
this is an error. -/
def decodeSignon (env : Env) (cs : List Node) : Except String SignonResponse :=
  match firstElem cs with
  | none => .error "Missing closing SIGNONMSGSRSV1 xml element"
  | some (n, ch, rest) =>
    match decodeNew env n ch with
    | .error e => .error e
    | .ok so =>
      if rest.all isBlank then .ok so else .error "Missing closing SIGNONMSGSRSV1 xml element"

/-- response.go 323-377: the children of the OFX element (without white space). -/
def decodeOfxChildren (env : Env) (version : Nat) : List Node → Except String (Response Message)
  | .elem sn sc :: rest =>
    if sn = (MsgType.rs .signon).string then
      match decodeSignon env sc with
      | .error e => .error e
      | .ok so =>
        match decodeSets env (fun _ => []) rest with
        | .error e => .error e
        | .ok f => .ok ⟨version, so, f⟩
    else .error "Missing opening SIGNONMSGSRSV1 xml element"
  | _ => .error "Missing opening SIGNONMSGSRSV1 xml element"

/-- response.go 316-377: DecodeResponse after the header, given the OFX element. -/
def decodeOfx (env : Env) (version : Nat) : Node → Except String (Response Message)
  | .elem n cs =>
    if n = "OFX".toList then decodeOfxChildren env version (cs.filter (fun c => !isBlank c))
    else .error "Missing opening OFX xml element"
  | _ => .error "Missing opening OFX xml element"

end Ofx
