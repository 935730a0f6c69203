import Verif.Model.Client
import Verif.Spec.Numeral
/-
What is said about the traces of clients.
-/
namespace Ofx.Spec
open Ofx

/-- The posts made by the library itself (redirections followed by net/http are not). -/
def posts (tr : Trace) : List HttpRequest :=
  tr.filterMap (fun e => match e with
    | .sent q => if q.hop = 0 then some q else none
    | _ => none)

/-- The responses obtained, in order. -/
def responses (tr : Trace) : List HttpResponse :=
  tr.filterMap (fun e => match e with
    | .opened r => some r
    | _ => none)

/-- The last response obtained. -/
def lastResponse (tr : Trace) : Option HttpResponse := (responses tr).getLast?

/-- The bytes written to hand-made connections. -/
def written (tr : Trace) : List (List UInt8) :=
  tr.filterMap (fun e => match e with
    | .wrote _ b => some b
    | _ => none)

/-- Whether a response makes net/http follow a redirection. -/
def Redirecting (r : HttpResponse) : Prop := r.status ∈ [301, 302, 303, 307, 308] ∧ r.location ≠ []

/-- An HTTP message as RFC 7230 frames it: lines without CR or LF, each ended by CR LF, an
empty line, and a body of as many bytes as the Content-Length line says. -/
def Framed (bytes body : List UInt8) : Prop :=
  ∃ (lines : List Str) (digits : Str), (∀ l ∈ lines, l ≠ [] ∧ '\r' ∉ l ∧ '\n' ∉ l) ∧
    lines.filter (fun l => "Content-Length:".toList.isPrefixOf l) = ["Content-Length: ".toList ++ digits] ∧
    IsNumeral digits ∧ value digits = body.length ∧
    bytes = toBytes (lines.flatMap (fun l => l ++ "\r\n".toList) ++ "\r\n".toList) ++ body

/-- The OFX version a client should use: its own if it is one of the eleven defined (numbered
from 1), and 203 (number 8) otherwise. -/
def effectiveVersion (own : Nat) : Nat := if 1 ≤ own ∧ own ≤ 11 then own else 8

/-- A setting, or its default if it is unset. -/
def orDefault (own default : Str) : Str := if own = [] then default else own

/-- The bytes are those of a document made with the settings of a client: the header is the one
of its version, the document starts with a SIGNONMSGSRQV1 whose SONRQ has the time, app id and
app version given, and it is laid out as the client wants. -/
def CarriesSettings (bc : BasicClient) (now : GoTime) (bytes : List UInt8) : Prop :=
  ∃ d : Doc, d.bytes = bytes ∧ writeHeader (effectiveVersion bc.SpecVersion) bc.CarriageReturn = some d.header ∧
    d.indent = !bc.NoIndent ∧ d.carriageReturn = bc.CarriageReturn ∧
    ∃ fields more rest, d.body = .elem "OFX".toList (.elem "SIGNONMSGSRQV1".toList [.elem "SONRQ".toList
      (textNode "DTCLIENT".toList (Date.marshal now) :: fields ++
        [textNode "APPID".toList (orDefault bc.AppID "OFXGO".toList),
         textNode "APPVER".toList (orDefault bc.AppVer "0001".toList)] ++ more)] :: rest)

end Ofx.Spec
