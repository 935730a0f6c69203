import Verif.Model.Header
import Verif.Model.Marshal
import Verif.Codec.Tree
/-
Model of ParseResponse and DecodeResponse (response.go 273-378) on the bytes of a document.
-/
namespace Ofx

/-- Bytes as characters. response.go 39-48, 190. -/
def latin1 (bs : List UInt8) : Str := bs.map (fun b => Char.ofNat b.toNat)

/-- The next character of UTF-8 input. Library code run from response.go 300-328. -/
def utf8Next (bs : List UInt8) : Option (Char × List UInt8) :=
  match bs.toByteArray.utf8DecodeChar? 0 with
  | some c => some (c, bs.drop c.utf8Size)
  | none => none

/-- The characters of UTF-8 input, up to its end or the first invalid byte (where
encoding/xml reports an error). Library code run from response.go 300-328. -/
def utf8Decode (bs : List UInt8) : Str :=
  match utf8Next bs with
  | some (c, rest) => if rest.length < bs.length then c :: utf8Decode rest else []
  | none => []
termination_by bs.length

/-- response.go 39-47: ReadSlice('<') within the buffer of 1024 bytes (line 287), and
UnreadByte: the text up to and including '<', and the remaining input starting at '<'. -/
def readSlice (bs : List UInt8) : Except String (Str × List UInt8) :=
  match indexOf ['<'] (latin1 (bs.take 1024)) with
  | some i => .ok (latin1 (bs.take (i + 1)), bs.drop i)
  | none => .error "bufio: buffer full or EOF"

/-- response.go 316-377, from the tokens after the header. -/
def decodeBody (env : Env) (strict : Bool) (version : Nat) (toks : List Tok) : Except String (Response Message) :=
  match skipBlank toks with
  | .start n :: rest =>
    match build strict (n, []) [] rest with
    | .ok (root, _) => decodeOfx env version root
    | .error e => .error e
  | _ => .error "Missing opening OFX xml element"

/-- response.go 284-378 `DecodeResponse` on all bytes the reader delivers.  (Elements are
read completely before they are interpreted: which of several errors is reported is not
modelled.) -/
def decodeResponse (env : Env) (nt : NameTable) (bs : List UInt8) : Except String (Response Message) :=
  if guessVersion (latin1 (bs.take 1024)) then
    match readXMLHeaders (lex true nt (utf8Decode bs)) with
    | .error e => .error e
    | .ok (version, toks) => decodeBody env true version toks
  else
    match readSlice bs with
    | .error e => .error e
    | .ok (s, rest) =>
      match checkSGMLHeader s with
      | .error e => .error e
      | .ok version => decodeBody env false version (lex false nt (utf8Decode rest))

/-- response.go 273-280 `ParseResponse`: the response and the error returned. -/
def parseResponse (env : Env) (nt : NameTable) (bs : List UInt8) : Option (Response Message) × Option Err :=
  match decodeResponse env nt bs with
  | .error e => (none, some (.plain e))
  | .ok r => (some r, r.valid)

end Ofx
