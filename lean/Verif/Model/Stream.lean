import Verif.Model.Bufio
import Verif.Codec.Text
/-
How much of its reader DecodeResponse takes (response.go 284-378): the reader afterwards.
-/
namespace Ofx

/-- The input after `n` tokens have been read: `Decoder.rawToken` reads a token when it is asked
for the next one, and no further.  (A text is read up to the following '<', which the decoder
keeps; nothing is kept after an end tag.)  Library code run from response.go 316-377. -/
def lexAfter (strict : Bool) (nt : NameTable) (n : Nat) (s : Str) : Str :=
  if n = 0 then s
  else
    match lexOne strict nt s with
    | none => s
    | some (ts, r) => if r.length < s.length then lexAfter strict nt (n - ts.length) r else s
termination_by s.length

/-- The tokens that have not been read when the outermost of the open elements ends: see `build`,
with the names of the open elements only.  A token that ends an element without being its end
tag has been read.  Library code run from response.go 328-377. -/
def buildUnread (strict : Bool) (top : Str) (parents : List Str) (toks : List Tok) : List Tok :=
  match toks with
  | [] => []
  | t :: rest =>
    if closes strict top t then
      match parents with
      | [] => rest
      | p :: ps => if t = .stop top then buildUnread strict p ps rest else buildUnread strict p ps (t :: rest)
    else
      match t with
      | .start n => buildUnread strict n (top :: parents) rest
      | _ => buildUnread strict top parents rest
termination_by (toks.length, parents.length)

/-- response.go 316-377: the tokens that have not been read when the OFX element has ended (line
364); nothing is read after it. -/
def bodyUnread (strict : Bool) (toks : List Tok) : List Tok :=
  match skipBlank toks with
  | .start n :: rest => buildUnread strict n [] rest
  | toks => toks

/-- How many of the bytes the decoder has read, if it has not read the tokens `unread`.
response.go 300-377. -/
def taken (strict : Bool) (nt : NameTable) (bytes : List UInt8) (unread : List Tok) : Nat :=
  let s := utf8Decode bytes
  let rest := lexAfter strict nt ((lex strict nt s).length - unread.length) s
  (toBytes (s.take (s.length - rest.length))).length

/-- `ReadByte` called `n` times (response.go 300: the decoder calls the methods of the
bufio.Reader). -/
def Bufio.skip : Nat → Bufio → Bufio
  | 0, b => b
  | n + 1, b =>
    match b.readByte with
    | .ok (_, b) => skip n b
    | .error _ => b

/-- The body of the document (response.go 316-377), read from a bufio.Reader that holds
`bytes`: the response, and the bufio.Reader afterwards. -/
def finish (env : Env) (nt : NameTable) (strict : Bool) (version : Nat) (toks : List Tok) (bytes : List UInt8) (b : Bufio) :
    Except String (Response Message × Bufio) :=
  match decodeBody env strict version toks with
  | .error e => .error e
  | .ok r => .ok (r, b.skip (taken strict nt bytes (bodyUnread strict toks)))

/-- response.go 284-378 `DecodeResponse`, see `decodeReader`: the response, and the bufio.Reader
made at line 287 as it is afterwards. -/
def decodeNext (env : Env) (nt : NameTable) (b : Bufio) : Except String (Response Message × Bufio) :=
  let size (b : Bufio) := b.buf.length + b.src.bytes.length
  let p := b.peek 1024
  if guessVersion (latin1 p.1) then
    match readXMLHeaders (lex true nt (utf8Decode (p.2.drain (size p.2)))) with
    | .error e => .error e
    | .ok (version, toks) => finish env nt true version toks (p.2.drain (size p.2)) p.2
  else
    match p.2.readSlice 60 with
    | .error e => .error e
    | .ok (s, b) =>
      match b.unreadByte with
      | .error e => .error e
      | .ok b =>
        match checkSGMLHeader (latin1 s) with
        | .error e => .error e
        | .ok version =>
          finish env nt false version (lex false nt (utf8Decode (b.drain (size b)))) (b.drain (size b)) b

/-- What is passed to DecodeResponse: a `*bufio.Reader` with a buffer of 1024 bytes or more, or
another io.Reader.  (A `*bufio.Reader` with a smaller buffer is treated like one of the latter,
but its own buffer is not modelled.)  response.go 284. -/
inductive Input where
  | buffered (b : Bufio)
  | plain (src : Source)

/-- response.go 287 `bufio.NewReaderSize(reader, 1024)`, then as `decodeNext`: a `*bufio.Reader`
with a buffer of 1024 bytes or more is used itself; around any other reader a new one is put,
which is dropped at the end. -/
def decodeFrom (env : Env) (nt : NameTable) : Input → Except String (Response Message × Input)
  | .buffered b =>
    match decodeNext env nt b with
    | .error e => .error e
    | .ok (r, b') => .ok (r, .buffered b')
  | .plain src =>
    match decodeNext env nt (Bufio.new 1024 src) with
    | .error e => .error e
    | .ok (r, b') => .ok (r, .plain b'.src)

/-- DecodeResponse called again and again with the same reader until it fails: the responses,
at most `n`.  A loop around response.go 284. -/
def decodeMany (env : Env) (nt : NameTable) : Nat → Input → List (Response Message)
  | 0, _ => []
  | n + 1, i =>
    match decodeFrom env nt i with
    | .error _ => []
    | .ok (r, i) => r :: decodeMany env nt n i

end Ofx
