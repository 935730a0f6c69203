import Verif.Model.Decode
/-
Model of DecodeResponse on an io.Reader: the reader, and the bufio.Reader that response.go 287
puts around it.  The functions of package bufio follow its source (Go 1.2x, bufio/bufio.go);
its error values are strings.
-/
namespace Ofx

/-- An io.Reader, as what its calls of Read deliver: each time some bytes (possibly none), and
possibly an error with them.  In the end it delivers io.EOF for ever. -/
abbrev Source := List (List UInt8 × Option String)

/-- `Read(p)` with `len(p) = n`: no more than `n` bytes, the rest of what is there next time. -/
def Source.read (n : Nat) : Source → (List UInt8 × Option String) × Source
  | [] => (([], some "EOF"), [])
  | (c, e) :: rest => if c.length ≤ n then ((c, e), rest) else ((c.take n, none), (c.drop n, e) :: rest)

/-- `bufio.Reader`: `used` is `buf[:r]`, `buf` is `buf[r:w]`, `last` is `lastByte`.
Library code (bufio) run from response.go 39-45, 190, 287. -/
structure Bufio where
  size : Nat
  used : List UInt8
  buf : List UInt8
  err : Option String
  last : Option UInt8
  src : Source

/-- `bufio.NewReaderSize(rd, size)` (response.go 287, size 1024) for a reader that is not
itself a `*bufio.Reader` with a buffer at least as large; such a one is used as it is. -/
def Bufio.new (size : Nat) (src : Source) : Bufio := ⟨size, [], [], none, none, src⟩

/-- The loop in `(*Reader).fill`: at most `i` reads until bytes or an error come.
Library code (bufio) run from response.go 39-45, 190, 287. -/
def Bufio.tryRead : Nat → Bufio → Bufio
  | 0, b => { b with err := some "multiple Read calls return no data or error" }
  | i + 1, b =>
    let r := b.src.read (b.size - b.buf.length)
    let b' := { b with buf := b.buf ++ r.1.1, src := r.2 }
    match r.1.2 with
    | some e => { b' with err := some e }
    | none => if r.1.1 = [] then tryRead i b' else b'

/-- `(*Reader).fill`: the buffered bytes are moved to the front of the buffer.  (The panic on
a full buffer is not modelled: the callers exclude it.)
Library code (bufio) run from response.go 39-45, 190, 287. -/
def Bufio.fill (b : Bufio) : Bufio := Bufio.tryRead 100 { b with used := [] }

/-- The loop in `(*Reader).Peek(n)`.  Every `fill` adds a byte or sets the error, so that `n`
rounds are enough (`peekLoop_spec`).
Library code (bufio) run from response.go 39-45, 190, 287. -/
def Bufio.peekLoop (n : Nat) : Nat → Bufio → Bufio
  | 0, b => b
  | k + 1, b => if b.buf.length < n ∧ b.buf.length < b.size ∧ b.err = none then peekLoop n k b.fill else b

/-- `(*Reader).Peek(n)` for `n` up to the size of the buffer: the bytes returned.  The error is
left out: `guessVersion` ignores it (response.go 190).  If there are too few bytes the pending
error is taken from the reader. -/
def Bufio.peek (n : Nat) (b : Bufio) : List UInt8 × Bufio :=
  let b := Bufio.peekLoop n n { b with last := none }
  if b.buf.length < n then (b.buf, { b with err := none }) else (b.buf.take n, b)

/-- The loop in `(*Reader).ReadSlice(delim)`.  Every `fill` adds a byte or sets the error, so
that `size + 2` rounds are enough (`readSliceLoop_spec`).
Library code (bufio) run from response.go 39-45, 190, 287. -/
def Bufio.readSliceLoop (delim : UInt8) : Nat → Bufio → Except String (List UInt8 × Bufio)
  | 0, _ => .error "unreachable"
  | k + 1, b =>
    match b.buf.findIdx? (· == delim) with
    | some i => .ok (b.buf.take (i + 1), { b with used := b.used ++ b.buf.take (i + 1), buf := b.buf.drop (i + 1), last := some delim })
    | none =>
      match b.err with
      | some e => .error e
      | none => if b.size ≤ b.buf.length then .error "bufio: buffer full" else readSliceLoop delim k b.fill

/-- Library code (bufio) run from response.go 39-45, 190, 287. -/
def Bufio.readSlice (delim : UInt8) (b : Bufio) : Except String (List UInt8 × Bufio) :=
  Bufio.readSliceLoop delim (b.size + 2) b

/-- `(*Reader).UnreadByte`. Library code (bufio) run from response.go 39-45, 190, 287. -/
def Bufio.unreadByte (b : Bufio) : Except String Bufio :=
  match b.last with
  | none => .error "bufio: invalid use of UnreadByte"
  | some c =>
    if b.used = [] ∧ b.buf ≠ [] then .error "bufio: invalid use of UnreadByte"
    else .ok { b with used := b.used.dropLast, buf := c :: b.buf, last := none }

/-- `(*Reader).ReadByte`.  After `fill` there is a byte or an error (`fill_spec`), so the loop
runs at most twice. -/
def Bufio.readByte (b : Bufio) : Except String (UInt8 × Bufio) :=
  let take (b : Bufio) : Except String (UInt8 × Bufio) :=
    match b.buf, b.err with
    | c :: rest, _ => .ok (c, { b with used := b.used ++ [c], buf := rest, last := some c })
    | [], some e => .error e
    | [], none => .error "unreachable"
  if b.buf = [] ∧ b.err = none then take b.fill else take b

/-- The bytes an `xml.Decoder` can read: it calls `ReadByte` (a `*bufio.Reader` is used as it
is by `xml.NewDecoder`, response.go 300) until it gets an error, and then stops.  `k` is a
bound of their number. -/
def Bufio.drain : Nat → Bufio → List UInt8
  | 0, _ => []
  | k + 1, b =>
    match b.readByte with
    | .ok (c, b) => c :: drain k b
    | .error _ => []

/-- The bytes still to come, regardless of errors. -/
def Source.bytes (s : Source) : List UInt8 := s.flatMap (·.1)

/-- response.go 284-378 `DecodeResponse(reader)`: `b` is the buffer made at line 287. -/
def decodeReader (env : Env) (nt : NameTable) (b : Bufio) : Except String (Response Message) :=
  let size (b : Bufio) := b.buf.length + b.src.bytes.length
  let p := b.peek 1024
  if guessVersion (latin1 p.1) then
    match readXMLHeaders (lex true nt (utf8Decode (p.2.drain (size p.2)))) with
    | .error e => .error e
    | .ok (version, toks) => decodeBody env true version toks
  else
    match p.2.readSlice 60 with
    | .error e => .error e
    | .ok (s, b) =>
      match b.unreadByte with
      | .error e => .error e
      | .ok b =>
        match checkSGMLHeader (latin1 s) with
        | .error e => .error e
        | .ok version => decodeBody env false version (lex false nt (utf8Decode (b.drain (size b))))

/-- response.go 273-280 `ParseResponse(reader)`. -/
def parseReader (env : Env) (nt : NameTable) (b : Bufio) : Option (Response Message) × Option Err :=
  match decodeReader env nt b with
  | .error e => (none, some (.plain e))
  | .ok r => (some r, r.valid)

end Ofx
