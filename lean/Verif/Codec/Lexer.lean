import Verif.Codec.Xml
/-
The tokens of github.com/aclindsa/xml: `Decoder.rawToken` and the functions below it, on
decoded characters.  The library is a fork of Go's encoding/xml and not part of /repo; this
file records the behaviour assumed.

Simplifications: names with a colon (namespace prefixes) are refused; declaring another encoding
has no effect, as DecodeResponse's CharsetReader returns its input (response.go 307-309).
An error is the end of the token list: every caller in ofxgo fails both at the end of the
input and at a syntax error.
-/
namespace Ofx

/-- Library code run from response.go 300-328. -/
inductive Tok where
  | start (name : Str)
  | stop (name : Str)
  | text (s : Str)
  | proc (target inst : Str)
  /-- a comment or a directive -/
  | misc
deriving Repr, DecidableEq

/-- The Unicode tables for names beyond ASCII (xml.go `first` and `second`). -/
structure NameTable where
  first : Char → Bool
  second : Char → Bool

/-- `isNameByte`, or any byte of a character beyond ASCII.
Library code run from response.go 300-328. -/
def isNameByte (c : Char) : Bool :=
  c.isAlphanum || c == '_' || c == ':' || c == '.' || c == '-' || decide (128 ≤ c.toNat)

/-- `isName`: the characters a name may start with ...
Library code run from response.go 300-328. -/
def NameTable.isFirst (nt : NameTable) (c : Char) : Bool :=
  if c.toNat < 128 then c.isAlpha || c == '_' else nt.first c

/-- ... and those that may follow. Library code run from response.go 300-328. -/
def NameTable.isNext (nt : NameTable) (c : Char) : Bool :=
  if c.toNat < 128 then c.isAlphanum || c == '_' || c == '.' || c == '-' else nt.first c || nt.second c

/-- `isName`, without colons. Library code run from response.go 300-328. -/
def NameTable.isName (nt : NameTable) : Str → Bool
  | [] => false
  | c :: cs => nt.isFirst c && cs.all nt.isNext

/-- `Decoder.name`: the name at the front of the input.
Library code run from response.go 300-328. -/
def lexName (nt : NameTable) (s : Str) : Option (Str × Str) :=
  if nt.isName (s.takeWhile isNameByte) then some (s.takeWhile isNameByte, s.dropWhile isNameByte) else none

/-- The white space of XML. Library code run from response.go 300-328. -/
def isXmlSpace (c : Char) : Bool := c == ' ' || c == '\t' || c == '\n' || c == '\r'

/-- `Decoder.space`. Library code run from response.go 300-328. -/
def skipSpace (s : Str) : Str := s.dropWhile isXmlSpace

/-- `isInCharacterRange`. Library code run from response.go 300-328. -/
def isXmlChar (c : Char) : Bool :=
  let n := c.toNat
  n == 9 || n == 10 || n == 13 || (32 ≤ n && n ≤ 0xD7FF) || (0xE000 ≤ n && n ≤ 0xFFFD) || (0x10000 ≤ n && n ≤ 0x10FFFF)

/-- Value of a hexadecimal digit. Library code run from response.go 300-328. -/
def hexV (c : Char) : Nat :=
  if isDigit c then c.toNat - 48 else if 97 ≤ c.toNat then c.toNat - 87 else c.toNat - 55

/-- Library code run from response.go 300-328. -/
def isHex (c : Char) : Bool :=
  isDigit c || (decide (97 ≤ c.toNat) && decide (c.toNat ≤ 102)) || (decide (65 ≤ c.toNat) && decide (c.toNat ≤ 70))

/-- `string(rune(n))`: surrogates become U+FFFD. Library code run from response.go 300-328. -/
def runeOf (n : Nat) : Char := if h : n.isValidChar then Char.ofNatAux n h else Char.ofNat 0xFFFD

/-- A character reference up to and including its semicolon.
Library code run from response.go 300-328. -/
def charRef (digits : Str) (base : Nat) (value : Char → Nat) : Str → Option (Char × Str)
  | ';' :: r =>
    let n := digits.foldl (fun a c => a * base + value c) 0
    if digits.isEmpty || decide (0x10FFFF < n) then none else some (runeOf n, r)
  | _ => none

/-- The predefined entities. Library code run from response.go 300-328. -/
def namedEntity (n : Str) : Option Char :=
  if n = "lt".toList then some '<'
  else if n = "gt".toList then some '>'
  else if n = "amp".toList then some '&'
  else if n = "apos".toList then some '\''
  else if n = "quot".toList then some '"'
  else none

/-- `Decoder.text`: the entity after an ampersand, and what follows it.
Library code run from response.go 300-328. -/
def entity : Str → Option (Char × Str)
  | '#' :: 'x' :: s => charRef (s.takeWhile isHex) 16 hexV (s.dropWhile isHex)
  | '#' :: s => charRef (s.takeWhile isDigit) 10 digitV (s.dropWhile isDigit)
  | s =>
    match s.dropWhile isNameByte with
    | ';' :: r =>
      match namedEntity (s.takeWhile isNameByte) with
      | some c => some (c, r)
      | none => none
    | _ => none

/-- `Decoder.text`: entities of character data.  Unknown entities are errors in strict mode
and kept as they are otherwise.  (What follows an entity is shorter: the length test is
always true.) Library code run from response.go 300-328. -/
def unescape (strict : Bool) (s : Str) : Option Str :=
  match s with
  | [] => some []
  | c :: r =>
    if c = '&' then
      match entity r with
      | some (x, r') => if r'.length < r.length + 1 then (unescape strict r').map (x :: ·) else none
      | none => if strict then none else (unescape strict r).map ('&' :: ·)
    else (unescape strict r).map (c :: ·)
termination_by s.length

/-- `Decoder.text`: line ends become "\n". Library code run from response.go 300-328. -/
def normLines : Str → Str
  | [] => []
  | '\r' :: '\n' :: r => '\n' :: normLines r
  | '\r' :: r => '\n' :: normLines r
  | c :: r => c :: normLines r

/-- Character data up to the next tag. Library code run from response.go 300-328. -/
def textToken (strict : Bool) (raw : Str) : Option Str :=
  if contains "]]>".toList raw then none
  else
    match unescape strict (normLines raw) with
    | some t => if t.all isXmlChar then some t else none
    | none => none

/-- bytes.SplitN(s, sep, 2), bytes.Index: the parts before and after the first occurrence. -/
def cut (sep : Str) : Str → Option (Str × Str)
  | [] => if sep.isEmpty then some ([], []) else none
  | c :: s =>
    if sep.isPrefixOf (c :: s) then some ([], (c :: s).drop sep.length)
    else
      match cut sep s with
      | some (a, b) => some (c :: a, b)
      | none => none

/-- The rest after a comment; two hyphens may only end it.
Library code run from response.go 300-328. -/
def afterComment : Str → Option Str
  | [] => none
  | c :: r =>
    if c = '-' then
      match r with
      | '-' :: '>' :: r' => some r'
      | '-' :: _ => none
      | _ => afterComment r
    else afterComment r

/-- Where in a directive the input is: outside quotes and comments, in quotes, after '<' and some
characters of "!--", or in a comment after so many hyphens.
Library code run from response.go 300-328. -/
inductive DirMode where
  | plain
  | quoted (q : Char)
  | opened (seen : Nat)
  | comment (hyphens : Nat)
deriving Repr, DecidableEq

/-- A character of a directive outside quotes and comments: none if it ends the directive,
otherwise what follows and the depth of angle brackets. Library code run from response.go 300-328. -/
def dirPlain (depth : Nat) (c : Char) : Option (DirMode × Nat) :=
  if c = '>' then
    match depth with
    | 0 => none
    | d + 1 => some (.plain, d)
  else if c = '<' then some (.opened 0, depth)
  else if c = '\'' ∨ c = '"' then some (.quoted c, depth)
  else some (.plain, depth)

/-- A character of a directive.  A '<' counts as an angle bracket only if no comment starts with
it. Library code run from response.go 300-328. -/
def dirStep (mode : DirMode) (depth : Nat) (c : Char) : Option (DirMode × Nat) :=
  match mode with
  | .plain => dirPlain depth c
  | .quoted q => some (if c = q then .plain else .quoted q, depth)
  | .opened 0 => if c = '!' then some (.opened 1, depth) else dirPlain (depth + 1) c
  | .opened 1 => if c = '-' then some (.opened 2, depth) else dirPlain (depth + 1) c
  | .opened _ => if c = '-' then some (.comment 0, depth) else dirPlain (depth + 1) c
  | .comment 0 => some (.comment (if c = '-' then 1 else 0), depth)
  | .comment 1 => some (.comment (if c = '-' then 2 else 0), depth)
  | .comment _ => some (if c = '>' then .plain else .comment (if c = '-' then 2 else 0), depth)

/-- The rest after a directive; angle brackets nest outside quotes and comments.
Library code run from response.go 300-328. -/
def afterDirective (mode : DirMode) (depth : Nat) : Str → Option Str
  | [] => none
  | c :: r =>
    match dirStep mode depth c with
    | none => some r
    | some (mode', depth') => afterDirective mode' depth' r

/-- `Decoder.attrval`: the rest after an attribute value.
Library code run from response.go 300-328. -/
def afterAttrVal (strict : Bool) : Str → Option Str
  | [] => none
  | q :: r =>
    if q = '"' ∨ q = '\'' then
      match r.dropWhile (fun c => c != q && c != '<') with
      | c :: r' =>
        if c = q then (textToken strict (r.takeWhile (fun c => c != q && c != '<'))).map (fun _ => r') else none
      | [] => none
    else if strict then none
    else some ((q :: r).dropWhile (fun c => c.isAlphanum || c == '_' || c == ':' || c == '-'))

/-- The attributes of a start tag and its end: whether the element is empty, and the rest.
`fuel` bounds the number of attributes. Library code run from response.go 300-328. -/
def afterAttrs (strict : Bool) (nt : NameTable) : Nat → Str → Option (Bool × Str)
  | 0, _ => none
  | fuel + 1, s =>
    match skipSpace s with
    | [] => none
    | c :: r =>
      if c = '/' then
        match r with
        | '>' :: r' => some (true, r')
        | _ => none
      else if c = '>' then some (false, r)
      else
        match lexName nt (c :: r) with
        | none => none
        | some (_, r1) =>
          match skipSpace r1 with
          | [] => none
          | e :: r2 =>
            if e = '=' then
              match afterAttrVal strict (skipSpace r2) with
              | some r3 => afterAttrs strict nt fuel r3
              | none => none
            else if strict then none
            else afterAttrs strict nt fuel (e :: r2)

/-- xml.go `procInst`: the value of a parameter of the xml declaration. -/
def procParam (param inst : Str) : Str :=
  match cut (param ++ ['=']) inst with
  | some (_, q :: v) =>
    if q = '"' ∨ q = '\'' then
      match cut [q] v with
      | some (value, _) => value
      | none => []
    else []
  | _ => []

/-- Only XML 1.0 is accepted. Library code run from response.go 300-328. -/
def procOk (target inst : Str) : Bool :=
  if target = "xml".toList then
    procParam "version".toList inst == [] || procParam "version".toList inst == "1.0".toList
  else true

/-- An end tag, after "</". Library code run from response.go 300-328. -/
def lexStop (nt : NameTable) (s : Str) : Option (List Tok × Str) :=
  match lexName nt s with
  | none => none
  | some (n, r) =>
    match skipSpace r with
    | '>' :: r' => some ([.stop n], r')
    | _ => none

/-- A processing instruction, after "<?". Library code run from response.go 300-328. -/
def lexProc (nt : NameTable) (s : Str) : Option (List Tok × Str) :=
  match lexName nt s with
  | none => none
  | some (target, r) =>
    match cut "?>".toList (skipSpace r) with
    | some (inst, r') => if procOk target inst then some ([.proc target inst], r') else none
    | none => none

/-- A comment, CDATA section or directive, after "<!".
Library code run from response.go 300-328. -/
def lexBang : Str → Option (List Tok × Str)
  | [] => none
  | c :: r =>
    if c = '-' then
      match r with
      | '-' :: r' => (afterComment r').map (fun x => ([.misc], x))
      | _ => none
    else if c = '[' then
      match cut "CDATA[".toList r with
      | some ([], r') =>
        match cut "]]>".toList r' with
        | some (t, rest) =>
          if (normLines t).all isXmlChar then some ([.text (normLines t)], rest) else none
        | none => none
      | _ => none
    else (afterDirective .plain 0 r).map (fun x => ([.misc], x))

/-- A start tag, after "<"; an empty-element tag counts as start and end.
Library code run from response.go 300-328. -/
def lexStart (strict : Bool) (nt : NameTable) (s : Str) : Option (List Tok × Str) :=
  match lexName nt s with
  | none => none
  | some (n, r) =>
    match afterAttrs strict nt (r.length + 1) r with
    | some (true, r') => some ([.start n, .stop n], r')
    | some (false, r') => some ([.start n], r')
    | none => none

/-- `Decoder.rawToken`: the next token (two for an empty-element tag) and the rest of the
input. Library code run from response.go 300-328. -/
def lexOne (strict : Bool) (nt : NameTable) : Str → Option (List Tok × Str)
  | [] => none
  | c :: r =>
    if c = '<' then
      match r with
      | '/' :: r' => lexStop nt r'
      | '?' :: r' => lexProc nt r'
      | '!' :: r' => lexBang r'
      | _ => lexStart strict nt r
    else
      match textToken strict ((c :: r).takeWhile (· != '<')) with
      | some t => some ([.text t], (c :: r).dropWhile (· != '<'))
      | none => none

/-- All tokens of the input, up to its end or the first error.  (Every token consumes some
input, so the length test is always true.) Library code run from response.go 300-328. -/
def lex (strict : Bool) (nt : NameTable) (s : Str) : List Tok :=
  match lexOne strict nt s with
  | none => []
  | some (ts, r) => if r.length < s.length then ts ++ lex strict nt r else []
termination_by s.length

end Ofx
