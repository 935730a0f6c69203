import Verif.Model.Marshal
import Verif.Gen.LeafElements
import Verif.Codec.Lexer
/-
How elements are written as text: the printer of github.com/aclindsa/xml (a fork of Go's
encoding/xml, marshal.go).  The library is not part of /repo; this file records the behaviour
assumed.  ofxgo writes no attributes, comments, directives or processing instructions with it.
-/
namespace Ofx

/-- xml.go `EscapeText`: one character.  Characters XML does not allow become U+FFFD. -/
def escapeChar (c : Char) : Str :=
  if c = '"' then "&#34;".toList
  else if c = '\'' then "&#39;".toList
  else if c = '&' then "&amp;".toList
  else if c = '<' then "&lt;".toList
  else if c = '>' then "&gt;".toList
  else if c = '\t' then "&#x9;".toList
  else if c = '\n' then "&#xA;".toList
  else if c = '\r' then "&#xD;".toList
  else if isXmlChar c then [c]
  else [Char.ofNat 0xFFFD]

/-- xml.go `EscapeText`. -/
def escapeText (s : Str) : Str := s.flatMap escapeChar

/-- The options of the encoder: encoder.Indent("", "    "), encoder.CarriageReturn(true),
encoder.SetDisableAutoClose(ofxLeafElements...) (request.go 86-96, response.go 420-421). -/
structure PrintOpts where
  indent : Bool
  carriageReturn : Bool
  openLeaves : Bool

/-- marshal.go `writeIndent`: a new line and four spaces for each open element, if
indentation is on. -/
def lineBreak (o : PrintOpts) (depth : Nat) : Str :=
  if o.indent then (if o.carriageReturn then ['\r', '\n'] else ['\n']) ++ List.replicate (4 * depth) ' ' else []

/-- Whether a node is an element. request.go 80-152, response.go 414-476. -/
def Node.isElem : Node → Bool
  | .elem _ _ => true
  | _ => false

mutual
/-- marshal.go `writeStart`, `writeEnd`: every start tag but the very first is on a line of
its own; so is an end tag if the element has child elements.  `first` marks the very first
tag.  End tags of the elements given to SetDisableAutoClose are left out. -/
def renderNode (o : PrintOpts) (first : Bool) (depth : Nat) : Node → Str
  | .elem n cs =>
    (if first then [] else lineBreak o depth) ++ ['<'] ++ n ++ ['>'] ++ renderNodes o (depth + 1) cs ++
      (if o.openLeaves && leafElements.contains n then []
       else (if cs.any Node.isElem then lineBreak o depth else []) ++ ['<', '/'] ++ n ++ ['>'])
  | .text s => escapeText s
  | .misc => []
/-- request.go 80-152, response.go 414-476. -/
def renderNodes (o : PrintOpts) (depth : Nat) : List Node → Str
  | [] => []
  | c :: cs => renderNode o false depth c ++ renderNodes o depth cs
end

/-- The text of a marshalled document. request.go 80-152, response.go 414-476. -/
def Doc.text (d : Doc) : Str :=
  d.header ++ renderNode ⟨d.indent, d.carriageReturn, d.openLeaves⟩ true 0 d.body

/-- The bytes of a marshalled document, as `Marshal` returns them.
request.go 80-152, response.go 414-476. -/
def Doc.bytes (d : Doc) : List UInt8 := toBytes d.text

end Ofx
