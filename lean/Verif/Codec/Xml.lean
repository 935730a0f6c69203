import Verif.Go.Str
/-
XML as github.com/aclindsa/xml (a fork of Go's encoding/xml) presents it.  The library
is not part of /repo; this file records the behaviour of it that ofxgo relies on.

`Node` is an element tree.  Attributes are dropped: no type of ofxgo declares one, so
encoding/xml ignores them when decoding and never writes any.  `misc` is a comment, a
directive or a processing instruction.
-/
namespace Ofx

/-- The elements exchanged with the library github.com/aclindsa/xml, request.go 80-152, response.go 285-371. -/
inductive Node where
  | elem (name : Str) (children : List Node)
  | text (s : Str)
  | misc
deriving Repr

/-- The element carrying a text: nothing is between the tags for the empty text.
types.go 79, 191, 263. -/
def textNode (name : Str) (s : Str) : Node :=
  .elem name (if s = [] then [] else [.text s])

/-- encoding/xml `Decoder.unmarshal` into a string: the character data directly inside
the element, concatenated; child elements and comments are skipped.
types.go 24, 56, 108, 221, 246, 287, 345; constants.go 64. -/
def leafText : List Node → Str
  | [] => []
  | .text s :: rest => s ++ leafText rest
  | _ :: rest => leafText rest

/-- util.go 11-25 `nextNonWhitespaceToken`: white-space character data is skipped. -/
def isBlank (n : Node) : Bool :=
  match n with
  | .text s => (trimSpace s).isEmpty
  | _ => false

/-- An element under another name (an explicit start element given to EncodeElement).
invstmt.go 730-817, seclist.go 328. -/
def Node.rename (nm : Str) : Node → Node
  | .elem _ cs => .elem nm cs
  | n => n

/-- A loop over a slice that stops at the first error. invstmt.go 729-816, request.go 45-55. -/
def mapE {α β : Type} (f : α → Except String β) : List α → Except String (List β)
  | [] => .ok []
  | x :: xs =>
    match f x with
    | .error e => .error e
    | .ok y =>
      match mapE f xs with
      | .ok ys => .ok (y :: ys)
      | .error e => .error e

end Ofx
