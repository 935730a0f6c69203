import Verif.Codec.Lexer
import Verif.Gen.LeafElements
/-
From tokens to elements: the bookkeeping of open elements in github.com/aclindsa/xml
(`Decoder.Token`, `popElement`, `autoClose`).  In non-strict mode an end tag that does not
match closes the innermost element and is looked at again, and an element of
`AutoCloseAfterCharData` (leaf_elements.go, response.go 305) is closed by anything that is
neither text nor its own end tag.  The latter is an extension of the fork and assumed here;
names are compared exactly.
-/
namespace Ofx

/-- Whether the token ends the innermost open element `name`.
Library code set up in response.go 301-304. -/
def closes (strict : Bool) (name : Str) (t : Tok) : Bool :=
  match t with
  | .stop n => n == name || !strict
  | .text _ => false
  | _ => !strict && leafElements.contains name

/-- Read the rest of the innermost open element (name and reversed children), and of the
elements around it, up to the end of the outermost one: that element and the remaining
tokens. Library code run from response.go 328. -/
def build (strict : Bool) (top : Str × List Node) (parents : List (Str × List Node)) (toks : List Tok) :
    Except String (Node × List Tok) :=
  match toks with
  | [] => .error "unexpected EOF"
  | t :: rest =>
    if closes strict top.1 t then
      if t = .stop top.1 then
        match parents with
        | [] => .ok (.elem top.1 top.2.reverse, rest)
        | p :: ps => build strict (p.1, .elem top.1 top.2.reverse :: p.2) ps rest
      else
        match parents with
        | [] => .ok (.elem top.1 top.2.reverse, t :: rest)
        | p :: ps => build strict (p.1, .elem top.1 top.2.reverse :: p.2) ps (t :: rest)
    else
      match t with
      | .start n => build strict (n, []) (top :: parents) rest
      | .stop _ => .error "element closed by another end tag"
      | .text s => build strict (top.1, .text s :: top.2) parents rest
      | .proc _ _ => build strict (top.1, .misc :: top.2) parents rest
      | .misc => build strict (top.1, .misc :: top.2) parents rest
termination_by (toks.length, parents.length)

end Ofx
