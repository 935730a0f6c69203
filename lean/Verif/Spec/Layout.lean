import Verif.Codec.Lexer
import Verif.Spec.Document
import Verif.Gen.LeafElements
import Verif.Spec.Numeral
/-
How an element tree may be laid out as text, whoever wrote it: any white space between the
tags, characters as themselves or as references, and in SGML the end tags of the leaf elements
of OFX may be missing.
-/
namespace Ofx.Spec
open Ofx

/-- Characters XML allows. -/
def XmlChar (c : Char) : Prop :=
  c.toNat = 9 ∨ c.toNat = 10 ∨ c.toNat = 13 ∨ (32 ≤ c.toNat ∧ c.toNat ≤ 0xFFFD) ∨ 0x10000 ≤ c.toNat

instance (c : Char) : Decidable (XmlChar c) := by unfold XmlChar; infer_instance

/-- An element name in ASCII: a letter or underscore, then letters, digits and `_.-`. -/
def AsciiName (n : Str) : Prop :=
  (∃ c cs, n = c :: cs ∧ (c.isAlpha = true ∨ c = '_')) ∧
  ∀ c ∈ n, c.isAlphanum = true ∨ c = '_' ∨ c = '.' ∨ c = '-'

/-- References and what they stand for. -/
def references : List (String × Char) :=
  [("&amp;", '&'), ("&lt;", '<'), ("&gt;", '>'), ("&quot;", '"'), ("&apos;", '\''), ("&#34;", '"'), ("&#39;", '\''),
   ("&#x9;", '\t'), ("&#xA;", '\n'), ("&#xD;", '\r')]

/-- `Written raw s`: the character data `raw` means the text `s`. -/
inductive Written : Str → Str → Prop
  | nil : Written [] []
  | plain {c : Char} {raw s : Str} : XmlChar c → c ≠ '<' → c ≠ '&' → c ≠ '>' → c ≠ '\r' → Written raw s →
      Written (c :: raw) (c :: s)
  | lineEnd {raw s : Str} : Written raw s → Written ('\r' :: '\n' :: raw) ('\n' :: s)
  | ref {e : String} {c : Char} {raw s : Str} : (e, c) ∈ references → Written raw s →
      Written (e.toList ++ raw) (c :: s)

/-- White space between tags. -/
def Gap (raw : Str) : Prop := ∃ s, Written raw s ∧ IsPadding s

mutual
/-- `Layout sgml node t`: the text `t` is a way to write the element `node`. -/
inductive Layout (sgml : Bool) : Node → Str → Prop
  | leaf {n raw s : Str} : AsciiName n → Written raw s →
      Layout sgml (textNode n s) (['<'] ++ n ++ ['>'] ++ raw ++ ['<', '/'] ++ n ++ ['>'])
  | openLeaf {n raw s : Str} : sgml = true → n ∈ leafElements → AsciiName n → Written raw s →
      Layout sgml (textNode n s) (['<'] ++ n ++ ['>'] ++ raw)
  | node {n : Str} {cs : List Node} {t : Str} : AsciiName n → (sgml = true → n ∉ leafElements) → Layouts sgml cs t →
      Layout sgml (.elem n cs) (['<'] ++ n ++ ['>'] ++ t ++ ['<', '/'] ++ n ++ ['>'])
/-- The same for the elements inside an element. -/
inductive Layouts (sgml : Bool) : List Node → Str → Prop
  | nil {w : Str} : Gap w → Layouts sgml [] w
  | cons {w t t' : Str} {c : Node} {cs : List Node} : Gap w → Layout sgml c t → Layouts sgml cs t' →
      Layouts sgml (c :: cs) (w ++ t ++ t')
end

/-- A name for an element that has child elements. -/
def ContainerName (n : Str) : Prop := AsciiName n ∧ n ∉ leafElements

/-- Trees made of named elements that hold either text or elements, where the leaf elements
of OFX hold text only. -/
inductive Shaped : Node → Prop
  | leaf {n s : Str} : AsciiName n → (∀ c ∈ s, XmlChar c) → Shaped (textNode n s)
  | node {n : Str} {cs : List Node} : ContainerName n → (∀ c ∈ cs, Shaped c) → Shaped (.elem n cs)

/-! ### Texts inside values -/

/-- The text a leaf value carries consists of characters XML allows (numbers, amounts,
booleans and enumerations always do). -/
def LeafText : (l : Leaf) → l.Den → Prop
  | .str, v => ∀ c ∈ (show Str from v), XmlChar c
  | .uid, v => ∀ c ∈ (show Str from v), XmlChar c
  | .date, v => ∀ c ∈ (show GoTime from v).zone, XmlChar c
  | .curr, v => ∀ c ∈ (show CurrSymbol from v).code, XmlChar c
  | .int, _ => True
  | .bool, _ => True
  | .amount, _ => True
  | .enum _, _ => True

/-- An XMLName set by the user is a possible element name. -/
def XNameText : (xn : XName) → xn.Den → Prop
  | .none, _ => True
  | .tag _, _ => True
  | .free, (x : Str) => x = [] ∨ ContainerName x

mutual
/-- All texts in a value consist of characters XML allows, and the names of message sets, with
and without their version, are possible element names. -/
def TyText : (t : Ty) → t.Den → Prop
  | .leaf l, v => LeafText l v
  | .struct xn fs, v => XNameText xn v.1 ∧ FieldsText fs v.2
  | .closed _ _ fs, v => FieldsText fs v
  | .ptr t, v => ∀ x ∈ (show Option t.Den from v), TyText t x
  | .slice t, v => ∀ x ∈ (show List t.Den from v), TyText t x
  | .msgSets fs, v => ∀ x ∈ (show List (Str × Str × fs.Den) from v),
      ContainerName x.2.1 ∧ (∀ short, x.2.1 = short ++ "V1".toList → ContainerName short) ∧ FieldsText fs x.2.2
def FieldsText : (fs : Fields) → fs.Den → Prop
  | .nil, _ => True
  | .field _ _ _ t rest, v => TyText t v.1 ∧ FieldsText rest v.2
  | .alts as rest, v => (∀ x ∈ (show List as.Den from v.1), AltsText as x) ∧ FieldsText rest v.2
def AltsText : (as : Alts) → as.Den → Prop
  | .nil, _ => True
  | .alt _ _ t rest, v =>
    match (show t.Den ⊕ rest.Den from v) with
    | .inl x => TyText t x
    | .inr y => AltsText rest y
end

/-- All texts in a message are texts of XML. -/
def CleanMessage : Message → Prop
  | .statementRequest m => TyText (OfxType.ty StatementRequest) (OfxType.toDen m)
  | .statementResponse m => TyText (OfxType.ty StatementResponse) (OfxType.toDen m)
  | .ccStatementRequest m => TyText (OfxType.ty CCStatementRequest) (OfxType.toDen m)
  | .ccStatementResponse m => TyText (OfxType.ty CCStatementResponse) (OfxType.toDen m)
  | .invStatementRequest m => TyText (OfxType.ty InvStatementRequest) (OfxType.toDen m)
  | .invStatementResponse m => TyText (OfxType.ty InvStatementResponse) (OfxType.toDen m)
  | .profileRequest m => TyText (OfxType.ty ProfileRequest) (OfxType.toDen m)
  | .profileResponse m => TyText (OfxType.ty ProfileResponse) (OfxType.toDen m)
  | .secListRequest m => TyText (OfxType.ty SecListRequest) (OfxType.toDen m)
  | .secListResponse m => TyText (OfxType.ty SecListResponse) (OfxType.toDen m)
  | .securityList m => TyText (OfxType.ty SecurityList) (OfxType.toDen m)
  | .acctInfoRequest m => TyText (OfxType.ty AcctInfoRequest) (OfxType.toDen m)
  | .acctInfoResponse m => TyText (OfxType.ty AcctInfoResponse) (OfxType.toDen m)

def CleanSignonRequest (s : SignonRequest) : Prop := TyText (OfxType.ty SignonRequest) (OfxType.toDen s)
def CleanSignonResponse (s : SignonResponse) : Prop := TyText (OfxType.ty SignonResponse) (OfxType.toDen s)

/-- A leaf element of OFX holds no elements, here and inside. -/
inductive LeavesHoldText : Node → Prop
  | text {s : Str} : LeavesHoldText (.text s)
  | elem {n : Str} {cs : List Node} : (n ∈ leafElements → ∀ c ∈ cs, ∃ s, c = .text s) → (∀ c ∈ cs, LeavesHoldText c) →
      LeavesHoldText (.elem n cs)

/-! ### Names declared in structures -/

mutual
/-- The names of the elements of a structure (written in an element called `name`) that have
child elements.  The names of the message sets of a profile are data and not listed. -/
def containers : Ty → Str → List Str
  | .leaf _, _ => []
  | .struct .none fs, name => name :: containersF fs
  | .struct (.tag n) fs, _ => n :: containersF fs
  | .struct .free fs, name => name :: containersF fs
  | .closed lit _ fs, name => lit :: name :: containersF fs
  | .ptr t, name => containers t name
  | .slice t, name => containers t name
  | .msgSets fs, name => name :: containersF fs
def containersF : Fields → List Str
  | .nil => []
  | .field path name _ t rest => path ++ containers t name ++ containersF rest
  | .alts as rest => containersA as ++ containersF rest
def containersA : Alts → List Str
  | .nil => []
  | .alt dec enc t rest => dec :: enc :: containers t dec ++ containersA rest
end

mutual
/-- The names of the elements of a structure that hold a text. -/
def textElements : Ty → Str → List Str
  | .leaf _, name => [name]
  | .struct _ fs, _ => textElementsF fs
  | .closed _ _ fs, _ => textElementsF fs
  | .ptr t, name => textElements t name
  | .slice t, name => textElements t name
  | .msgSets fs, _ => textElementsF fs
def textElementsF : Fields → List Str
  | .nil => []
  | .field _ name _ t rest => textElements t name ++ textElementsF rest
  | .alts as rest => textElementsA as ++ textElementsF rest
def textElementsA : Alts → List Str
  | .nil => []
  | .alt dec _ t rest => textElements t dec ++ textElementsA rest
end

/-- The structures of documents, with their element names. -/
def structures : List (Ty × String) :=
  [(OfxType.ty StatementRequest, "STMTTRNRQ"), (OfxType.ty StatementResponse, "STMTTRNRS"),
   (OfxType.ty CCStatementRequest, "CCSTMTTRNRQ"), (OfxType.ty CCStatementResponse, "CCSTMTTRNRS"),
   (OfxType.ty InvStatementRequest, "INVSTMTTRNRQ"), (OfxType.ty InvStatementResponse, "INVSTMTTRNRS"),
   (OfxType.ty ProfileRequest, "PROFTRNRQ"), (OfxType.ty ProfileResponse, "PROFTRNRS"),
   (OfxType.ty SecListRequest, "SECLISTTRNRQ"), (OfxType.ty SecListResponse, "SECLISTTRNRS"),
   (OfxType.ty SecurityList, "SECLIST"), (OfxType.ty AcctInfoRequest, "ACCTINFOTRNRQ"),
   (OfxType.ty AcctInfoResponse, "ACCTINFOTRNRS"), (OfxType.ty SignonRequest, "SONRQ"),
   (OfxType.ty SignonResponse, "SONRS")]

end Ofx.Spec
