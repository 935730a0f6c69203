import Verif.Spec.Layout
import Verif.Spec.Header
import Verif.Model.Decode
/-
The grammar of the documents that are read: which texts are tags, references, comments and so
on, how they make up elements, and where elements may be left open in documents with an SGML
header.
-/
namespace Ofx.Spec
open Ofx

/-! ### Characters and names -/

/-- White space inside tags. -/
def TagSpace (c : Char) : Prop := c = ' ' ∨ c = '\t' ∨ c = '\n' ∨ c = '\r'

def TagSpaces (w : Str) : Prop := ∀ c ∈ w, TagSpace c

/-- Characters that can belong to a name (a name goes on as long as there are such characters). -/
def NameChar (c : Char) : Prop := c.isAlphanum = true ∨ c = '_' ∨ c = ':' ∨ c = '.' ∨ c = '-' ∨ 128 ≤ c.toNat

/-- A name: a letter or underscore, then letters, digits and `_.-`; beyond ASCII, letters and
other characters of names are those of the tables `nt`. -/
def NameText (nt : NameTable) (n : Str) : Prop :=
  ∃ c cs, n = c :: cs ∧
    ((c.toNat < 128 ∧ (c.isAlpha = true ∨ c = '_')) ∨ (128 ≤ c.toNat ∧ nt.first c = true)) ∧
    ∀ d ∈ cs, (d.toNat < 128 ∧ (d.isAlphanum = true ∨ d = '_' ∨ d = '.' ∨ d = '-')) ∨
      (128 ≤ d.toNat ∧ (nt.first d = true ∨ nt.second d = true))

/-- `s` does not start with a character of the kind `P`. -/
def StartsNot (P : Char → Prop) (s : Str) : Prop := ∀ c, s.head? = some c → ¬ P c

/-! ### Character data -/

/-- The entities known by name. -/
def entities : List (String × Char) := [("lt", '<'), ("gt", '>'), ("amp", '&'), ("apos", '\''), ("quot", '"')]

/-- Digits of references with their values. -/
def hexDigits : List (Char × Nat) :=
  [('0', 0), ('1', 1), ('2', 2), ('3', 3), ('4', 4), ('5', 5), ('6', 6), ('7', 7), ('8', 8), ('9', 9),
   ('a', 10), ('b', 11), ('c', 12), ('d', 13), ('e', 14), ('f', 15),
   ('A', 10), ('B', 11), ('C', 12), ('D', 13), ('E', 14), ('F', 15)]

/-- `ds` is a sequence of hexadecimal digits with the value `n`. -/
inductive HexNumber : Str → Nat → Prop
  | nil : HexNumber [] 0
  | snoc {ds : Str} {n v : Nat} {d : Char} : HexNumber ds n → (d, v) ∈ hexDigits → HexNumber (ds ++ [d]) (n * 16 + v)

/-- The character a reference by number stands for: surrogates are replaced. -/
def CodePoint (n : Nat) (c : Char) : Prop :=
  c.toNat = n ∨ (0xD800 ≤ n ∧ n ≤ 0xDFFF ∧ c.toNat = 0xFFFD)

/-- `e` is a reference to the character `c`. -/
inductive Reference : Str → Char → Prop
  | named {n : String} {c : Char} : (n, c) ∈ entities → Reference (['&'] ++ n.toList ++ [';']) c
  | decimal {ds : Str} {c : Char} : IsNumeral ds → value ds ≤ 0x10FFFF → CodePoint (value ds) c →
      Reference (['&', '#'] ++ ds ++ [';']) c
  | hex {ds : Str} {n : Nat} {c : Char} : ds ≠ [] → HexNumber ds n → n ≤ 0x10FFFF → CodePoint n c →
      Reference (['&', '#', 'x'] ++ ds ++ [';']) c

/-- `Chars sgml raw s`: the characters `raw` stand for the text `s`; line ends become "\n", and in
SGML an ampersand that does not start a reference stands for itself. -/
inductive Chars (sgml : Bool) : Str → Str → Prop
  | nil : Chars sgml [] []
  | plain {c : Char} {raw s : Str} : c ≠ '&' → c ≠ '\r' → XmlChar c → Chars sgml raw s → Chars sgml (c :: raw) (c :: s)
  | crlf {raw s : Str} : Chars sgml raw s → Chars sgml ('\r' :: '\n' :: raw) ('\n' :: s)
  | cr {raw s : Str} : StartsNot (· = '\n') raw → Chars sgml raw s → Chars sgml ('\r' :: raw) ('\n' :: s)
  | ref {e raw s : Str} {c : Char} : Reference e c → XmlChar c → Chars sgml raw s → Chars sgml (e ++ raw) (c :: s)
  | amp {raw s : Str} : sgml = true → (∀ e c, Reference e c → ¬ e <+: '&' :: raw) → Chars sgml raw s →
      Chars sgml ('&' :: raw) ('&' :: s)

/-- Character data: "]]>" is not allowed in it. -/
def CharData (sgml : Bool) (raw s : Str) : Prop := ¬ "]]>".toList <:+: raw ∧ Chars sgml raw s

/-- The text of a CDATA section: nothing but line ends is replaced. -/
inductive CDataText : Str → Str → Prop
  | nil : CDataText [] []
  | plain {c : Char} {raw s : Str} : c ≠ '\r' → XmlChar c → CDataText raw s → CDataText (c :: raw) (c :: s)
  | crlf {raw s : Str} : CDataText raw s → CDataText ('\r' :: '\n' :: raw) ('\n' :: s)
  | cr {raw s : Str} : StartsNot (· = '\n') raw → CDataText raw s → CDataText ('\r' :: raw) ('\n' :: s)

/-! ### Tags -/

/-- A quoted value of an attribute. -/
def Quoted (sgml : Bool) (v : Str) : Prop :=
  ∃ q raw s, (q = '"' ∨ q = '\'') ∧ v = [q] ++ raw ++ [q] ∧ q ∉ raw ∧ '<' ∉ raw ∧ CharData sgml raw s

/-- Characters of values without quotes. -/
def BareChar (c : Char) : Prop := c.isAlphanum = true ∨ c = '_' ∨ c = ':' ∨ c = '-'

/-- `TagEnd sgml nt s empty`: `s` is what may follow the name in a start tag: attributes, which
are ignored, and the end of the tag; `empty` tells whether the tag is the whole element.  In SGML
values of attributes may be without quotes, or missing. -/
inductive TagEnd (sgml : Bool) (nt : NameTable) : Str → Bool → Prop
  | close {w : Str} : TagSpaces w → TagEnd sgml nt (w ++ ['>']) false
  | empty {w : Str} : TagSpaces w → TagEnd sgml nt (w ++ ['/', '>']) true
  | attr {w a w' w'' v s : Str} {e : Bool} : TagSpaces w → NameText nt a → TagSpaces w' → TagSpaces w'' → Quoted sgml v →
      TagEnd sgml nt s e → TagEnd sgml nt (w ++ a ++ w' ++ ['='] ++ w'' ++ v ++ s) e
  | bare {w a w' w'' v s : Str} {e : Bool} : sgml = true → TagSpaces w → NameText nt a → TagSpaces w' → TagSpaces w'' →
      (∀ c ∈ v, BareChar c) → StartsNot BareChar s → StartsNot TagSpace (v ++ s) →
      TagEnd sgml nt s e → TagEnd sgml nt (w ++ a ++ w' ++ ['='] ++ w'' ++ v ++ s) e
  | missing {w a s : Str} {e : Bool} : sgml = true → TagSpaces w → NameText nt a → StartsNot NameChar s →
      TagEnd sgml nt s e → TagEnd sgml nt (w ++ a ++ s) e

/-- The text inside a directive: quoted parts and comments do not count, angle brackets nest. -/
inductive Nested : Str → Prop
  | nil : Nested []
  | char {c : Char} {s : Str} : c ≠ '<' → c ≠ '>' → c ≠ '"' → c ≠ '\'' → Nested s → Nested (c :: s)
  | quoted {q : Char} {t s : Str} : q = '"' ∨ q = '\'' → q ∉ t → Nested s → Nested ([q] ++ t ++ [q] ++ s)
  | comment {t s : Str} : ¬ "-->".toList <:+: t ++ ['-', '-'] → Nested s → Nested (['<', '!', '-', '-'] ++ t ++ ['-', '-', '>'] ++ s)
  | angle {t s : Str} : ¬ ['!', '-', '-'] <+: t → Nested t → Nested s → Nested (['<'] ++ t ++ ['>'] ++ s)

/-- The instruction `inst` of an xml declaration does not state another version than 1.0: the
first "version=" in it is not followed by something else in quotes. -/
def Version10 (inst : Str) : Prop :=
  ∀ a q v b, inst = a ++ "version=".toList ++ [q] ++ v ++ [q] ++ b → (q = '"' ∨ q = '\'') → q ∉ v →
    ¬ "version=".toList <:+: a ++ "version".toList → v = [] ∨ v = "1.0".toList

/-- `Markup sgml nt s ts`: the text `s` is a tag, comment and so on, and is read as `ts` (an
empty-element tag counts as two). -/
inductive Markup (sgml : Bool) (nt : NameTable) : Str → List Tok → Prop
  | start {n s : Str} : NameText nt n → StartsNot NameChar s → TagEnd sgml nt s false →
      Markup sgml nt (['<'] ++ n ++ s) [.start n]
  | empty {n s : Str} : NameText nt n → StartsNot NameChar s → TagEnd sgml nt s true →
      Markup sgml nt (['<'] ++ n ++ s) [.start n, .stop n]
  | stop {n w : Str} : NameText nt n → TagSpaces w → Markup sgml nt (['<', '/'] ++ n ++ w ++ ['>']) [.stop n]
  | instruction {n w inst : Str} : NameText nt n → TagSpaces w → StartsNot NameChar (w ++ inst ++ ['?']) →
      StartsNot TagSpace inst → ¬ "?>".toList <:+: inst → (n = "xml".toList → Version10 inst) →
      Markup sgml nt (['<', '?'] ++ n ++ w ++ inst ++ ['?', '>']) [.proc n inst]
  | comment {s : Str} : ¬ "--".toList <:+: s ++ ['-'] → Markup sgml nt ("<!--".toList ++ s ++ "-->".toList) [.misc]
  | cdata {raw s : Str} : ¬ "]]>".toList <:+: raw → CDataText raw s →
      Markup sgml nt ("<![CDATA[".toList ++ raw ++ "]]>".toList) [.text s]
  | directive {c : Char} {s : Str} : c ≠ '-' → c ≠ '[' → Nested s → Markup sgml nt (['<', '!', c] ++ s ++ ['>']) [.misc]

/-- `Pieces sgml nt s ts`: the text `s` consists of character data and markup read as `ts`; it does
not end with character data. -/
inductive Pieces (sgml : Bool) (nt : NameTable) : Str → List Tok → Prop
  | nil : Pieces sgml nt [] []
  | chars {raw t s : Str} {ts : List Tok} : raw ≠ [] → '<' ∉ raw → CharData sgml raw t → s.head? = some '<' →
      Pieces sgml nt s ts → Pieces sgml nt (raw ++ s) (.text t :: ts)
  | markup {m s : Str} {us ts : List Tok} : Markup sgml nt m us → Pieces sgml nt s ts → Pieces sgml nt (m ++ s) (us ++ ts)

/-! ### Elements -/

/-- In SGML an open element `n` ends before the piece `t`: before the end tag of another element,
and, if it is one of the leaf elements of OFX, before anything but text and its end tag. -/
def EndsBefore (n : Str) : Tok → Prop
  | .stop m => m ≠ n
  | .text _ => False
  | _ => n ∈ leafElements

/-- `Content sgml n ts cs rest`: after the start tag of the element `n`, the pieces `ts` say that it
holds `cs`; `rest` comes after the element. -/
inductive Content (sgml : Bool) : Str → List Tok → List Node → List Tok → Prop
  | closed {n : Str} {rest : List Tok} : Content sgml n (.stop n :: rest) [] rest
  | leftOpen {n : Str} {t : Tok} {rest : List Tok} : sgml = true → EndsBefore n t → Content sgml n (t :: rest) [] (t :: rest)
  | text {n s : Str} {ts rest : List Tok} {cs : List Node} : Content sgml n ts cs rest →
      Content sgml n (.text s :: ts) (.text s :: cs) rest
  | misc {n : Str} {t : Tok} {ts rest : List Tok} {cs : List Node} : t = .misc ∨ (∃ m inst, t = .proc m inst) →
      ¬ (sgml = true ∧ n ∈ leafElements) → Content sgml n ts cs rest → Content sgml n (t :: ts) (.misc :: cs) rest
  | child {n m : Str} {ts ts' rest : List Tok} {ch cs : List Node} : ¬ (sgml = true ∧ n ∈ leafElements) →
      Content sgml m ts ch ts' → Content sgml n ts' cs rest → Content sgml n (.start m :: ts) (.elem m ch :: cs) rest

/-! ### Documents -/

/-- The first 1024 bytes do not look like an SGML header: "OFXHEADER:" is not in them, or comes
after "OFXHEADER=". -/
def LooksXML (p : Str) : Prop :=
  "OFXHEADER:".toList <:+: p → ∃ a b, p = a ++ "OFXHEADER=".toList ++ b ∧ ¬ "OFXHEADER:".toList <:+: a ++ "OFXHEADER".toList

/-- `bs` starts with a document of the version `version` with the element `root`; what follows the
element does not matter. -/
inductive Document (nt : NameTable) (bs : List UInt8) (version : Nat) (root : Node) : Prop
  | sgml {n : Nat} {head tail : List UInt8} {s name : Str} {w ts rest : List Tok} {cs : List Node} :
      bs = head ++ toBytes s ++ tail → 60 ∉ head → head.length < 1024 → s.head? = some '<' →
      SGMLHeader n (latin1 head ++ ['<']) → version = n + 1 →
      Pieces true nt s (w ++ .start name :: ts) → BlankTexts w → Content true name ts cs rest → root = .elem name cs →
      Document nt bs version root
  | xml {n : Nat} {tail : List UInt8} {s decl inst name : Str} {attrs : List (Str × Str)} {w w' w'' ts rest : List Tok} {cs : List Node} :
      bs = toBytes s ++ tail → LooksXML (latin1 (bs.take 1024)) →
      Pieces false nt s (w ++ .proc "xml".toList decl :: (w' ++ .proc "OFX".toList inst :: (w'' ++ .start name :: ts))) →
      BlankTexts w → BlankTexts w' → BlankTexts w'' → AttrText attrs inst → XMLHeader n attrs → version = n + 5 →
      Content false name ts cs rest → root = .elem name cs → Document nt bs version root

end Ofx.Spec
