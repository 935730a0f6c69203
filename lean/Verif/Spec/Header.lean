import Verif.Codec.Lexer
import Verif.Spec.Numeral
/-
What OFX headers look like.
-/
namespace Ofx.Spec
open Ofx

/-- ASCII white space as allowed between the fields of an SGML header. -/
def IsBlankChar (c : Char) : Prop := c = ' ' ∨ c = '\t' ∨ c = '\n' ∨ c = '\r' ∨ c = '\x0c'

def Blanks (s : Str) : Prop := ∀ c ∈ s, IsBlankChar c

def IsDigitChar (c : Char) : Prop := '0' ≤ c ∧ c ≤ '9'
def IsUpperChar (c : Char) : Prop := 'A' ≤ c ∧ c ≤ 'Z'
def IsLowerChar (c : Char) : Prop := 'a' ≤ c ∧ c ≤ 'z'
def IsWordChar (c : Char) : Prop := IsDigitChar c ∨ IsUpperChar c ∨ IsLowerChar c ∨ c = '_'

/-- One or more characters of a kind. -/
def Made (p : Char → Prop) (s : Str) : Prop := s ≠ [] ∧ ∀ c ∈ s, p c

/-- `s` consists of the fields KEY:value in this order, with white space after each colon
and value, and ends with '<'. -/
def HeaderText : List (String × Str) → Str → Prop
  | [], s => s = ['<']
  | (key, value) :: fields, s =>
    ∃ w w' rest, s = key.toList ++ [':'] ++ w ++ value ++ w' ++ rest ∧ Blanks w ∧ Blanks w' ∧ HeaderText fields rest

/-- The text of the versions with an SGML header, in order. -/
def sgmlVersions : List String := ["102", "103", "151", "160"]

/-- The text of the versions with an XML header, in order. -/
def xmlVersions : List String := ["200", "201", "202", "203", "210", "211", "220"]

/-- A supported SGML header (up to the first '<') stating the `n`-th SGML version. -/
def SGMLHeader (n : Nat) (s : Str) : Prop :=
  ∃ version ∈ sgmlVersions[n]?, ∃ security encoding charset oldFile newFile : Str,
    HeaderText [("OFXHEADER", "100".toList), ("DATA", "OFXSGML".toList), ("VERSION", version.toList),
      ("SECURITY", security), ("ENCODING", encoding), ("CHARSET", charset), ("COMPRESSION", "NONE".toList),
      ("OLDFILEUID", oldFile), ("NEWFILEUID", newFile)] s ∧
    (security = "NONE".toList ∨ security = "TYPE1".toList) ∧
    Made (fun c => IsUpperChar c ∨ IsDigitChar c ∨ c = '-') encoding ∧
    Made (fun c => IsWordChar c ∨ c = '-') charset ∧
    Made (fun c => IsWordChar c ∨ c = '-') oldFile ∧
    Made (fun c => IsWordChar c ∨ c = '-') newFile

/-- `s` consists of attributes name="value" with white space around them. -/
def AttrText : List (Str × Str) → Str → Prop
  | [], s => IsPadding s
  | (name, value) :: attrs, s =>
    ∃ w rest, s = w ++ name ++ "=\"".toList ++ value ++ "\"".toList ++ rest ∧ IsPadding w ∧ AttrText attrs rest

/-- `value` states the `n`-th XML version. -/
def StatesVersion (n : Nat) (value : Str) : Prop :=
  ∃ v ∈ xmlVersions[n]?, ∃ w w', value = w ++ v.toList ++ w' ∧ IsPadding w ∧ IsPadding w'

/-- An attribute the XML header may have. -/
def XMLAttr (a : Str × Str) : Prop :=
  '"' ∉ a.2 ∧
  ((a.1 = "OFXHEADER".toList ∧ a.2 = "200".toList) ∨
   (a.1 = "VERSION".toList ∧ ∃ n, StatesVersion n a.2) ∨
   (a.1 = "SECURITY".toList ∧ a.2 = "NONE".toList) ∨
   a.1 = "OLDFILEUID".toList ∨ a.1 = "NEWFILEUID".toList)

/-- Supported attributes of an XML header stating the `n`-th XML version (in the last
VERSION, should there be several). -/
def XMLHeader (n : Nat) (attrs : List (Str × Str)) : Prop :=
  (∀ a ∈ attrs, XMLAttr a) ∧ (∃ a ∈ attrs, a.1 = "OFXHEADER".toList) ∧
  ∃ pre value post, attrs = pre ++ ("VERSION".toList, value) :: post ∧ (∀ a ∈ post, a.1 ≠ "VERSION".toList) ∧
    StatesVersion n value

/-- Texts consisting of white space. -/
def BlankTexts (ts : List Tok) : Prop := ∀ t ∈ ts, ∃ s, t = .text s ∧ IsPadding s

end Ofx.Spec
