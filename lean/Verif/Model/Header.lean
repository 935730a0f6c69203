import Verif.Codec.Lexer
import Verif.Gen.Enums
/-
Model of the header functions of response.go (38-203): guessVersion, readSGMLHeaders,
readXMLHeaders.  The functions reading raw bytes are given the bytes as characters below
U+0100 (see `latin1` in Model/Decode.lean); all patterns are ASCII.
-/
namespace Ofx

/-- bytes.Index(s, sub): the position of the first occurrence. response.go 194-195. -/
def indexOf (sub : Str) : Str → Option Nat
  | [] => if sub.isEmpty then some 0 else none
  | c :: s => if sub.isPrefixOf (c :: s) then some 0 else (indexOf sub s).map (· + 1)

/-- response.go 189-203 `guessVersion` on the peeked bytes: true for XML.  (The nil check of
line 191 never fires: Peek returns an empty slice, not nil.) -/
def guessVersion (peeked : Str) : Bool :=
  match indexOf "OFXHEADER:".toList peeked with
  | none => true
  | some sgml =>
    match indexOf "OFXHEADER=".toList peeked with
    | none => false
    | some xml => decide (xml ≤ sgml)

/-! ### The regular expression -/

/-- The parts of the header expression: a literal, `\s*`, or a capture `(...+)` of a
character class. response.go 56-66. -/
inductive Piece where
  | lit (s : Str)
  | spaces
  | cap (p : Char → Bool)

/-- The first result of `f` at `n`, `n-1`, ..., `0`. response.go 67. -/
def tryDown {β : Type} (f : Nat → Option β) : Nat → Option β
  | 0 => f 0
  | n + 1 =>
    match f (n + 1) with
    | some x => some x
    | none => tryDown f n

/-- `\s` of Go's regexp. response.go 56-66. -/
def isReSpace (c : Char) : Bool := c == '\t' || c == '\n' || c == '\x0c' || c == '\r' || c == ' '

/-- `\w` of Go's regexp. response.go 56-66. -/
def isReWord (c : Char) : Bool := c.isAlphanum || c == '_'

/-- regexp.FindStringSubmatch for an expression `^...$`: greedy with backtracking; the
captured texts. response.go 67. -/
def matchAll : List Piece → Str → Option (List Str)
  | [], s => if s = [] then some [] else none
  | .lit l :: ps, s => if l.isPrefixOf s then matchAll ps (s.drop l.length) else none
  | .spaces :: ps, s => tryDown (fun k => matchAll ps (s.drop k)) (s.takeWhile isReSpace).length
  | .cap p :: ps, s =>
    match (s.takeWhile p).length with
    | 0 => none
    | n + 1 => tryDown (fun k => (matchAll ps (s.drop (k + 1))).map (s.take (k + 1) :: ·)) n

/-- response.go 57-66: `KEY:\s*(...)\s*`. -/
def keyPieces (key : String) (p : Char → Bool) : List Piece := [.lit (key.toList ++ [':']), .spaces, .cap p, .spaces]

/-- response.go 57-66 `headerExp`. -/
def headerExp : List Piece :=
  keyPieces "OFXHEADER" isDigit ++
  keyPieces "DATA" Char.isUpper ++
  keyPieces "VERSION" isDigit ++
  keyPieces "SECURITY" isReWord ++
  keyPieces "ENCODING" (fun c => c.isUpper || isDigit c || c == '-') ++
  keyPieces "CHARSET" (fun c => isReWord c || c == '-') ++
  keyPieces "COMPRESSION" Char.isUpper ++
  keyPieces "OLDFILEUID" (fun c => isReWord c || c == '-') ++
  keyPieces "NEWFILEUID" (fun c => isReWord c || c == '-') ++
  [.lit ['<']]

/-- response.go 38-109 on the text up to and including the first '<': the version. -/
def checkSGMLHeader (s : Str) : Except String Nat :=
  match matchAll headerExp s with
  | some [ofxheader, data, version, security, _, _, compression, _, _] =>
    if ofxheader ≠ "100".toList then .error "OFXHEADER is not 100"
    else if data ≠ "OFXSGML".toList then .error "OFX DATA header does not contain OFXSGML"
    else
      match enumOfxVersion.fromString version with
      | (_, some e) => .error e
      | (v, none) =>
        if v > 4 then .error "OFX VERSION > 160 in SGML header"
        else if ¬ (security = "NONE".toList ∨ security = "TYPE1".toList) then .error "OFX SECURITY header must be NONE or TYPE1"
        else if compression ≠ "NONE".toList then .error "OFX COMPRESSION header not NONE"
        else .ok v
  | _ => .error "OFX headers malformed"

/-! ### The XML header -/

theorem cut_eq {sep s a b : Str} (h : cut sep s = some (a, b)) : s = a ++ sep ++ b := by
  induction s generalizing a with
  | nil =>
    unfold cut at h
    by_cases hs : sep.isEmpty = true
    · rw [if_pos hs] at h
      cases h
      simp [List.isEmpty_iff.mp hs]
    · rw [if_neg hs] at h; cases h
  | cons c s ih =>
    unfold cut at h
    by_cases hp : sep.isPrefixOf (c :: s) = true
    · rw [if_pos hp] at h
      cases h
      obtain ⟨t, ht⟩ := List.isPrefixOf_iff_prefix.mp hp
      rw [← ht]
      simp
    · rw [if_neg hp] at h
      cases hc : cut sep s with
      | none => rw [hc] at h; cases h
      | some x =>
        obtain ⟨a', b'⟩ := x
        rw [hc] at h
        cases h
        rw [ih hc]
        simp

theorem trimSpace_length (s : Str) : (trimSpace s).length ≤ s.length := by
  unfold trimSpace trimRightP trimLeftP
  rw [List.length_reverse]
  refine Nat.le_trans (List.dropWhile_sublist _).length_le ?_
  rw [List.length_reverse]
  exact (List.dropWhile_sublist _).length_le

/-- response.go 125-165: the loop over the attributes of the OFX processing instruction.
`seen` says whether OFXHEADER was seen, `version` is the version if one was seen. -/
def xmlHeaderLoop (seen : Bool) (version : Option Nat) (headers : Str) : Except String (Bool × Option Nat) :=
  match headers with
  | [] => .ok (seen, version)
  | c :: cs =>
    match _h1 : cut "=\"".toList (c :: cs) with
    | none => .error "Malformed OFX header"
    | some (header, rest) =>
      match _h2 : cut "\"".toList rest with
      | none => .error "Malformed OFX header"
      | some (value, rest') =>
        if header = "OFXHEADER".toList then
          if value ≠ "200".toList then .error "OFXHEADER is not 200" else xmlHeaderLoop true version (trimSpace rest')
        else if header = "VERSION".toList then
          match enumOfxVersion.fromString value with
          | (_, some e) => .error e
          | (v, none) => if v < 5 then .error "OFX VERSION < 200 in XML header" else xmlHeaderLoop seen (some v) (trimSpace rest')
        else if header = "SECURITY".toList then
          if value ≠ "NONE".toList then .error "OFX SECURITY header not NONE" else xmlHeaderLoop seen version (trimSpace rest')
        else if header = "OLDFILEUID".toList ∨ header = "NEWFILEUID".toList then xmlHeaderLoop seen version (trimSpace rest')
        else .error "Invalid OFX header"
termination_by headers.length
decreasing_by
  all_goals
    have e1 := congrArg List.length (cut_eq _h1)
    have e2 := congrArg List.length (cut_eq _h2)
    have e3 := trimSpace_length rest'
    simp at e1 e2 ⊢
    omega

/-- response.go 124-178 on the text of the OFX processing instruction. -/
def checkXMLHeader (inst : Str) : Except String Nat :=
  match xmlHeaderLoop false none (trimSpace inst) with
  | .error e => .error e
  | .ok (seen, version) =>
    if !seen then .error "OFXHEADER version missing"
    else
      match version with
      | some v => .ok v
      | none => .error "OFX VERSION header missing"

/-- util.go 11-25 `nextNonWhitespaceToken`: skip white space. -/
def skipBlank : List Tok → List Tok
  | .text s :: ts => if (trimSpace s).isEmpty then skipBlank ts else .text s :: ts
  | ts => ts

/-- response.go 111-180 `readXMLHeaders`: the version and the remaining tokens. -/
def readXMLHeaders (toks : List Tok) : Except String (Nat × List Tok) :=
  match skipBlank toks with
  | .proc target _ :: rest =>
    if target = "xml".toList then
      match skipBlank rest with
      | .proc target' inst :: rest' =>
        if target' = "OFX".toList then
          match checkXMLHeader inst with
          | .ok v => .ok (v, rest')
          | .error e => .error e
        else .error "Missing xml 'OFX' processing instruction"
      | _ => .error "Missing xml 'OFX' processing instruction"
    else .error "Missing xml processing instruction"
  | _ => .error "Missing xml processing instruction"

end Ofx
