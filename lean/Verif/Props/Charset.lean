import Verif.Spec.Charset
import Verif.Props.Truncate
import Verif.Lemmas.SaysText
import Verif.Props.Meaning
/-
Property C91: texts are in the character encoding the header names.
-/
namespace Ofx.Props
open Ofx Spec

/-! ### Written documents -/

theorem ascii_append {a b : Str} : IsAscii (a ++ b) ↔ IsAscii a ∧ IsAscii b := by
  unfold IsAscii
  constructor
  · exact fun h => ⟨fun c hc => h c (List.mem_append_left _ hc), fun c hc => h c (List.mem_append_right _ hc)⟩
  · rintro ⟨h1, h2⟩ c hc
    rcases List.mem_append.mp hc with hc | hc
    · exact h1 c hc
    · exact h2 c hc

/-- The bytes of a text are the text in code page 1252 exactly if it is ASCII. -/
theorem is1252_iff (s : Str) : Is1252 (toBytes s) s ↔ IsAscii s := by
  constructor
  · intro h
    have hl := h.length_eq
    have key : ∀ s : Str, s.length ≤ (toBytes s).length ∧ ((toBytes s).length = s.length → IsAscii s) := by
      intro s
      induction s with
      | nil => exact ⟨Nat.le_refl _, fun _ c hc => by cases hc⟩
      | cons c s ih =>
        have e : (toBytes (c :: s)).length = (String.utf8EncodeChar c).length + (toBytes s).length := by
          simp [toBytes]
        have hp := utf8EncodeChar_pos c
        rw [e, List.length_cons]
        refine ⟨by omega, fun hh => ?_⟩
        have h1 : (String.utf8EncodeChar c).length = 1 := by omega
        intro x hx
        rcases List.mem_cons.mp hx with rfl | hx
        · by_contra hn
          unfold String.utf8EncodeChar at h1
          simp only at h1
          split at h1
          · rename_i h'
            simp only [Char.toNat] at hn
            omega
          all_goals revert h1
          all_goals (try split)
          all_goals (try split)
          all_goals simp
        · exact ih.2 (by omega) x hx
    exact (key s).2 hl
  · intro h
    rw [toBytes_ascii h]
    unfold Is1252
    rw [List.forall₂_map_left_iff, List.forall₂_same]
    intro c hc
    have hc := h c hc
    have e : (c.toNat.toUInt8).toNat = c.toNat := by
      simp; omega
    unfold char1252
    rw [e, if_neg (by omega), Char.ofNat_toNat]

theorem escape_ascii (c : Char) : IsAscii (escapeChar c) ↔ IsPlain [c] := by
  have fix : ∀ (x : Char) (t : Str), (∀ y ∈ t, y.toNat < 128) → (x = '\t' ∨ x = '\n' ∨ x = '\r' ∨ (32 ≤ x.toNat ∧ x.toNat < 128)) →
      (IsAscii t ↔ IsPlain [x]) := by
    intro x t h1 h2
    refine ⟨fun _ y hy => ?_, fun _ => h1⟩
    rw [List.mem_singleton.mp hy]; exact h2
  unfold escapeChar
  by_cases h1 : c = '"'
  · rw [if_pos h1, h1]; exact fix _ _ (by decide) (by decide)
  rw [if_neg h1]
  by_cases h2 : c = '\''
  · rw [if_pos h2, h2]; exact fix _ _ (by decide) (by decide)
  rw [if_neg h2]
  by_cases h3 : c = '&'
  · rw [if_pos h3, h3]; exact fix _ _ (by decide) (by decide)
  rw [if_neg h3]
  by_cases h4 : c = '<'
  · rw [if_pos h4, h4]; exact fix _ _ (by decide) (by decide)
  rw [if_neg h4]
  by_cases h5 : c = '>'
  · rw [if_pos h5, h5]; exact fix _ _ (by decide) (by decide)
  rw [if_neg h5]
  by_cases h6 : c = '\t'
  · rw [if_pos h6, h6]; exact fix _ _ (by decide) (by decide)
  rw [if_neg h6]
  by_cases h7 : c = '\n'
  · rw [if_pos h7, h7]; exact fix _ _ (by decide) (by decide)
  rw [if_neg h7]
  by_cases h8 : c = '\r'
  · rw [if_pos h8, h8]; exact fix _ _ (by decide) (by decide)
  rw [if_neg h8]
  have e6 : c.toNat ≠ 9 := fun h => h6 (by rw [← Char.ofNat_toNat c, h])
  have e7 : c.toNat ≠ 10 := fun h => h7 (by rw [← Char.ofNat_toNat c, h])
  have e8 : c.toNat ≠ 13 := fun h => h8 (by rw [← Char.ofNat_toNat c, h])
  by_cases h9 : isXmlChar c = true
  · rw [if_pos h9]
    unfold isXmlChar at h9
    simp only [Bool.or_eq_true, Bool.and_eq_true, beq_iff_eq, decide_eq_true_eq] at h9
    constructor
    · intro h y hy
      rw [List.mem_singleton.mp hy]
      have := h c (List.mem_singleton.mpr rfl)
      exact .inr (.inr (.inr ⟨by omega, this⟩))
    · intro h y hy
      rw [List.mem_singleton.mp hy]
      rcases h c (List.mem_singleton.mpr rfl) with h | h | h | h
      · exact absurd h h6
      · exact absurd h h7
      · exact absurd h h8
      · exact h.2
  · rw [if_neg h9]
    constructor
    · intro h
      exact absurd (h _ (List.mem_singleton.mpr rfl)) (by decide)
    · intro h
      exfalso
      apply h9
      unfold isXmlChar
      simp only [Bool.or_eq_true, Bool.and_eq_true, beq_iff_eq, decide_eq_true_eq]
      rcases h c (List.mem_singleton.mpr rfl) with h | h | h | h
      · exact absurd h h6
      · exact absurd h h7
      · exact absurd h h8
      · omega

theorem escapeText_ascii (s : Str) : IsAscii (escapeText s) ↔ IsPlain s := by
  unfold escapeText
  induction s with
  | nil => exact ⟨fun _ c hc => absurd hc (List.not_mem_nil), fun _ c hc => absurd hc (List.not_mem_nil)⟩
  | cons c s ih =>
    rw [List.flatMap_cons, ascii_append, escape_ascii, ih]
    constructor
    · rintro ⟨h1, h2⟩ x hx
      rcases List.mem_cons.mp hx with rfl | hx
      · exact h1 _ (List.mem_singleton.mpr rfl)
      · exact h2 x hx
    · intro h
      exact ⟨fun x hx => h x (List.mem_cons.mpr (.inl (List.mem_singleton.mp hx))), fun x hx => h x (List.mem_cons_of_mem _ hx)⟩

theorem lineBreak_ascii (o : PrintOpts) (n : Nat) : IsAscii (lineBreak o n) := by
  unfold lineBreak
  by_cases hi : o.indent = true
  · rw [if_pos hi, ascii_append]
    refine ⟨?_, fun c hc => by rw [(List.mem_replicate.mp hc).2]; decide⟩
    by_cases hr : o.carriageReturn = true
    · rw [if_pos hr]; unfold IsAscii; decide
    · rw [if_neg hr]; unfold IsAscii; decide
  · rw [if_neg hi]; intro c hc; cases hc

mutual
theorem render_ascii (o : PrintOpts) (first : Bool) (depth : Nat) : ∀ n : Node, IsAscii (renderNode o first depth n) ↔ PlainTree n
  | .elem n cs => by
    have ih := renders_ascii o (depth + 1) cs
    have h1 : IsAscii (if first then [] else lineBreak o depth) := by
      by_cases h : first = true
      · rw [if_pos h]; intro c hc; cases hc
      · rw [if_neg h]; exact lineBreak_ascii o depth
    have h2 : IsAscii (if cs.any Node.isElem then lineBreak o depth else []) := by
      by_cases h : cs.any Node.isElem = true
      · rw [if_pos h]; exact lineBreak_ascii o depth
      · rw [if_neg h]; intro c hc; cases hc
    have h3 : IsAscii n → IsAscii (if o.openLeaves && leafElements.contains n then []
       else (if cs.any Node.isElem then lineBreak o depth else []) ++ ['<', '/'] ++ n ++ ['>']) := by
      intro hn
      by_cases h : (o.openLeaves && leafElements.contains n) = true
      · rw [if_pos h]; intro c hc; cases hc
      · rw [if_neg h, ascii_append, ascii_append, ascii_append]
        exact ⟨⟨⟨h2, by unfold IsAscii; decide⟩, hn⟩, by unfold IsAscii; decide⟩
    rw [renderNode, PlainTree, ascii_append, ascii_append, ascii_append, ascii_append, ascii_append, ih]
    constructor
    · rintro ⟨⟨⟨⟨-, h⟩, -⟩, h'⟩, -⟩
      exact ⟨h, h'⟩
    · rintro ⟨h, h'⟩
      exact ⟨⟨⟨⟨⟨h1, by unfold IsAscii; decide⟩, h⟩, by unfold IsAscii; decide⟩, h'⟩, h3 h⟩
  | .text s => by
    rw [renderNode, PlainTree]
    exact escapeText_ascii s
  | .misc => by
    simp [renderNode, PlainTree, IsAscii]
theorem renders_ascii (o : PrintOpts) (depth : Nat) : ∀ cs : List Node, IsAscii (renderNodes o depth cs) ↔ PlainTrees cs
  | [] => by simp [renderNodes, PlainTrees, IsAscii]
  | c :: cs => by
    rw [renderNodes, ascii_append, render_ascii o false depth c, renders_ascii o depth cs, PlainTrees]
end

theorem header_ascii {v : Nat} {cr : Bool} {h : Str} (hw : writeHeader v cr = some h) : IsAscii h := by
  have hv : v = 1 ∨ v = 2 ∨ v = 3 ∨ v = 4 ∨ v = 5 ∨ v = 6 ∨ v = 7 ∨ v = 8 ∨ v = 9 ∨ v = 10 ∨ v = 11 := by
    unfold writeHeader at hw
    by_cases h1 : 1 ≤ v ∧ v ≤ 4
    · omega
    · rw [if_neg h1] at hw
      by_cases h2 : 5 ≤ v ∧ v ≤ 11
      · omega
      · rw [if_neg h2] at hw; cases hw
  have key : ∀ v ∈ [1, 2, 3, 4, 5, 6, 7, 8, 9, 10, 11], ∀ cr, ∀ c ∈ (writeHeader v cr).getD [], c.toNat < 128 := by decide +kernel
  have := key v (by simpa using hv) cr
  rw [hw] at this
  exact this

/-- The header names the encoding. -/
theorem header_1252 {v : Nat} (hv : 1 ≤ v ∧ v ≤ 4) (cr : Bool) : ∃ h, writeHeader v cr = some h ∧
    "ENCODING:USASCII".toList <:+: h ∧ "CHARSET:1252".toList <:+: h := by
  have key : ∀ v ∈ [1, 2, 3, 4], ∀ cr, "ENCODING:USASCII".toList <:+: (writeHeader v cr).getD [] ∧ "CHARSET:1252".toList <:+: (writeHeader v cr).getD [] := by
    decide +kernel
  obtain ⟨h, hh⟩ := header_some (v := v) ⟨hv.1, by omega⟩ cr
  have := key v (by simp; omega) cr
  rw [hh] at this
  exact ⟨h, hh, this⟩

/-- C91, writing, as far as it holds: a request of version 1.x says that it is in US-ASCII and code
page 1252, and its bytes are its text in that encoding exactly if all texts and element names in it
are ASCII.  Missing: that other texts are written in that encoding, too; they never are. -/
theorem C91_written_partial (r : Request Message) (d : Doc) (h : r.marshal.1 = .ok d) (hv : 1 ≤ r.version ∧ r.version ≤ 4) :
    "ENCODING:USASCII".toList <:+: d.header ∧ "CHARSET:1252".toList <:+: d.header ∧
    (Is1252 d.bytes d.text ↔ PlainTree d.body) := by
  obtain ⟨_, ns, rest, h1, h2, rfl⟩ := (request_marshal_ok r d).mp h
  obtain ⟨hd, hh, h3, h4⟩ := header_1252 hv r.carriageReturn
  refine ⟨?_, ?_, ?_⟩
  · show _ <:+: (writeHeader r.version r.carriageReturn).getD []
    rw [hh]; exact h3
  · show _ <:+: (writeHeader r.version r.carriageReturn).getD []
    rw [hh]; exact h4
  · refine (is1252_iff _).trans ?_
    unfold Doc.text
    rw [ascii_append, render_ascii]
    refine and_iff_right ?_
    show IsAscii ((writeHeader r.version r.carriageReturn).getD [])
    rw [hh]; exact header_ascii hh

/-- C91: the same for responses. -/
theorem C91_response_written_partial (r : Response Message) (d : Doc) (h : r.marshal.1 = .ok d) (hv : 1 ≤ r.version ∧ r.version ≤ 4) :
    "ENCODING:USASCII".toList <:+: d.header ∧ "CHARSET:1252".toList <:+: d.header ∧
    (Is1252 d.bytes d.text ↔ PlainTree d.body) := by
  obtain ⟨_, ns, rest, h1, h2, rfl⟩ := (response_marshal_ok r d).mp h
  obtain ⟨hd, hh, h3, h4⟩ := header_1252 hv false
  refine ⟨?_, ?_, ?_⟩
  · show _ <:+: (writeHeader r.version false).getD []
    rw [hh]; exact h3
  · show _ <:+: (writeHeader r.version false).getD []
    rw [hh]; exact h4
  · refine (is1252_iff _).trans ?_
    unfold Doc.text
    rw [ascii_append, render_ascii]
    refine and_iff_right ?_
    show IsAscii ((writeHeader r.version false).getD [])
    rw [hh]; exact header_ascii hh

/-! ### Reading -/

theorem headerText_ascii : ∀ (fields : List (String × Str)) (s : Str), HeaderText fields s →
    (∀ f ∈ fields, IsAscii f.1.toList ∧ IsAscii f.2) → IsAscii s
  | [], s, h, _ => by
    have h : s = ['<'] := h
    subst h
    intro c hc
    rw [List.mem_singleton] at hc
    subst hc
    decide
  | (key, value) :: fields, s, h, hf => by
    obtain ⟨w, w', rest, rfl, h1, h2, h3⟩ := h
    have hb : ∀ w : Str, Blanks w → IsAscii w := by
      intro w hw c hc
      rcases hw c hc with rfl | rfl | rfl | rfl | rfl <;> decide
    obtain ⟨k1, k2⟩ := hf _ (List.mem_cons_self ..)
    rw [ascii_append, ascii_append, ascii_append, ascii_append, ascii_append]
    refine ⟨⟨⟨⟨⟨k1, ?_⟩, hb _ h1⟩, k2⟩, hb _ h2⟩, headerText_ascii fields rest h3 (fun f hf' => hf f (List.mem_cons_of_mem _ hf'))⟩
    intro c hc
    rw [List.mem_singleton] at hc
    subst hc
    decide

theorem word_ascii {c : Char} (h : IsWordChar c ∨ c = '-') : c.toNat < 128 := by
  have key : ∀ {a b : Char}, b.toNat < 128 → (a ≤ c ∧ c ≤ b) → c.toNat < 128 := by
    intro a b hb h
    exact Nat.lt_of_le_of_lt (show c.toNat ≤ b.toNat from h.2) hb
  rcases h with (h | h | h | rfl) | rfl
  · exact key (by decide) h
  · exact key (by decide) h
  · exact key (by decide) h
  · decide
  · decide

theorem sgmlHeader_ascii {n : Nat} {s : Str} (h : SGMLHeader n s) : IsAscii s := by
  obtain ⟨v, hv, sec, enc, cs, o, nw, h1, h2, h3, h4, h5, h6⟩ := h
  refine headerText_ascii _ _ h1 ?_
  have hvv : IsAscii v.toList := by
    have := List.mem_of_getElem? hv
    have key : ∀ v ∈ sgmlVersions, ∀ c ∈ v.toList, c.toNat < 128 := by decide
    exact key v this
  have hsec : IsAscii sec := by
    rcases h2 with rfl | rfl <;> (unfold IsAscii; decide)
  have henc : IsAscii enc := fun c hc => word_ascii (by
    rcases h3.2 c hc with h | h | h
    · exact .inl (.inr (.inl h))
    · exact .inl (.inl h)
    · exact .inr h)
  have hcs : IsAscii cs := fun c hc => word_ascii (h4.2 c hc)
  have ho : IsAscii o := fun c hc => word_ascii (h5.2 c hc)
  have hnw : IsAscii nw := fun c hc => word_ascii (h6.2 c hc)
  have lit : ∀ x : Str, (∀ c ∈ x, c.toNat < 128) → IsAscii x := fun _ h => h
  intro f hf
  simp only [List.mem_cons, List.not_mem_nil, or_false] at hf
  rcases hf with rfl | rfl | rfl | rfl | rfl | rfl | rfl | rfl | rfl
  · exact ⟨lit "OFXHEADER".toList (by decide), lit _ (by decide)⟩
  · exact ⟨lit "DATA".toList (by decide), lit _ (by decide)⟩
  · exact ⟨lit "VERSION".toList (by decide), hvv⟩
  · exact ⟨lit "SECURITY".toList (by decide), hsec⟩
  · exact ⟨lit "ENCODING".toList (by decide), henc⟩
  · exact ⟨lit "CHARSET".toList (by decide), hcs⟩
  · exact ⟨lit "COMPRESSION".toList (by decide), lit _ (by decide)⟩
  · exact ⟨lit "OLDFILEUID".toList (by decide), ho⟩
  · exact ⟨lit "NEWFILEUID".toList (by decide), hnw⟩

theorem toBytes_latin1 {bs : List UInt8} (h : IsAscii (latin1 bs)) : toBytes (latin1 bs) = bs := by
  rw [toBytes_ascii h, latin1, List.map_map]
  conv_rhs => rw [← List.map_id bs]
  apply List.map_congr_left
  intro b hb
  simp only [Function.comp_apply, id_eq]
  have h1 : b.toNat < 256 := b.toNat_lt
  have h2 : (Char.ofNat b.toNat).toNat = b.toNat := by
    rw [Char.ofNat, dif_pos (show b.toNat.isValidChar from .inl (by omega))]
    rfl
  rw [h2]
  simp

/-- C91: whatever its header says, a document is read as UTF-8: only the bytes up to the first that
belong to no character in UTF-8 count. -/
theorem C91_read_as_utf8 (env : Env) (nt : NameTable) (bs start tail : List UInt8) (s : Str) (r : Response Message) (hb : bs = start ++ tail)
    (hs : IsUtf8 start s) (ht : ∀ c more, IsUtf8 more [c] → ¬ more <+: tail) :
    decodeResponse env nt bs = .ok r ↔ decodeResponse env nt start = .ok r := by
  have hs : start = toBytes s := hs
  subst hs hb
  have hn : utf8Next tail = none := by
    cases h : utf8Next tail with
    | none => rfl
    | some p =>
      obtain ⟨c, rest⟩ := p
      exact absurd ⟨rest, (utf8Next_some h).symm⟩ (ht c _ (by simp [IsUtf8]))
  refine ⟨fun h => ?_, fun h => decodeResponse_ext h tail⟩
  rcases decodeResponse_iff.mp h with ⟨hg, h⟩ | ⟨head, tl, v, he, h2, h3, hc, h⟩
  · refine decodeResponse_iff.mpr (.inl ⟨?_, ?_⟩)
    · rw [List.take_append, latin1_append] at hg
      exact guess_shrink hg
    · rw [utf8Decode_append, utf8Decode_stuck hn, List.append_nil] at h
      rw [utf8Decode_toBytes]; exact h
  · obtain ⟨n, _, hn'⟩ := (checkSGML_iff ..).mp hc
    have ha := (ascii_append.mp (sgmlHeader_ascii hn')).1
    have e := toBytes_latin1 ha
    have hd : latin1 head ++ '<' :: utf8Decode tl = s := by
      have := congrArg utf8Decode he
      rw [utf8Decode_append, utf8Decode_stuck hn, List.append_nil, ← e, utf8Decode_append,
        show ltByte :: tl = String.utf8EncodeChar '<' ++ tl from rfl, utf8Decode_cons] at this
      exact this.symm
    have hb : toBytes s = head ++ ltByte :: toBytes (utf8Decode tl) := by
      rw [← hd, toBytes_append, e]
      simp [toBytes]
      rfl
    refine decodeResponse_iff.mpr (.inr ⟨head, _, v, hb, h2, h3, hc, ?_⟩)
    rw [show ltByte :: tl = String.utf8EncodeChar '<' ++ tl from rfl, utf8Decode_cons] at h
    rw [show ltByte :: toBytes (utf8Decode tl) = String.utf8EncodeChar '<' ++ toBytes (utf8Decode tl) from rfl, utf8Decode_cons, utf8Decode_toBytes]
    exact h

/-- C91: SGML documents are read alike, whatever encoding and character set their headers name. -/
theorem C91_declaration_ignored (env : Env) (nt : NameTable) {n : Nat} {head head' : List UInt8} (rest : List UInt8)
    (h1 : 60 ∉ head ∧ head.length < 1024) (h2 : SGMLHeader n (latin1 head ++ ['<']))
    (h1' : 60 ∉ head' ∧ head'.length < 1024) (h2' : SGMLHeader n (latin1 head' ++ ['<'])) :
    decodeResponse env nt (head ++ 60 :: rest) = decodeResponse env nt (head' ++ 60 :: rest) := by
  rw [C29_reads env nt rest h1.1 h1.2 h2, C29_reads env nt rest h1'.1 h1'.2 h2']

/-- C91: so are XML documents, whatever encoding their XML declarations name. -/
theorem C91_xml_declaration_ignored (env : Env) (nt : NameTable) {v : Nat} {head head' t : Str} {n : Str} {cs : List Node} (tail : List UInt8)
    (h0 : ¬ "OFXHEADER:".toList <:+: latin1 ((toBytes (head ++ t) ++ tail).take 1024)) (h1 : XMLHead v head)
    (h0' : ¬ "OFXHEADER:".toList <:+: latin1 ((toBytes (head' ++ t) ++ tail).take 1024)) (h1' : XMLHead v head')
    (ht : Layout false (.elem n cs) t) (r : Response Message) :
    decodeResponse env nt (toBytes (head ++ t) ++ tail) = .ok r ↔ decodeResponse env nt (toBytes (head' ++ t) ++ tail) = .ok r := by
  rw [xmlDoc_reads env nt h0 h1 ht r, xmlDoc_reads env nt h0' h1' ht r]

/-- The second byte of a character outside ASCII. -/
theorem utf8_second (c : Char) (h : 128 ≤ c.toNat) : ∃ a b t, String.utf8EncodeChar c = a :: b :: t ∧ 128 ≤ b.toNat := by
  have e : c.val.toNat = c.toNat := rfl
  unfold String.utf8EncodeChar
  simp only [e]
  by_cases h1 : c.toNat ≤ 0x7f
  · omega
  rw [if_neg h1]
  by_cases h2 : c.toNat ≤ 0x7ff
  · rw [if_pos h2]
    refine ⟨_, _, _, rfl, ?_⟩
    simp
    omega
  rw [if_neg h2]
  by_cases h3 : c.toNat ≤ 0xffff
  · rw [if_pos h3]
    refine ⟨_, _, _, rfl, ?_⟩
    simp
    omega
  · rw [if_neg h3]
    refine ⟨_, _, _, rfl, ?_⟩
    simp
    omega

theorem byte_1252 {b : UInt8} {c : Char} (h : char1252 b = some c) :
    (c.toNat < 128 → b = c.toNat.toUInt8) ∧ (b.toNat < 128 ↔ c.toNat < 128) := by
  unfold char1252 at h
  have hb := b.toNat_lt
  by_cases hs : 128 ≤ b.toNat ∧ b.toNat < 160
  · rw [if_pos hs] at h
    have key : ∀ o ∈ windowsSpecials, ∀ n ∈ o, 128 ≤ (Char.ofNat n).toNat := by decide
    have hc : 128 ≤ c.toNat := by
      cases ho : windowsSpecials[b.toNat - 128]? with
      | none => rw [ho] at h; cases h
      | some o =>
        cases o with
        | none => rw [ho] at h; cases h
        | some n =>
          rw [ho] at h
          cases h
          exact key _ (List.mem_of_getElem? ho) n rfl
    exact ⟨fun h => by omega, by omega⟩
  · rw [if_neg hs] at h
    cases h
    rw [latin1_byte]
    refine ⟨fun _ => ?_, Iff.rfl⟩
    simp

/-- In code page 1252, nothing in UTF-8 starts at a character outside ASCII followed by one in ASCII. -/
theorem stuck_1252 {b b' : UInt8} {bs : List UInt8} (h : 128 ≤ b.toNat) (h' : b'.toNat < 128) (c : Char) (more : List UInt8)
    (hm : IsUtf8 more [c]) : ¬ more <+: b :: b' :: bs := by
  rintro ⟨t, ht⟩
  have hm : more = String.utf8EncodeChar c := by simpa [IsUtf8] using hm
  subst hm
  by_cases hc : c.toNat < 128
  · rw [utf8_ascii hc] at ht
    cases ht
    simp at h
    omega
  · obtain ⟨x, y, z, he, hy⟩ := utf8_second c (by omega)
    rw [he] at ht
    cases ht
    omega

theorem ascii_1252 {bs : List UInt8} {s : Str} (h : Is1252 bs s) (ha : IsAscii s) : bs = toBytes s := by
  induction h with
  | nil => rfl
  | @cons b c bs s h1 h2 ih =>
    have e := (byte_1252 h1).1 (ha c (List.mem_cons_self ..))
    rw [show toBytes (c :: s) = String.utf8EncodeChar c ++ toBytes s from by simp [toBytes],
      utf8_ascii (ha c (List.mem_cons_self ..)), ← ih (fun c hc => ha c (List.mem_cons_of_mem _ hc)), ← e]
    rfl

/-- C91, where the code violates it, reading: of a document in the encoding that SGML documents
name, only what precedes the first letter outside ASCII is read, if a character in ASCII follows it. -/
theorem C91_1252_cut (env : Env) (nt : NameTable) (bs : List UInt8) (pre post : Str) (c x : Char) (r : Response Message)
    (hb : Is1252 bs (pre ++ c :: x :: post)) (hp : IsAscii pre) (hc : 128 ≤ c.toNat) (hx : x.toNat < 128) :
    decodeResponse env nt bs = .ok r ↔ decodeResponse env nt (toBytes pre) = .ok r := by
  have h1 := List.forall₂_take_append _ _ _ hb
  have h2 := List.forall₂_drop_append _ _ _ hb
  have e := ascii_1252 h1 hp
  cases h3 : bs.drop pre.length with
  | nil => rw [h3] at h2; cases h2
  | cons b rest =>
    rw [h3] at h2
    rcases h2 with _ | ⟨k1, h2⟩
    cases rest with
    | nil => cases h2
    | cons b' rest =>
      rcases h2 with _ | ⟨k2, h2⟩
      have k1 : 128 ≤ b.toNat := by
        by_contra h
        have := (byte_1252 k1).2.mp (by omega)
        omega
      have k2 := (byte_1252 k2).2.mpr hx
      refine C91_read_as_utf8 env nt bs (toBytes pre) (b :: b' :: rest) pre r ?_ rfl (stuck_1252 k1 k2)
      rw [← e, ← h3, List.take_append_drop]

/-- C91, where the code violates it, reading: a response of version 1.x as this package writes it,
but in the encoding that its header names, is refused, if the first letter outside ASCII is followed
by a character in ASCII. -/
theorem C91_1252_refused (env : Env) (nt : NameTable) (r : Response Message) (d : Doc) (h : r.marshal.1 = .ok d)
    (hv : 1 ≤ r.version ∧ r.version ≤ 4) (hs : CleanSignonResponse r.signon)
    (hm : ∀ s, s ≠ .signon → ∀ m ∈ r.sets s, CleanMessage m) (bs : List UInt8) (pre post : Str) (c x : Char)
    (hd : d.text = pre ++ c :: x :: post) (hp : IsAscii pre) (hc : 128 ≤ c.toNat) (hx : x.toNat < 128) (hb : Is1252 bs d.text) :
    ∃ err, decodeResponse env nt bs = .error err := by
  rw [hd] at hb
  have hl : (toBytes pre).length < d.bytes.length := by
    show (toBytes pre).length < (toBytes d.text).length
    rw [hd, toBytes_append, List.length_append,
      show toBytes (c :: x :: post) = String.utf8EncodeChar c ++ toBytes (x :: post) from by simp [toBytes], List.length_append]
    have := utf8EncodeChar_pos c
    omega
  obtain ⟨err, he⟩ := C34_written env nt r d h ⟨hv.1, by omega⟩ hs hm _ hl
  have e : d.bytes.take (toBytes pre).length = toBytes pre := by
    show (toBytes d.text).take _ = _
    rw [hd, toBytes_append, List.take_left]
  rw [e] at he
  cases hdec : decodeResponse env nt bs with
  | error err => exact ⟨err, rfl⟩
  | ok r' =>
    rw [(C91_1252_cut env nt bs pre post c x r' hb hp hc hx).mp hdec] at he
    cases he

/-! ### Letters outside ASCII -/

def joseRequest : Request Message :=
  { trickyRequest with signon := { trickySignon with UserID := "José".toList }, sets := fun _ => [] }

theorem joseRequest_text : joseRequest.marshal.1.toOption.map (fun d => d.text.all (fun c => decide (c.toNat < 128))) = some false := by
  decide +kernel

/-- C91, where the code violates it, writing: the user José signs on with a request of version 102;
its header says US-ASCII and code page 1252, and its bytes are in neither. -/
theorem C91_written_wrong : ∃ d, joseRequest.marshal.1 = .ok d ∧ "ENCODING:USASCII".toList <:+: d.header ∧
    "CHARSET:1252".toList <:+: d.header ∧ ¬ Is1252 d.bytes d.text := by
  have h := joseRequest_text
  cases hd : joseRequest.marshal.1 with
  | error e => rw [hd] at h; cases h
  | ok d =>
    obtain ⟨h1, h2, -⟩ := C91_written_partial joseRequest d hd (by decide)
    refine ⟨d, rfl, h1, h2, fun h3 => ?_⟩
    have h3 := (is1252_iff d.text).mp h3
    rw [hd] at h
    have h : d.text.all (fun c => decide (c.toNat < 128)) = false := Option.some.inj h
    have : d.text.all (fun c => decide (c.toNat < 128)) = true := List.all_eq_true.mpr (fun c hc => decide_eq_true (h3 c hc))
    rw [this] at h
    cases h

/-- The ASCII requests: `trickyRequest` is in the encoding its header names. -/
example : ∃ d, trickyRequest.marshal.1 = .ok d ∧ "CHARSET:1252".toList <:+: d.header ∧ Is1252 d.bytes d.text := by
  have h : trickyRequest.marshal.1.toOption.map (fun d => d.text.all (fun c => decide (c.toNat < 128))) = some true := by
    decide +kernel
  cases hd : trickyRequest.marshal.1 with
  | error e => rw [hd] at h; cases h
  | ok d =>
    rw [hd] at h
    have h : d.text.all (fun c => decide (c.toNat < 128)) = true := Option.some.inj h
    exact ⟨d, rfl, (C91_written_partial trickyRequest d hd (by decide)).2.1,
      (is1252_iff d.text).mpr (fun c hc => of_decide_eq_true (List.all_eq_true.mp h c hc))⟩

def accentedResponse : Response Message :=
  { sampleResponse with version := 1, signon := { sampleSignonResponse with Org := "Société".toList }, sets := fun _ => [] }

/-- A response of a bank called Société, in the encoding its header names, is refused. -/
example (nt : NameTable) : ∃ d bs, accentedResponse.marshal.1 = .ok d ∧ Is1252 bs d.text ∧
    ∃ err, decodeResponse sampleEnv nt bs = .error err := by
  have h : accentedResponse.marshal.1.toOption.map (fun d =>
      (match d.text.dropWhile (fun c => decide (c.toNat < 128)) with
        | c :: x :: _ => decide (128 ≤ c.toNat) && decide (x.toNat < 128)
        | _ => false) && d.text.all (fun c => decide (char1252 c.toNat.toUInt8 = some c))) = some true := by
    decide +kernel
  cases hd : accentedResponse.marshal.1 with
  | error e => rw [hd] at h; cases h
  | ok d =>
    rw [hd] at h
    have h := Option.some.inj h
    simp only [Bool.and_eq_true] at h
    obtain ⟨h1, h2⟩ := h
    have hb : Is1252 (d.text.map (fun c => c.toNat.toUInt8)) d.text := by
      unfold Is1252
      rw [List.forall₂_map_left_iff, List.forall₂_same]
      exact fun c hc => of_decide_eq_true (List.all_eq_true.mp h2 c hc)
    refine ⟨d, _, rfl, hb, ?_⟩
    have e := (List.takeWhile_append_dropWhile (p := fun c : Char => decide (c.toNat < 128)) (l := d.text)).symm
    cases h3 : d.text.dropWhile (fun c => decide (c.toNat < 128)) with
    | nil => rw [h3] at h1; cases h1
    | cons c rest =>
      cases rest with
      | nil => rw [h3] at h1; cases h1
      | cons x post =>
        rw [h3] at h1 e
        simp only [Bool.and_eq_true, decide_eq_true_eq] at h1
        exact C91_1252_refused sampleEnv nt accentedResponse d hd (by decide) (textB_sound _ _ (by decide +kernel))
          (fun s _ m hm => by cases hm) _ _ _ _ _ e (fun c hc => by simpa using List.all_eq_true.mp (List.all_takeWhile (p := fun c : Char => decide (c.toNat < 128)) (l := d.text)) c hc) h1.1 h1.2 hb

/-- Two headers naming different encodings. -/
example : SGMLHeader 0 ("OFXHEADER:100 DATA:OFXSGML VERSION:102 SECURITY:NONE ENCODING:USASCII CHARSET:1252 COMPRESSION:NONE OLDFILEUID:NONE NEWFILEUID:NONE<").toList ∧
    SGMLHeader 0 ("OFXHEADER:100 DATA:OFXSGML VERSION:102 SECURITY:NONE ENCODING:UTF-8 CHARSET:NONE COMPRESSION:NONE OLDFILEUID:NONE NEWFILEUID:NONE<").toList := by
  have key : ∀ s, checkSGMLHeader s = .ok 1 → SGMLHeader 0 s := by
    intro s hs
    obtain ⟨n, hn, h⟩ := (C29_header_iff s 1).mp hs
    cases (show n = 0 from by omega)
    exact h
  exact ⟨key _ (by decide +kernel), key _ (by decide +kernel)⟩

/-- Two XML headers naming different encodings. -/
example : XMLHead 2 "<?xml version=\"1.0\" encoding=\"UTF-8\"?><?OFX VERSION=\"202\" OFXHEADER=\"200\"?>".toList ∧
    XMLHead 2 "<?xml version=\"1.0\" encoding=\"ISO-8859-1\"?><?OFX VERSION=\"202\" OFXHEADER=\"200\"?>".toList := by
  have hg : Gap [] := ⟨[], .nil, fun c hc => absurd hc List.not_mem_nil⟩
  have hv : StatesVersion 2 "202".toList := ⟨"202", rfl, [], [], rfl, fun c hc => (by cases hc), fun c hc => (by cases hc)⟩
  have hx : XMLHeader 2 [("VERSION".toList, "202".toList), ("OFXHEADER".toList, "200".toList)] := by
    refine ⟨?_, ⟨_, List.mem_cons_of_mem _ (List.mem_cons_self ..), rfl⟩,
      [], "202".toList, [("OFXHEADER".toList, "200".toList)], rfl, by decide, hv⟩
    intro a ha
    simp only [List.mem_cons, List.not_mem_nil, or_false] at ha
    rcases ha with rfl | rfl
    · exact ⟨by decide, .inr (.inl ⟨rfl, 2, hv⟩)⟩
    · exact ⟨by decide, .inl ⟨rfl, rfl⟩⟩
  have key : ∀ more : Str, '?' ∉ more → XMLHead 2 ("<?xml version=\"1.0\"".toList ++ more ++
      "?><?OFX VERSION=\"202\" OFXHEADER=\"200\"?>".toList) := by
    intro more hm
    exact ⟨[], [], [], more, "VERSION=\"202\" OFXHEADER=\"200\"".toList, [("VERSION".toList, "202".toList), ("OFXHEADER".toList, "200".toList)], by simp, hg, hg, hg, hm, by decide,
      fun c hc => (by cases hc; decide),
      ⟨[], " OFXHEADER=\"200\"".toList, rfl, by decide, [' '], [], rfl, by decide, fun c hc => (by cases hc)⟩, hx⟩
  exact ⟨key " encoding=\"UTF-8\"".toList (by decide), key " encoding=\"ISO-8859-1\"".toList (by decide)⟩

end Ofx.Props
