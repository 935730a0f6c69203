import Verif.Lemmas.Enum
/-
Properties C10, C11, C12: the 40 enumerations of constants.go.  The table contents
are generated from the source (`Verif/Gen/Enums.lean`); facts about the tables are
decided over the complete tables and lifted to all values and texts.
-/
namespace Ofx.Props
open Ofx Ofx.Spec

/-- C10: a value is valid exactly when it is the value (`1 + iota`) of a declared
constant. -/
theorem C10_valid_iff (t : EnumTable) (ht : t ∈ allEnums) (e : Nat) :
    t.valid e = true ↔ ∃ i, i < t.consts.length ∧ e = 1 + i := by
  have g := good_of_mem ht
  rw [g.valid_iff, g.clen]
  constructor
  · intro h; exact ⟨e - 1, by omega, by omega⟩
  · rintro ⟨i, h1, rfl⟩; omega

/-- C10: each declared constant prints as its own name: the constant is the type's
prefix followed by some `v`, and the text it prints is `v` in upper case (up to spaces,
which Go identifiers cannot contain). -/
theorem C10_constant_text (t : EnumTable) (ht : t ∈ allEnums) (i : Nat) (c : String)
    (hc : t.consts[i]? = some c) :
    ∃ v s, c.toList = t.prefix_.toList ++ v ∧ t.string (1 + i) = .ret s ∧
      s.filter (· ≠ ' ') = v.map Char.toUpper := by
  have key : ∀ t ∈ allEnums, ∀ p ∈ t.consts.zip t.names,
      t.prefix_.toList.isPrefixOf p.1.toList = true ∧
      p.2.filter (· ≠ ' ') = (p.1.toList.drop t.prefix_.toList.length).map Char.toUpper := by
    decide +kernel
  have g := good_of_mem ht
  have hi : i < t.consts.length := (List.getElem?_eq_some_iff.mp hc).1
  have hv : t.valid (1 + i) = true := (C10_valid_iff t ht _).mpr ⟨i, hi, rfl⟩
  obtain ⟨s, hs, hstr⟩ := g.string_valid hv
  have hs' : t.names[i]? = some s := by simpa using hs
  have hz : (c, s) ∈ t.consts.zip t.names := by
    apply List.mem_of_getElem? (i := i)
    rw [List.getElem?_zip_eq_some]; exact ⟨hc, hs'⟩
  obtain ⟨h1, h2⟩ := key t ht _ hz
  obtain ⟨v, hv⟩ := List.isPrefixOf_iff_prefix.mp h1
  refine ⟨v, s, hv.symm, hstr, ?_⟩
  rw [h2]; simp only; rw [← hv]; simp

/-- C10: printing never panics; an invalid value prints as "invalid <type> (<n>)". -/
theorem C10_string_total (t : EnumTable) (ht : t ∈ allEnums) (e : Nat) :
    ∃ s, t.string e = .ret s ∧
      (t.valid e = false → s = ("invalid " ++ t.goType ++ " (").toList ++ natStr e ++ [')']) := by
  have g := good_of_mem ht
  cases h : t.valid e
  · refine ⟨_, by rw [EnumTable.string, h]; rfl, fun _ => ?_⟩
    simp
  · obtain ⟨s, _, hs⟩ := g.string_valid h
    exact ⟨s, hs, by simp⟩

/-- C10: a text parses to `e` exactly when `e` is a valid value and the text, without
surrounding white space, is what `e` prints as. -/
theorem C10_parse_iff (t : EnumTable) (ht : t ∈ allEnums) (text : Str) (e : Nat) :
    t.fromString text = (e, none) ↔
      t.valid e = true ∧ ∃ s, t.string e = .ret s ∧ TrimsTo text s := by
  have g := good_of_mem ht
  rw [g.fromString_iff]
  constructor
  · rintro ⟨hv, hn⟩
    obtain ⟨s, hs, hstr⟩ := g.string_valid hv
    rw [hs] at hn; cases hn
    exact ⟨hv, _, hstr, (trimsTo_iff _ _).mpr rfl⟩
  · rintro ⟨hv, s, hstr, htr⟩
    obtain ⟨s', hs', hstr'⟩ := g.string_valid hv
    rw [hstr] at hstr'; cases hstr'
    exact ⟨hv, by rw [hs', (trimsTo_iff _ _).mp htr]⟩

/-- C10: printing a valid value and parsing it back, with any padding, gives the value. -/
theorem C10_roundtrip (t : EnumTable) (ht : t ∈ allEnums) (e : Nat) (h : t.valid e = true)
    (w w' : Str) (hw : IsPadding w) (hw' : IsPadding w') :
    ∃ s, t.string e = .ret s ∧ t.fromString (w ++ s ++ w') = (e, none) := by
  have g := good_of_mem ht
  obtain ⟨s, hs, hstr⟩ := g.string_valid h
  refine ⟨s, hstr, (C10_parse_iff t ht _ e).mpr ⟨h, s, hstr, w, w', hw, hw', rfl, ?_⟩⟩
  rw [isTrim_iff, ← g.trim s (List.mem_of_getElem? hs)]
  exact trimSpace_trimmed s

/-- C10: two valid values of one enumeration never print alike. -/
theorem C10_string_injective (t : EnumTable) (ht : t ∈ allEnums) (a b : Nat)
    (ha : t.valid a = true) (hb : t.valid b = true) (h : t.string a = t.string b) : a = b := by
  obtain ⟨s, hs, h1⟩ := C10_roundtrip t ht a ha [] [] (by decide) (by decide)
  obtain ⟨s', hs', h2⟩ := C10_roundtrip t ht b hb [] [] (by decide) (by decide)
  rw [hs, hs'] at h; cases h
  rw [h1] at h2; exact congrArg Prod.fst h2

/-- C10: a failed parse reports an error and leaves 0, which is not valid; it happens
exactly for texts no valid value prints as. -/
theorem C10_parse_error (t : EnumTable) (ht : t ∈ allEnums) (text : Str) :
    (∃ v err, t.fromString text = (v, some err) ∧ v = 0 ∧ t.valid v = false) ↔
      ¬ ∃ e s, t.valid e = true ∧ t.string e = .ret s ∧ TrimsTo text s := by
  have g := good_of_mem ht
  have h0 : t.valid 0 = false := by
    cases h : t.valid 0
    · rfl
    · have := (g.valid_iff 0).mp h; omega
  constructor
  · rintro ⟨v, err, h, _⟩ ⟨e, s, hv, hs, htr⟩
    rw [(C10_parse_iff t ht text e).mpr ⟨hv, s, hs, htr⟩] at h; cases h
  · intro h
    rcases hf : t.fromString text with ⟨v, _ | err⟩
    · obtain ⟨hv, s, hs, htr⟩ := (C10_parse_iff t ht text v).mp hf
      exact absurd ⟨v, s, hv, hs, htr⟩ h
    · have := g.fromString_error text v err hf
      exact ⟨v, err, rfl, this, this ▸ h0⟩

/-- C10: `New*` and XML decoding agree with `FromString`. -/
theorem C10_new_unmarshal (t : EnumTable) (text : Str) (e : Nat) :
    (t.new text = (e, none) ↔ t.fromString text = (e, none)) ∧
    (t.unmarshal text = .ok e ↔ t.fromString text = (e, none)) := by
  unfold EnumTable.new EnumTable.unmarshal
  rcases t.fromString text with ⟨v, _ | err⟩ <;> simp

/-- C10: along with an error `New*` returns an invalid value. -/
theorem C10_new_error (t : EnumTable) (ht : t ∈ allEnums) (text : Str) (h : (t.new text).2 ≠ none) :
    t.valid (t.new text).1 = false := by
  have h0 : t.valid 0 = false := by
    cases h : t.valid 0
    · rfl
    · have := ((good_of_mem ht).valid_iff 0).mp h; omega
  revert h
  unfold EnumTable.new
  rcases t.fromString text with ⟨v, _ | err⟩ <;> simp [h0]

example : (enumAcctType.new "checking".toList).2 ≠ none := by decide
example : enumAcctType ∈ allEnums := by decide
example : enumOfxSec.fromString " TYPE 1\n".toList = (2, none) := by decide
example : enumOfxSec.string 2 = .ret "TYPE 1".toList := by decide
example : enumAcctType.valid 3 = true := by decide
-- case matters
example : (enumAcctType.fromString "Checking".toList).1 = 0 := by decide

/-! ### C11 -/

/-- C11: an invalid value writes no element; a valid one writes exactly one element
whose text (with any padding) decodes to the value. -/
theorem C11_marshal (t : EnumTable) (ht : t ∈ allEnums) (e : Nat) :
    (t.valid e = false → t.marshal e = .ret none) ∧
    (t.valid e = true → ∃ s, t.marshal e = .ret (some s) ∧ t.string e = .ret s ∧
      ∀ w w', IsPadding w → IsPadding w' → t.unmarshal (w ++ s ++ w') = .ok e) := by
  have g := good_of_mem ht
  constructor
  · intro h; simp [EnumTable.marshal, h]
  · intro h
    obtain ⟨s, hs, hstr⟩ := g.string_valid h
    refine ⟨s, by simp [EnumTable.marshal, h, hs], hstr, ?_⟩
    intro w w' hw hw'
    obtain ⟨s', hs', hr⟩ := C10_roundtrip t ht e h w w' hw hw'
    rw [hstr] at hs'; cases hs'
    exact ((C10_new_unmarshal t _ e).2).mpr hr

example : enumDuration.marshal 2 = .ret (some "GOODTILCANCEL".toList) := by decide
example : enumDuration.marshal 9 = .ret none := by decide

/-! ### C12 -/

/-- C12: comparing two OFX versions is comparing the numbers they print as. -/
theorem C12_version_order (a b : Nat) (ha : enumOfxVersion.valid a = true)
    (hb : enumOfxVersion.valid b = true) :
    ∃ sa sb, enumOfxVersion.string a = .ret sa ∧ enumOfxVersion.string b = .ret sb ∧
      IsNumeral sa ∧ IsNumeral sb ∧ (a < b ↔ value sa < value sb) ∧ (a = b ↔ value sa = value sb) := by
  have hm : enumOfxVersion ∈ allEnums := by decide
  have g := good_of_mem hm
  obtain ⟨sa, ha1, ha2⟩ := g.string_valid ha
  obtain ⟨sb, hb1, hb2⟩ := g.string_valid hb
  have hva := (g.valid_iff a).mp ha
  have hvb := (g.valid_iff b).mp hb
  have hl : enumOfxVersion.names.length = 11 := by decide
  have key : ∀ i ∈ List.range 11, ∀ j ∈ List.range 11,
      ∀ x ∈ enumOfxVersion.names[i]?, ∀ y ∈ enumOfxVersion.names[j]?,
        IsNumeral x ∧ IsNumeral y ∧ (i < j ↔ value x < value y) ∧ (i = j ↔ value x = value y) := by
    decide +kernel
  obtain ⟨h1, h2, h3, h4⟩ := key (a - 1) (by simp; omega) (b - 1) (by simp; omega) sa ha1 sb hb1
  refine ⟨sa, sb, ha2, hb2, h1, h2, ?_, ?_⟩
  · rw [← h3]; omega
  · rw [← h4]; omega

example : enumOfxVersion.valid 4 = true ∧ enumOfxVersion.valid 5 = true ∧
    enumOfxVersion.string 4 = .ret "160".toList ∧ enumOfxVersion.string 5 = .ret "200".toList := by
  decide

end Ofx.Props
