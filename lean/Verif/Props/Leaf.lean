import Verif.Lemmas.Leaf
/-
Properties C01, C06, C07, C08, C09, C17 (integers, booleans, strings, UIDs,
currency symbols).
-/
namespace Ofx.Props
open Ofx Ofx.Spec

/-! ### C01 integers -/

/-- C01: an integer element decodes to `i` exactly when its text, without the
surrounding white space, is a signed decimal numeral denoting `i` and `i` fits in 64
bits. -/
theorem C01_int_decode_iff (text : Str) (i : Int) :
    Int.unmarshal text = .ok i ↔
      ∃ core, TrimsTo text core ∧ SignedNumeral core i ∧ InInt64 i := by
  unfold Int.unmarshal
  constructor
  · intro h
    split at h
    · next j hj => cases h; exact ⟨_, (trimsTo_iff _ _).mpr rfl, (parseInt64_iff _ _).mp hj⟩
    · cases h
  · rintro ⟨core, ht, hi⟩
    rw [(trimsTo_iff _ _).mp ht, (parseInt64_iff core i).mpr hi]

example : ∃ core, TrimsTo " \n-0042\t".toList core ∧ SignedNumeral core (-42) ∧ InInt64 (-42) :=
  (C01_int_decode_iff _ _).mp (by decide)

example : Int.unmarshal "9223372036854775808".toList ≠ .ok 9223372036854775808 := by decide

/-- C01: decoding fails with an error exactly when no such numeral exists. -/
theorem C01_int_decode_error_iff (text : Str) :
    (∃ e, Int.unmarshal text = .error e) ↔
      ¬ ∃ core i, TrimsTo text core ∧ SignedNumeral core i ∧ InInt64 i := by
  constructor
  · rintro ⟨e, he⟩ ⟨core, i, h⟩
    rw [(C01_int_decode_iff text i).mpr ⟨core, h⟩] at he; cases he
  · intro h
    cases hu : Int.unmarshal text with
    | error e => exact ⟨e, rfl⟩
    | ok i => obtain ⟨core, hc⟩ := (C01_int_decode_iff text i).mp hu; exact absurd ⟨core, i, hc⟩ h

example : ∃ e, Int.unmarshal "12a".toList = .error e := ⟨_, rfl⟩

/-- C01: every 64-bit integer survives encoding and decoding, with any padding added
around the encoded text. -/
theorem C01_int_roundtrip (i : Int) (h : InInt64 i) (w w' : Str) (hw : IsPadding w)
    (hw' : IsPadding w') : Int.unmarshal (w ++ Int.marshal i ++ w') = .ok i := by
  rw [C01_int_decode_iff]
  exact ⟨intStr i, ⟨w, w', hw, hw', rfl, (isTrim_iff _).mpr (trimmed_of_all (intStr_nospace i))⟩,
    intStr_signed i, h⟩

example : InInt64 (-9223372036854775808) := by unfold InInt64; omega

/-! ### C06 booleans -/

/-- C06: a Boolean element decodes to true exactly for "Y" and to false exactly for
"N", ignoring surrounding white space; everything else is an error. -/
theorem C06_boolean_decode_iff (text : Str) (b : Bool) :
    Boolean.unmarshal text = .ok b ↔
      (b = true ∧ TrimsTo text ['Y']) ∨ (b = false ∧ TrimsTo text ['N']) := by
  simp only [trimsTo_iff, Boolean.unmarshal]
  constructor
  · intro h
    split at h
    · cases h; exact Or.inl ⟨rfl, by assumption⟩
    · split at h
      · cases h; exact Or.inr ⟨rfl, by assumption⟩
      · cases h
  · rintro (⟨rfl, h⟩ | ⟨rfl, h⟩)
    · simp [h]
    · simp [h]

example : TrimsTo "\r\n N ".toList ['N'] := (trimsTo_iff _ _).mpr (by decide)

/-- C06: round trip. -/
theorem C06_boolean_roundtrip (b : Bool) (w w' : Str) (hw : IsPadding w) (hw' : IsPadding w') :
    Boolean.unmarshal (w ++ Boolean.marshal b ++ w') = .ok b := by
  rw [C06_boolean_decode_iff]
  cases b
  · refine Or.inr ⟨rfl, w, w', hw, hw', rfl, ?_⟩
    constructor <;> intro c hc <;> simp at hc <;> subst hc <;> decide
  · refine Or.inl ⟨rfl, w, w', hw, hw', rfl, ?_⟩
    constructor <;> intro c hc <;> simp at hc <;> subst hc <;> decide

example : IsPadding "\t \n".toList := by decide

/-! ### C07 strings and UIDs -/

/-- C07: decoding a String never fails and yields exactly the text without
surrounding white space. -/
theorem C07_string_decode (text : Str) :
    ∃ core, OString.unmarshal text = .ok core ∧ TrimsTo text core ∧
      OString.unmarshal core = .ok core := by
  refine ⟨trimSpace text, rfl, (trimsTo_iff _ _).mpr rfl, ?_⟩
  rw [OString.unmarshal, trimSpace_idem]

/-- C07: the same for UIDs. -/
theorem C07_uid_decode (text : Str) :
    ∃ core, UID.unmarshal text = .ok core ∧ TrimsTo text core ∧ UID.unmarshal core = .ok core := by
  refine ⟨trimSpace text, rfl, (trimsTo_iff _ _).mpr rfl, ?_⟩
  rw [UID.unmarshal, trimSpace_idem]

/-- C07: a String (UID) survives encoding and decoding unchanged exactly when it has no
surrounding white space. -/
theorem C07_string_roundtrip_iff (s : Str) :
    OString.unmarshal (OString.marshal s) = .ok s ↔ IsTrim s := by
  rw [isTrim_iff]
  constructor
  · intro h
    have : trimSpace s = s := by simpa [OString.unmarshal, OString.marshal] using h
    rw [← this]; exact trimSpace_trimmed s
  · intro h; simp [OString.unmarshal, OString.marshal, trimSpace_of_trimmed h]

theorem C07_uid_roundtrip_iff (s : Str) :
    UID.unmarshal (UID.marshal s) = .ok s ↔ IsTrim s := C07_string_roundtrip_iff s

example : IsTrim "a b".toList := by
  constructor <;> intro c hc <;> simp at hc <;> subst hc <;> decide
example : ¬ IsTrim "a ".toList := by
  intro h; exact h.2 ' ' (by decide) (by decide)

/-! ### C08 UID validity -/

/-- C08: UID.Valid accepts exactly the UIDs whose UTF-8 text has 1 to 36 bytes. -/
theorem C08_uid_valid_iff (u : Str) :
    UID.valid u = none ↔ 1 ≤ (String.ofList u).utf8ByteSize ∧ (String.ofList u).utf8ByteSize ≤ 36 := by
  rw [← blen_eq_utf8ByteSize]
  unfold UID.valid
  split
  · simp; omega
  · simp; omega

/-- C08: RecommendedFormat accepts exactly the 36 byte UIDs with hyphens at byte
offsets 8, 13, 18 and 23. -/
theorem C08_uid_recommended_iff (u : Str) :
    UID.recommendedFormat u = .ret none ↔
      (String.ofList u).utf8ByteSize = 36 ∧
      ∀ i ∈ [8, 13, 18, 23], (String.ofList u).toByteArray.data.toList[i]? = some '-'.toUInt8 := by
  rw [← blen_eq_utf8ByteSize, ← toBytes_eq]
  have hd : '-'.toUInt8 = 0x2d := by decide
  simp only [hd, List.mem_cons, List.not_mem_nil, or_false, forall_eq_or_imp, forall_eq]
  unfold UID.recommendedFormat byteAt
  by_cases hl : blen u = 36
  · have hl' : (toBytes u).length = 36 := hl
    simp only [hl, ne_eq, not_true_eq_false, if_false, true_and]
    rw [List.getElem?_eq_getElem (by omega), List.getElem?_eq_getElem (i := 13) (by omega),
      List.getElem?_eq_getElem (i := 18) (by omega), List.getElem?_eq_getElem (i := 23) (by omega)]
    simp only [Outcome.bind, Option.some.injEq]
    constructor
    · intro h
      split at h
      · simp at h
      · split at h
        · simp at h
        · split at h
          · simp at h
          · split at h
            · simp at h
            · simp_all
    · rintro ⟨h1, h2, h3, h4⟩
      simp [h1, h2, h3, h4]
  · simp [hl]

/-- C08: RecommendedFormat never panics: no index is out of range, whatever the text. -/
theorem C08_uid_recommended_no_panic (u : Str) : UID.recommendedFormat u ≠ .panic := by
  unfold UID.recommendedFormat byteAt
  by_cases hl : blen u = 36
  · have hl' : (toBytes u).length = 36 := hl
    simp only [hl, ne_eq, not_true_eq_false, if_false]
    rw [List.getElem?_eq_getElem (by omega), List.getElem?_eq_getElem (i := 13) (by omega),
      List.getElem?_eq_getElem (i := 18) (by omega), List.getElem?_eq_getElem (i := 23) (by omega)]
    simp only [Outcome.bind]
    repeat' split
    all_goals simp
  · simp [hl]

/-- C08: a UID in the recommended format is valid (the promise of the doc comment). -/
theorem C08_recommended_implies_valid (u : Str) (h : UID.recommendedFormat u = .ret none) :
    UID.valid u = none := by
  rw [C08_uid_valid_iff]
  have := (C08_uid_recommended_iff u).mp h
  omega

example : UID.recommendedFormat "6ba7b810-9dad-11d1-80b4-00c04fd430c8".toList = .ret none := by decide
-- multi-byte text: 35 characters, 36 bytes
example : UID.recommendedFormat "éa7b81-9dad0-11d1-80b4-00c04fd430c8".toList ≠ .panic :=
  C08_uid_recommended_no_panic _
example : UID.valid "".toList ≠ none := by decide

/-! ### C09 generated UIDs -/

/-- C09: RandomUID reports an error exactly when the entropy source failed or delivered
a number of bytes other than 16. -/
theorem C09_error_iff (e : Entropy) :
    (∃ msg, randomUID e = .error msg) ↔ e = .failed ∨ ∃ bs, e = .read bs ∧ bs.length ≠ 16 := by
  cases e with
  | failed => simp [randomUID]
  | read bs =>
    unfold randomUID
    by_cases h : bs.length = 16 <;> simp [h]

/-- C09: the UID generated from 16 bytes is 36 characters long: lower-case hex digits
except for hyphens at positions 8, 13, 18 and 23. -/
theorem C09_shape (e : Entropy) (u : Str) (h : randomUID e = .ok u) :
    u.length = 36 ∧ ∀ i c, u[i]? = some c →
      if i ∈ [8, 13, 18, 23] then c = '-' else IsHexLower c := by
  obtain ⟨bs, _, hl, rfl⟩ := randomUID_ok h
  unfold uidText
  have la : (hexBytes (bs.take 4)).length = 8 := by rw [hexBytes_length]; simp; omega
  have lb : (hexBytes ((bs.drop 4).take 2)).length = 4 := by rw [hexBytes_length]; simp; omega
  have lc : (hexBytes ((bs.drop 6).take 2)).length = 4 := by rw [hexBytes_length]; simp; omega
  have ld : (hexBytes ((bs.drop 8).take 2)).length = 4 := by rw [hexBytes_length]; simp; omega
  have le : (hexBytes (bs.drop 10)).length = 12 := by rw [hexBytes_length]; simp; omega
  refine ⟨by simp; omega, ?_⟩
  intro i ch hi
  have key : ∀ (l : List UInt8) (j : Nat), (hexBytes l)[j]? = some ch → IsHexLower ch :=
    fun l j hj => hexBytes_isHex l ch (List.mem_of_getElem? hj)
  rw [List.append_assoc, List.append_assoc, List.append_assoc, List.append_assoc, List.append_assoc,
    List.append_assoc, List.append_assoc, List.getElem?_append] at hi
  split at hi
  · rw [if_neg (by simp; omega)]; exact key _ _ hi
  rw [List.singleton_append, List.getElem?_cons] at hi
  split at hi
  · rw [if_pos (by simp; omega)]; cases hi; rfl
  rw [List.getElem?_append] at hi
  split at hi
  · rw [if_neg (by simp; omega)]; exact key _ _ hi
  rw [List.singleton_append, List.getElem?_cons] at hi
  split at hi
  · rw [if_pos (by simp; omega)]; cases hi; rfl
  rw [List.getElem?_append] at hi
  split at hi
  · rw [if_neg (by simp; omega)]; exact key _ _ hi
  rw [List.singleton_append, List.getElem?_cons] at hi
  split at hi
  · rw [if_pos (by simp; omega)]; cases hi; rfl
  rw [List.getElem?_append] at hi
  split at hi
  · rw [if_neg (by simp; omega)]; exact key _ _ hi
  rw [List.singleton_append, List.getElem?_cons] at hi
  split at hi
  · rw [if_pos (by simp; omega)]; cases hi; rfl
  rw [if_neg]
  · exact key _ _ hi
  · have : i < 36 := by
      have h1 := (List.getElem?_eq_some_iff.mp hi).1
      omega
    simp; omega

/-- C09: a generated UID is valid and in the recommended format. -/
theorem C09_valid (e : Entropy) (u : Str) (h : randomUID e = .ok u) :
    UID.recommendedFormat u = .ret none ∧ UID.valid u = none := by
  obtain ⟨hl, hs⟩ := C09_shape e u h
  have hasc : Ascii u := by
    intro c hc
    obtain ⟨i, hi⟩ := List.getElem?_of_mem hc
    have := hs i c hi
    split at this
    · subst this; decide
    · exact isHexLower_ascii this
  have hr : UID.recommendedFormat u = .ret none := by
    rw [C08_uid_recommended_iff, ← blen_eq_utf8ByteSize, ← toBytes_eq, blen_ascii hasc,
      toBytes_ascii hasc]
    refine ⟨hl, ?_⟩
    intro i hi
    rw [List.getElem?_map]
    have hlt : i < u.length := by
      simp only [List.mem_cons, List.not_mem_nil, or_false] at hi; omega
    have := hs i u[i] (List.getElem?_eq_getElem hlt)
    rw [if_pos hi] at this
    rw [List.getElem?_eq_getElem hlt, this]; decide
  exact ⟨hr, C08_recommended_implies_valid u hr⟩

/-- C09: distinct draws give distinct UIDs. -/
theorem C09_injective (a b : List UInt8) (u : Str)
    (ha : randomUID (.read a) = .ok u) (hb : randomUID (.read b) = .ok u) : a = b := by
  obtain ⟨a', ea, la, hu⟩ := randomUID_ok ha
  obtain ⟨b', eb, lb, hu'⟩ := randomUID_ok hb
  cases ea; cases eb
  exact uidText_inj la lb (hu.symm.trans hu')

example : randomUID (.read [0, 1, 2, 3, 4, 5, 6, 7, 8, 9, 10, 11, 12, 13, 14, 255]) =
    .ok "00010203-0405-0607-0809-0a0b0c0d0eff".toList := by decide
example : ∃ msg, randomUID (.read [1, 2]) = .error msg := ⟨_, rfl⟩

/-! ### C17 currency symbols -/

/-- Three ASCII letters and the upper-case code they stand for. -/
def IsCodeText (s code : Str) : Prop :=
  s.length = 3 ∧ (∀ c ∈ s, c.isAlpha = true) ∧ code = s.map Char.toUpper

/-- C17: decoding accepts exactly the texts which, without surrounding white space, are
three letters whose upper-case form is a known code; that code is the result. -/
theorem C17_decode_iff [CurrencyTable] (text : Str) (c : CurrSymbol) :
    CurrSymbol.unmarshal text = .ok c ↔
      ∃ core, TrimsTo text core ∧ IsCodeText core c.code ∧ CurrencyTable.known c.code = true := by
  simp only [trimsTo_iff, CurrSymbol.unmarshal]
  constructor
  · intro h
    split at h
    · next u hu =>
      cases h
      exact ⟨_, rfl, (parseISO_iff _ _).mp hu⟩
    · cases h
  · rintro ⟨core, rfl, h⟩
    rw [(parseISO_iff _ _).mpr h]

/-- C17: NewCurrSymbol is the same without the trimming. -/
theorem C17_new_iff [CurrencyTable] (text : Str) (c : CurrSymbol) :
    newCurrSymbol text = .ok c ↔ IsCodeText text c.code ∧ CurrencyTable.known c.code = true := by
  unfold newCurrSymbol
  constructor
  · intro h
    split at h
    · next u hu => cases h; exact (parseISO_iff _ _).mp hu
    · cases h
  · intro h
    rw [(parseISO_iff _ _).mpr h]

/-- C17: every symbol that any text decodes to, and the zero value, survives encoding
and decoding (with padding). -/
theorem C17_roundtrip [CurrencyTable] (c : CurrSymbol)
    (h : c = CurrSymbol.zero ∨ ∃ text, CurrSymbol.unmarshal text = .ok c)
    (w w' : Str) (hw : IsPadding w) (hw' : IsPadding w') :
    CurrSymbol.unmarshal (w ++ CurrSymbol.marshal c ++ w') = .ok c := by
  have hc : ∃ s, IsCodeText s c.code ∧ CurrencyTable.known c.code = true := by
    rcases h with rfl | ⟨t, ht⟩
    · exact ⟨['X', 'X', 'X'], by unfold IsCodeText; decide, CurrencyTable.known_xxx⟩
    · obtain ⟨core, _, h⟩ := (C17_decode_iff t c).mp ht
      exact ⟨core, h⟩
  obtain ⟨s, ⟨hl, ha, hcode⟩, hk⟩ := hc
  rw [C17_decode_iff]
  have hup : ∀ x ∈ c.code, 65 ≤ x.toNat ∧ x.toNat ≤ 90 := by
    rw [hcode]; intro x hx
    obtain ⟨y, hy, rfl⟩ := List.mem_map.mp hx
    exact toUpper_alpha (ha y hy)
  refine ⟨c.code, ⟨w, w', hw, hw', rfl, ?_⟩, ⟨by simp [hcode, hl], ?_, ?_⟩, hk⟩
  · rw [isTrim_iff]
    apply trimmed_of_all
    intro x hx
    have := hup x hx
    simp [isSpace]; omega
  · intro x hx
    have := hup x hx
    simp [Char.isAlpha, Char.isUpper, Char.isLower, UInt32.le_iff_toNat_le]
    left; exact this
  · apply List.ext_getElem?
    intro i
    rw [List.getElem?_map]
    cases hx : c.code[i]? with
    | none => rfl
    | some x =>
      have := hup x (List.mem_of_getElem? hx)
      simp [toUpper_upper this]

/-- C17: validity fails exactly for "XXX" (in particular for the zero value). -/
theorem C17_valid_iff (c : CurrSymbol) : CurrSymbol.valid c = none ↔ c ≠ CurrSymbol.zero := by
  unfold CurrSymbol.valid CurrSymbol.zero
  cases c with
  | mk code => by_cases h : code = ['X', 'X', 'X'] <;> simp [h]

/-- A small table, for the non-vacuity examples only. -/
@[reducible] def exampleTable : CurrencyTable where
  known s := s ∈ ["XXX".toList, "USD".toList, "EUR".toList]
  known_xxx := by decide

example : @CurrSymbol.unmarshal exampleTable " usd\n".toList = .ok ⟨"USD".toList⟩ := by decide
example : CurrSymbol.valid ⟨"USD".toList⟩ = none := by decide

end Ofx.Props
