import Verif.Model.Decode
import Verif.Lemmas.Leaf
/-
Decoding of UTF-8.
-/
namespace Ofx

theorem utf8Next_encode (c : Char) (bs : List UInt8) : utf8Next (String.utf8EncodeChar c ++ bs) = some (c, bs) := by
  unfold utf8Next
  have h : (String.utf8EncodeChar c ++ bs).toByteArray.utf8DecodeChar? 0 = some c := by
    rw [List.toByteArray_append]
    exact ByteArray.utf8DecodeChar?_utf8EncodeChar_append
  rw [h]
  simp only
  rw [← String.length_utf8EncodeChar, List.drop_left]

theorem utf8Next_some {bs rest : List UInt8} {c : Char} (h : utf8Next bs = some (c, rest)) :
    bs = String.utf8EncodeChar c ++ rest := by
  unfold utf8Next at h
  cases hd : bs.toByteArray.utf8DecodeChar? 0 with
  | none => rw [hd] at h; cases h
  | some d =>
    rw [hd] at h
    cases h
    obtain ⟨l, hl⟩ := ByteArray.exists_of_utf8DecodeChar?_eq_some hd
    have e : bs = String.utf8EncodeChar c ++ l.data.toList := by
      have := congrArg (fun b : ByteArray => b.data.toList) hl
      simpa using this
    conv_rhs => rw [e, ← String.length_utf8EncodeChar, List.drop_left]
    exact e

theorem utf8Next_iff {bs rest : List UInt8} {c : Char} :
    utf8Next bs = some (c, rest) ↔ bs = String.utf8EncodeChar c ++ rest :=
  ⟨utf8Next_some, fun h => by rw [h]; exact utf8Next_encode c rest⟩

theorem utf8EncodeChar_pos (c : Char) : 0 < (String.utf8EncodeChar c).length := by
  rw [String.length_utf8EncodeChar]
  exact c.utf8Size_pos

theorem utf8Decode_cons (c : Char) (bs : List UInt8) : utf8Decode (String.utf8EncodeChar c ++ bs) = c :: utf8Decode bs := by
  rw [utf8Decode]
  simp only [utf8Next_encode]
  rw [if_pos (by have := utf8EncodeChar_pos c; rw [List.length_append]; omega)]

theorem utf8Decode_append (s : Str) (bs : List UInt8) : utf8Decode (toBytes s ++ bs) = s ++ utf8Decode bs := by
  induction s with
  | nil => rfl
  | cons c s ih =>
    rw [show toBytes (c :: s) = String.utf8EncodeChar c ++ toBytes s from by simp [toBytes], List.append_assoc,
      utf8Decode_cons, ih]
    rfl

theorem utf8Decode_stuck {bs : List UInt8} (h : utf8Next bs = none) : utf8Decode bs = [] := by
  rw [utf8Decode]
  simp only [h]

theorem utf8Decode_toBytes (s : Str) : utf8Decode (toBytes s) = s := by
  have := utf8Decode_append s []
  rw [List.append_nil, utf8Decode_stuck (bs := []) (by decide), List.append_nil] at this
  exact this

/-- Input is its decoded characters and a rest starting with no character. -/
theorem utf8Decode_split {n : Nat} (bs : List UInt8) (hn : bs.length ≤ n) :
    ∃ junk, bs = toBytes (utf8Decode bs) ++ junk ∧ utf8Next junk = none := by
  induction n generalizing bs with
  | zero =>
    have : bs = [] := List.length_eq_zero_iff.mp (Nat.le_zero.mp hn)
    subst this
    exact ⟨[], by rw [utf8Decode_stuck (by decide)]; rfl, by decide⟩
  | succ n ih =>
    cases h : utf8Next bs with
    | none => exact ⟨bs, by rw [utf8Decode_stuck h]; rfl, h⟩
    | some x =>
      obtain ⟨c, rest⟩ := x
      have e := utf8Next_some h
      have hl := congrArg List.length e
      have := utf8EncodeChar_pos c
      rw [List.length_append] at hl
      obtain ⟨junk, h1, h2⟩ := ih rest (by omega)
      refine ⟨junk, ?_, h2⟩
      conv_lhs => rw [e, h1]
      rw [e, utf8Decode_cons]
      simp [toBytes]

theorem toBytes_append (a b : Str) : toBytes (a ++ b) = toBytes a ++ toBytes b := by
  simp [toBytes]

theorem latin1_append (a b : List UInt8) : latin1 (a ++ b) = latin1 a ++ latin1 b := by
  simp [latin1]

theorem latin1_length (a : List UInt8) : (latin1 a).length = a.length := by simp [latin1]

theorem latin1_take (a : List UInt8) (n : Nat) : latin1 (a.take n) = (latin1 a).take n := by
  simp [latin1, List.map_take]

/-- ASCII text is its own reading. -/
theorem latin1_ascii {s : Str} (h : Ascii s) : latin1 (toBytes s) = s := by
  rw [toBytes_ascii h, latin1, List.map_map]
  conv_rhs => rw [← List.map_id s]
  apply List.map_congr_left
  intro c hc
  have := h c hc
  simp only [Function.comp_apply, id_eq]
  rw [show c.toNat.toUInt8.toNat = c.toNat from by simp; omega]
  exact Char.ofNat_toNat c

end Ofx
