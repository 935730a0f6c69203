import Verif.Model.Types
import Verif.Lemmas.Numeral
/- Lemmas about the leaf types Int, UID. -/
namespace Ofx
open Spec

theorem splitSign_digits {s : Str} (h : ∀ c ∈ s, isDigit c = true) : splitSign s = (false, s) := by
  unfold splitSign
  split
  · next t => exact absurd (h '+' (by simp)) (by decide)
  · next t => exact absurd (h '-' (by simp)) (by decide)
  · rfl

theorem splitSign_cases (s : Str) :
    (∃ t, s = '+' :: t ∧ splitSign s = (false, t)) ∨ (∃ t, s = '-' :: t ∧ splitSign s = (true, t)) ∨
    splitSign s = (false, s) := by
  unfold splitSign
  split
  · exact Or.inl ⟨_, rfl, rfl⟩
  · exact Or.inr (Or.inl ⟨_, rfl, rfl⟩)
  · exact Or.inr (Or.inr rfl)

theorem parseInt64_iff (s : Str) (i : Int) :
    parseInt64 s = some i ↔ SignedNumeral s i ∧ InInt64 i := by
  constructor
  · intro h
    unfold parseInt64 at h
    rcases splitSign_cases s with ⟨t, rfl, hs⟩ | ⟨t, rfl, hs⟩ | hs <;> rw [hs] at h <;>
      simp only [Bool.or_eq_true, Bool.not_eq_true', reduceIte, Bool.false_eq_true] at h <;> split at h <;>
      try (cases h; done)
    all_goals
      next hc =>
      simp only [List.isEmpty_iff, not_or, Bool.not_eq_false] at hc
      have hn : IsNumeral _ := (isNumeral_iff _).mpr ⟨hc.1, List.all_eq_true.mp hc.2⟩
      have hv := value_eq (List.all_eq_true.mp hc.2)
      split at h
      · cases h
        refine ⟨⟨_, hn, ?_⟩, ?_⟩
        · rw [hv]; simp
        · unfold InInt64; omega
      · cases h
  · rintro ⟨⟨ds, hn, hc⟩, hr⟩
    have hd := (isNumeral_iff ds).mp hn
    have hv := value_eq hd.2
    rw [hv] at hc
    unfold InInt64 at hr
    have hall : ds.all isDigit = true := List.all_eq_true.mpr hd.2
    have hne : ds.isEmpty = false := by cases ds <;> simp_all
    rcases hc with ⟨rfl, hi⟩ | ⟨rfl, hi⟩ | ⟨rfl, hi⟩
    · unfold parseInt64
      rw [splitSign_digits hd.2]
      simp only [hall, hne, Bool.not_true, Bool.or_self, Bool.false_eq_true, if_false]
      rw [if_pos (by omega), hi]
    · simp only [parseInt64, splitSign, hall, hne, Bool.not_true, Bool.or_self, Bool.false_eq_true, if_false]
      rw [if_pos (by omega), hi]
    · simp only [parseInt64, splitSign, hall, hne, Bool.not_true, Bool.or_self, Bool.false_eq_true, if_false, if_true]
      rw [if_pos (by omega), hi]

theorem intStr_signed (i : Int) : SignedNumeral (intStr i) i := by
  refine ⟨natStr i.natAbs, (isNumeral_iff _).mpr ⟨natStr_ne_nil _, natStr_digits _⟩, ?_⟩
  rw [value_eq (natStr_digits _), digitsVal_natStr]
  unfold intStr
  split
  · right; right; exact ⟨rfl, by omega⟩
  · left; exact ⟨rfl, by omega⟩

theorem trimmed_of_all {s : Str} (h : ∀ c ∈ s, isSpace c = false) : Trimmed s :=
  ⟨fun c hc => h c (List.mem_of_head? hc), fun c hc => h c (List.mem_of_getLast? hc)⟩

theorem intStr_nospace (i : Int) : ∀ c ∈ intStr i, isSpace c = false := by
  intro c hc
  unfold intStr at hc
  split at hc
  · rcases List.mem_cons.mp hc with rfl | h
    · decide
    · exact isDigit_not_space (natStr_digits _ c h)
  · exact isDigit_not_space (natStr_digits _ c hc)

/-! ### hex -/

theorem hexC_toNat {d : Nat} (h : d < 16) : (hexC d).toNat = if d < 10 then 48 + d else 87 + d := by
  unfold hexC
  split
  · exact Char.toNat_ofNat_of_lt (by omega)
  · exact Char.toNat_ofNat_of_lt (by omega)

theorem hexC_inj {a b : Nat} (ha : a < 16) (hb : b < 16) (h : hexC a = hexC b) : a = b := by
  have := congrArg Char.toNat h
  rw [hexC_toNat ha, hexC_toNat hb] at this
  split at this <;> split at this <;> omega

theorem hexBytes_length (bs : List UInt8) : (hexBytes bs).length = 2 * bs.length := by
  induction bs with
  | nil => rfl
  | cons b bs ih => simp [hexBytes] at *; omega

theorem hexBytes_cons (b : UInt8) (bs : List UInt8) :
    hexBytes (b :: bs) = hexC (b.toNat / 16) :: hexC (b.toNat % 16) :: hexBytes bs := rfl

theorem hexBytes_inj {a b : List UInt8} (h : hexBytes a = hexBytes b) : a = b := by
  induction a generalizing b with
  | nil => cases b with
    | nil => rfl
    | cons _ _ => simp [hexBytes] at h
  | cons x xs ih => cases b with
    | nil => simp [hexBytes] at h
    | cons y ys =>
      rw [hexBytes_cons, hexBytes_cons] at h
      simp only [List.cons.injEq] at h
      have hx := x.toNat_lt
      have hy := y.toNat_lt
      have h1 := hexC_inj (by omega) (by omega) h.1
      have h2 := hexC_inj (by omega) (by omega) h.2.1
      have : x = y := UInt8.toNat_inj.mp (by omega)
      rw [this, ih h.2.2]

theorem hexC_isHex {d : Nat} (h : d < 16) : IsHexLower (hexC d) := by
  have : d = 0 ∨ d = 1 ∨ d = 2 ∨ d = 3 ∨ d = 4 ∨ d = 5 ∨ d = 6 ∨ d = 7 ∨ d = 8 ∨ d = 9 ∨ d = 10
    ∨ d = 11 ∨ d = 12 ∨ d = 13 ∨ d = 14 ∨ d = 15 := by omega
  rcases this with h | h | h | h | h | h | h | h | h | h | h | h | h | h | h | h <;> subst h <;> decide

theorem hexBytes_isHex (bs : List UInt8) : ∀ c ∈ hexBytes bs, IsHexLower c := by
  intro c hc
  simp only [hexBytes, List.mem_flatMap] at hc
  obtain ⟨b, _, hc⟩ := hc
  have hb := b.toNat_lt
  simp only [List.mem_cons, List.not_mem_nil, or_false] at hc
  rcases hc with rfl | rfl
  · exact hexC_isHex (by omega)
  · exact hexC_isHex (by omega)

theorem padZero_of_le {w : Nat} {s : Str} (h : w ≤ s.length) : padZero w s = s := by
  simp [padZero, Nat.sub_eq_zero_of_le h]

/-! ### bytes of ASCII text -/

/-- ASCII text. -/
def Ascii (s : Str) : Prop := ∀ c ∈ s, c.toNat < 128

theorem utf8_ascii {c : Char} (h : c.toNat < 128) : String.utf8EncodeChar c = [c.toNat.toUInt8] := by
  unfold String.utf8EncodeChar
  simp; omega

theorem toBytes_ascii {s : Str} (h : Ascii s) : toBytes s = s.map (fun c => c.toNat.toUInt8) := by
  induction s with
  | nil => rfl
  | cons c cs ih =>
    have h1 := utf8_ascii (h c (by simp))
    have h2 := ih (fun x hx => h x (by simp [hx]))
    simp only [toBytes, List.flatMap_cons, List.map_cons] at *
    rw [h1, h2]; rfl

theorem blen_ascii {s : Str} (h : Ascii s) : blen s = s.length := by
  rw [blen, toBytes_ascii h, List.length_map]

theorem isHexLower_ascii {c : Char} (h : IsHexLower c) : c.toNat < 128 := by
  simp only [IsHexLower, List.mem_cons, List.not_mem_nil, or_false] at h
  rcases h with h | h | h | h | h | h | h | h | h | h | h | h | h | h | h | h <;> subst h <;> decide

theorem toBytes_eq (s : Str) : toBytes s = (String.ofList s).toByteArray.data.toList := by
  simp [toBytes, List.utf8Encode]

theorem blen_eq_utf8ByteSize (s : Str) : blen s = (String.ofList s).utf8ByteSize := by
  rw [blen, toBytes_eq]; rfl

/-! ### RandomUID -/

/-- The text RandomUID builds from 16 bytes. -/
def uidText (bs : List UInt8) : Str :=
  hexBytes (bs.take 4) ++ ['-'] ++ hexBytes ((bs.drop 4).take 2) ++ ['-'] ++
  hexBytes ((bs.drop 6).take 2) ++ ['-'] ++ hexBytes ((bs.drop 8).take 2) ++ ['-'] ++
  hexBytes (bs.drop 10)

theorem randomUID_ok {e : Entropy} {u : Str} (h : randomUID e = .ok u) :
    ∃ bs, e = .read bs ∧ bs.length = 16 ∧ u = uidText bs := by
  cases e with
  | failed => cases h
  | read bs =>
    refine ⟨bs, rfl, ?_⟩
    unfold randomUID at h
    by_cases hl : bs.length = 16
    · simp only [hl, ne_eq, not_true_eq_false, if_false] at h
      cases h
      refine ⟨hl, ?_⟩
      unfold uidText
      rw [padZero_of_le, padZero_of_le, padZero_of_le, padZero_of_le, padZero_of_le] <;>
        rw [hexBytes_length] <;> simp <;> omega
    · simp [hl] at h

theorem uidText_inj {a b : List UInt8} (la : a.length = 16) (lb : b.length = 16)
    (h : uidText a = uidText b) : a = b := by
  unfold uidText at h
  have l1 : (hexBytes (a.take 4)).length = (hexBytes (b.take 4)).length := by
    simp only [hexBytes_length, List.length_take]; omega
  have l2 : (hexBytes ((a.drop 4).take 2)).length = (hexBytes ((b.drop 4).take 2)).length := by
    simp only [hexBytes_length, List.length_take, List.length_drop]; omega
  have l3 : (hexBytes ((a.drop 6).take 2)).length = (hexBytes ((b.drop 6).take 2)).length := by
    simp only [hexBytes_length, List.length_take, List.length_drop]; omega
  have l4 : (hexBytes ((a.drop 8).take 2)).length = (hexBytes ((b.drop 8).take 2)).length := by
    simp only [hexBytes_length, List.length_take, List.length_drop]; omega
  simp only [List.append_assoc] at h
  obtain ⟨e1, h⟩ := List.append_inj h l1
  simp only [List.singleton_append, List.cons.injEq, true_and] at h
  obtain ⟨e2, h⟩ := List.append_inj h l2
  simp only [List.cons.injEq, true_and] at h
  obtain ⟨e3, h⟩ := List.append_inj h l3
  simp only [List.cons.injEq, true_and] at h
  obtain ⟨e4, h⟩ := List.append_inj h l4
  simp only [List.cons.injEq, true_and] at h
  have split : ∀ l : List UInt8, l = l.take 4 ++ ((l.drop 4).take 2 ++ ((l.drop 6).take 2 ++
      ((l.drop 8).take 2 ++ l.drop 10))) := by
    intro l
    conv_lhs => rw [← List.take_append_drop 4 l, ← List.take_append_drop 2 (l.drop 4),
      List.drop_drop, ← List.take_append_drop 2 (l.drop (4 + 2)), List.drop_drop,
      ← List.take_append_drop 2 (l.drop (4 + 2 + 2)), List.drop_drop]
  rw [split a, split b, hexBytes_inj e1, hexBytes_inj e2, hexBytes_inj e3, hexBytes_inj e4,
    hexBytes_inj h]

/-! ### currency -/

theorem fixCaseC_iff (c u : Char) : fixCaseC c = some u ↔ c.isAlpha = true ∧ u = c.toUpper := by
  have h1 : c.isUpper = true ↔ 65 ≤ c.toNat ∧ c.toNat ≤ 90 := by
    simp [Char.isUpper, UInt32.le_iff_toNat_le]
  have h2 : c.isLower = true ↔ 97 ≤ c.toNat ∧ c.toNat ≤ 122 := by
    simp [Char.isLower, UInt32.le_iff_toNat_le]
  have hup : c.toUpper = if 97 ≤ c.toNat ∧ c.toNat ≤ 122 then Char.ofNat (c.toNat - 32) else c := by
    apply Char.toNat_inj.mp
    have hc : ('a'.val ≤ c.val ∧ c.val ≤ 'z'.val) ↔ 97 ≤ c.toNat ∧ c.toNat ≤ 122 := by
      simp [UInt32.le_iff_toNat_le]
    unfold Char.toUpper
    by_cases h : 97 ≤ c.toNat ∧ c.toNat ≤ 122
    · rw [dif_pos (hc.mpr h), if_pos h, Char.toNat_ofNat_of_lt (by omega)]
      have hx : ('A'.val - 'a'.val : UInt32) = 4294967264 := by decide
      have hv : c.val.toNat = c.toNat := rfl
      show (c.val + ('A'.val - 'a'.val)).toNat = c.toNat - 32
      rw [hx, UInt32.toNat_add, hv]
      have : (4294967264 : UInt32).toNat = 4294967264 := by decide
      omega
    · rw [dif_neg (fun h' => h (hc.mp h')), if_neg h]
  unfold fixCaseC Char.isAlpha
  rw [Bool.or_eq_true, h1, h2, hup]
  split
  · next h =>
    rw [if_neg (by omega)]
    simp [h, eq_comm]
  · split
    · next h => simp [h, eq_comm]
    · simp; omega

theorem toUpper_upper {c : Char} (h : 65 ≤ c.toNat ∧ c.toNat ≤ 90) : c.toUpper = c := by
  have := (fixCaseC_iff c c).mp (by simp [fixCaseC, h])
  exact this.2.symm

theorem toUpper_alpha {c : Char} (h : c.isAlpha = true) :
    65 ≤ c.toUpper.toNat ∧ c.toUpper.toNat ≤ 90 := by
  have := (fixCaseC_iff c c.toUpper).mpr ⟨h, rfl⟩
  unfold fixCaseC at this
  split at this
  · next h => simp at this; rw [← this]; exact h
  · split at this
    · simp at this; rw [← this, Char.toNat_ofNat_of_lt (by omega)]; omega
    · simp at this

theorem parseISO_iff [CurrencyTable] (s : Str) (c : CurrSymbol) :
    parseISO s = some c ↔ (s.length = 3 ∧ (∀ x ∈ s, x.isAlpha = true) ∧ c.code = s.map Char.toUpper)
      ∧ CurrencyTable.known c.code = true := by
  unfold parseISO
  split
  · next x y z =>
    constructor
    · intro h
      split at h
      · next a b d ha hb hd =>
        split at h
        · next hk =>
          cases h
          rw [fixCaseC_iff] at ha hb hd
          refine ⟨⟨rfl, ?_, by simp [ha.2, hb.2, hd.2]⟩, hk⟩
          intro w hw
          simp only [List.mem_cons, List.not_mem_nil, or_false] at hw
          rcases hw with rfl | rfl | rfl
          exacts [ha.1, hb.1, hd.1]
        · cases h
      · cases h
    · rintro ⟨⟨_, ha, hc⟩, hk⟩
      have h1 := (fixCaseC_iff x x.toUpper).mpr ⟨ha x (by simp), rfl⟩
      have h2 := (fixCaseC_iff y y.toUpper).mpr ⟨ha y (by simp), rfl⟩
      have h3 := (fixCaseC_iff z z.toUpper).mpr ⟨ha z (by simp), rfl⟩
      rw [h1, h2, h3]
      simp only [List.map_cons, List.map_nil] at hc
      simp only
      rw [← hc, if_pos hk]
  · next hne =>
    constructor
    · intro h; cases h
    · rintro ⟨⟨hl, _⟩, _⟩
      match s, hl with
      | [a, b, c], _ => exact absurd rfl (hne a b c)

end Ofx
