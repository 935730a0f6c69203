import Verif.Model.Header
import Verif.Spec.Header
import Verif.Lemmas.Enum
import Mathlib.Data.List.Basic
/-
The header expression means what Spec/Header.lean says.
-/
namespace Ofx
open Spec

/-! ### The matcher -/

theorem tryDown_some {β : Type} {f : Nat → Option β} {n : Nat} {x : β} (h : tryDown f n = some x) :
    ∃ k ≤ n, f k = some x := by
  induction n with
  | zero => exact ⟨0, Nat.le_refl _, h⟩
  | succ n ih =>
    unfold tryDown at h
    cases hf : f (n + 1) with
    | some y => rw [hf] at h; cases h; exact ⟨n + 1, Nat.le_refl _, hf⟩
    | none =>
      rw [hf] at h
      obtain ⟨k, hk, hx⟩ := ih h
      exact ⟨k, by omega, hx⟩

theorem tryDown_isSome {β : Type} {f : Nat → Option β} {n k : Nat} (hk : k ≤ n) (h : (f k).isSome = true) :
    (tryDown f n).isSome = true := by
  induction n with
  | zero =>
    have : k = 0 := by omega
    subst this
    exact h
  | succ n ih =>
    unfold tryDown
    cases hf : f (n + 1) with
    | some y => rfl
    | none =>
      by_cases hkn : k = n + 1
      · subst hkn; rw [hf] at h; cases h
      · exact ih (by omega)

/-- What an expression matches, with the captures. -/
def Matches : List Piece → Str → List Str → Prop
  | [], s, caps => s = [] ∧ caps = []
  | .lit l :: ps, s, caps => ∃ t, s = l ++ t ∧ Matches ps t caps
  | .spaces :: ps, s, caps => ∃ w t, s = w ++ t ∧ (∀ c ∈ w, isReSpace c = true) ∧ Matches ps t caps
  | .cap p :: ps, s, caps => ∃ v t caps', s = v ++ t ∧ v ≠ [] ∧ (∀ c ∈ v, p c = true) ∧ caps = v :: caps' ∧ Matches ps t caps'

theorem mem_of_take {p : Char → Bool} {s : Str} {k : Nat} (hk : k ≤ (s.takeWhile p).length) :
    ∀ c ∈ s.take k, p c = true := by
  induction s generalizing k with
  | nil => simp
  | cons x s ih =>
    intro c hc
    by_cases hx : p x = true
    · cases k with
      | zero => simp at hc
      | succ k =>
        simp only [List.takeWhile_cons, hx, if_true, List.length_cons] at hk
        simp only [List.take_succ_cons, List.mem_cons] at hc
        rcases hc with rfl | hc
        · exact hx
        · exact ih (by omega) c hc
    · simp only [List.takeWhile_cons, hx, Bool.false_eq_true, if_false, List.length_nil] at hk
      have : k = 0 := by omega
      subst this
      simp at hc

theorem takeWhile_length {p : Char → Bool} {v t : Str} (h : ∀ c ∈ v, p c = true) : v.length ≤ ((v ++ t).takeWhile p).length := by
  induction v with
  | nil => simp
  | cons x v ih =>
    simp only [List.cons_append, List.takeWhile_cons, h x (List.mem_cons_self ..), if_true, List.length_cons]
    have := ih (fun c hc => h c (List.mem_cons_of_mem _ hc))
    omega

theorem matchAll_sound : ∀ (ps : List Piece) (s : Str) (caps : List Str), matchAll ps s = some caps → Matches ps s caps
  | [], s, caps, h => by
    unfold matchAll at h
    by_cases hs : s = []
    · rw [if_pos hs] at h; cases h; exact ⟨hs, rfl⟩
    · rw [if_neg hs] at h; cases h
  | .lit l :: ps, s, caps, h => by
    unfold matchAll at h
    by_cases hl : l.isPrefixOf s = true
    · rw [if_pos hl] at h
      obtain ⟨t, ht⟩ := List.isPrefixOf_iff_prefix.mp hl
      refine ⟨t, ht.symm, ?_⟩
      rw [← ht, List.drop_left] at h
      exact matchAll_sound ps t caps h
    · rw [if_neg hl] at h; cases h
  | .spaces :: ps, s, caps, h => by
    unfold matchAll at h
    obtain ⟨k, hk, hx⟩ := tryDown_some h
    exact ⟨s.take k, s.drop k, (List.take_append_drop k s).symm, mem_of_take hk, matchAll_sound ps _ caps hx⟩
  | .cap p :: ps, s, caps, h => by
    unfold matchAll at h
    cases hn : (s.takeWhile p).length with
    | zero => rw [hn] at h; cases h
    | succ n =>
      rw [hn] at h
      obtain ⟨k, hk, hx⟩ := tryDown_some h
      cases hm : matchAll ps (s.drop (k + 1)) with
      | none => rw [hm] at hx; cases hx
      | some caps' =>
        rw [hm] at hx
        cases hx
        refine ⟨s.take (k + 1), s.drop (k + 1), caps', (List.take_append_drop _ s).symm, ?_, mem_of_take (by omega), rfl,
          matchAll_sound ps _ caps' hm⟩
        cases s with
        | nil => simp at hn
        | cons x s => simp

theorem matchAll_complete : ∀ (ps : List Piece) (s : Str) (caps : List Str), Matches ps s caps → (matchAll ps s).isSome = true
  | [], s, caps, h => by
    unfold matchAll
    rw [if_pos h.1]; rfl
  | .lit l :: ps, s, caps, h => by
    obtain ⟨t, rfl, h⟩ := h
    unfold matchAll
    rw [if_pos (List.isPrefixOf_iff_prefix.mpr (List.prefix_append ..)), List.drop_left]
    exact matchAll_complete ps t caps h
  | .spaces :: ps, s, caps, h => by
    obtain ⟨w, t, rfl, hw, h⟩ := h
    unfold matchAll
    refine tryDown_isSome (takeWhile_length hw) ?_
    rw [List.drop_left]
    exact matchAll_complete ps t caps h
  | .cap p :: ps, s, caps, h => by
    obtain ⟨v, t, caps', rfl, hv, hp, rfl, h⟩ := h
    unfold matchAll
    have hl := takeWhile_length (t := t) hp
    have hpos : 0 < v.length := List.length_pos_iff.mpr hv
    cases hn : ((v ++ t).takeWhile p).length with
    | zero => omega
    | succ n =>
      simp only
      refine tryDown_isSome (k := v.length - 1) (by omega) ?_
      have : v.length - 1 + 1 = v.length := by omega
      rw [this, List.drop_left]
      have := matchAll_complete ps t caps' h
      cases hm : matchAll ps t with
      | none => rw [hm] at this; cases this
      | some x => rfl

/-! ### Uniqueness of the captures -/

/-- An expression for a sequence of fields. -/
def fieldsExp : List (String × (Char → Bool)) → List Piece
  | [] => [.lit ['<']]
  | (key, p) :: fs => keyPieces key p ++ fieldsExp fs

theorem split_unique {c : Char} {a b u v : Str} (ha : c ∉ a) (hb : c ∉ b) (h : a ++ c :: u = b ++ c :: v) : a = b ∧ u = v := by
  induction a generalizing b with
  | nil =>
    cases b with
    | nil => simp at h; exact ⟨rfl, h⟩
    | cons y b => simp at h; exact absurd (by simp [h.1]) hb
  | cons x a ih =>
    cases b with
    | nil => simp at h; exact absurd (by simp [h.1]) ha
    | cons y b =>
      simp only [List.cons_append, List.cons.injEq] at h
      obtain ⟨h1, h2⟩ := ih (fun hc => ha (List.mem_cons_of_mem _ hc)) (fun hc => hb (List.mem_cons_of_mem _ hc)) h.2
      exact ⟨by rw [h.1, h1], h2⟩

theorem pad_unique {w v w' x y x' : Str} (hw : ∀ c ∈ w, isReSpace c = true) (hw' : ∀ c ∈ w', isReSpace c = true)
    (hx : ∀ c ∈ x, isReSpace c = true) (hx' : ∀ c ∈ x', isReSpace c = true)
    (hv : ∀ c ∈ v, isReSpace c = false) (hy : ∀ c ∈ y, isReSpace c = false)
    (h : w ++ v ++ w' = x ++ y ++ x') : v = y := by
  have key : ∀ a b c : Str, (∀ z ∈ a, isReSpace z = true) → (∀ z ∈ b, isReSpace z = false) → (∀ z ∈ c, isReSpace z = true) →
      (a ++ b ++ c).filter (fun z => !isReSpace z) = b := by
    intro a b c ha hb hc
    have h1 : a.filter (fun z => !isReSpace z) = [] := List.filter_eq_nil_iff.mpr (by simpa using ha)
    have h2 : b.filter (fun z => !isReSpace z) = b := List.filter_eq_self.mpr (by simpa using hb)
    have h3 : c.filter (fun z => !isReSpace z) = [] := List.filter_eq_nil_iff.mpr (by simpa using hc)
    rw [List.filter_append, List.filter_append, h1, h2, h3]
    simp
  rw [← key w v w' hw hv hw', h, key x y x' hx hy hx']

/-- Class characters are neither white space, colons nor '<'. -/
def GoodClass (p : Char → Bool) : Prop := ∀ c, p c = true → isReSpace c = false ∧ c ≠ ':' ∧ c ≠ '<'

theorem space_ne {c : Char} (h : isReSpace c = true) : c ≠ ':' ∧ c ≠ '<' := by
  constructor <;> (rintro rfl; revert h; decide)

theorem fields_unique : ∀ (fs : List (String × (Char → Bool))), (∀ f ∈ fs, GoodClass f.2 ∧ ':' ∉ f.1.toList ∧ '<' ∉ f.1.toList) →
    ∀ (s : Str) (caps caps' : List Str), Matches (fieldsExp fs) s caps → Matches (fieldsExp fs) s caps' → caps = caps'
  | [], _, s, caps, caps', h, h' => by
    obtain ⟨t, -, h⟩ := h
    obtain ⟨t', -, h'⟩ := h'
    rw [h.2, h'.2]
  | (key, p) :: fs, hg, s, caps, caps', h, h' => by
    obtain ⟨t, rfl, w, u, rfl, hw, v, z, c1, rfl, hv0, hv, rfl, w', y, rfl, hw', h⟩ := h
    obtain ⟨t2, e2, w2, u2, rfl, hw2, v2, z2, c2, rfl, hv02, hv2, rfl, w2', y2, rfl, hw2', h'⟩ := h'
    have e := List.append_cancel_left e2
    have hgc : GoodClass p := (hg _ (List.mem_cons_self ..)).1
    -- the rest starts with the next key and a colon, or is "<"
    suffices hh : v = v2 ∧ y = y2 by
      obtain ⟨rfl, rfl⟩ := hh
      rw [fields_unique fs (fun f hf => hg f (List.mem_cons_of_mem _ hf)) y c1 c2 h h']
    have noc : ∀ (a b d : Str) (m : Char), (m = ':' ∨ m = '<') → (∀ c ∈ a, isReSpace c = true) → (∀ c ∈ b, p c = true) →
        (∀ c ∈ d, isReSpace c = true) → m ∉ a ++ b ++ d := by
      intro a b d m hm ha hb hd hmem
      simp only [List.mem_append] at hmem
      rcases hmem with (h1 | h1) | h1
      · rcases hm with rfl | rfl
        · exact (space_ne (ha _ h1)).1 rfl
        · exact (space_ne (ha _ h1)).2 rfl
      · rcases hm with rfl | rfl
        · exact (hgc _ (hb _ h1)).2.1 rfl
        · exact (hgc _ (hb _ h1)).2.2 rfl
      · rcases hm with rfl | rfl
        · exact (space_ne (hd _ h1)).1 rfl
        · exact (space_ne (hd _ h1)).2 rfl
    have fin : ∀ a b : Str, w ++ v ++ w' = w2 ++ v2 ++ w2' → v = v2 := fun _ _ h =>
      pad_unique hw hw' hw2 hw2' (fun c hc => (hgc c (hv c hc)).1) (fun c hc => (hgc c (hv2 c hc)).1) h
    cases fs with
    | nil =>
      obtain ⟨r, rfl, hr⟩ := h
      obtain ⟨r2, rfl, hr2⟩ := h'
      have e' : (w ++ v ++ w') ++ '<' :: r = (w2 ++ v2 ++ w2') ++ '<' :: r2 := by simpa using e
      obtain ⟨h1, h2⟩ := split_unique (noc w v w' '<' (.inr rfl) hw hv hw') (noc w2 v2 w2' '<' (.inr rfl) hw2 hv2 hw2') e'
      exact ⟨fin [] [] h1, by rw [h2]⟩
    | cons f fs =>
      obtain ⟨key2, p2⟩ := f
      obtain ⟨r, rfl, hr⟩ := h
      obtain ⟨r2, rfl, hr2⟩ := h'
      have e' : (w ++ v ++ w' ++ key2.toList) ++ ':' :: r = (w2 ++ v2 ++ w2' ++ key2.toList) ++ ':' :: r2 := by simpa using e
      have hk : ':' ∉ key2.toList := (hg (key2, p2) (by simp)).2.1
      obtain ⟨h1, h2⟩ := split_unique
        (by rw [List.mem_append, not_or]; exact ⟨noc w v w' ':' (.inl rfl) hw hv hw', hk⟩)
        (by rw [List.mem_append, not_or]; exact ⟨noc w2 v2 w2' ':' (.inl rfl) hw2 hv2 hw2', hk⟩) e'
      exact ⟨fin [] [] (List.append_cancel_right h1), by rw [h2]⟩

/-! ### The SGML header -/

theorem reSpace_iff (c : Char) : isReSpace c = true ↔ IsBlankChar c := by
  simp only [isReSpace, IsBlankChar, Bool.or_eq_true, beq_iff_eq]
  tauto

theorem digit_iff (c : Char) : isDigit c = true ↔ IsDigitChar c := by
  simp only [isDigit, IsDigitChar, Bool.and_eq_true, decide_eq_true_eq, Char.le_def, UInt32.le_iff_toNat_le]
  rfl

theorem upper_iff (c : Char) : c.isUpper = true ↔ IsUpperChar c := by
  simp only [Char.isUpper, IsUpperChar, decide_eq_true_eq, Char.le_def, UInt32.le_iff_toNat_le]

theorem word_iff (c : Char) : isReWord c = true ↔ IsWordChar c := by
  have hd : c.isDigit = true ↔ IsDigitChar c := by
    simp only [Char.isDigit, IsDigitChar, Bool.and_eq_true, decide_eq_true_eq, Char.le_def, UInt32.le_iff_toNat_le]
  have hl : c.isLower = true ↔ IsLowerChar c := by
    simp only [Char.isLower, IsLowerChar, Bool.and_eq_true, decide_eq_true_eq, Char.le_def, UInt32.le_iff_toNat_le]
  simp only [isReWord, Char.isAlphanum, Char.isAlpha, Bool.or_eq_true, beq_iff_eq, hd, hl, upper_iff, IsWordChar]
  tauto

def headerFields : List (String × (Char → Bool)) :=
  [("OFXHEADER", isDigit), ("DATA", Char.isUpper), ("VERSION", isDigit), ("SECURITY", isReWord),
   ("ENCODING", fun c => c.isUpper || isDigit c || c == '-'), ("CHARSET", fun c => isReWord c || c == '-'),
   ("COMPRESSION", Char.isUpper), ("OLDFILEUID", fun c => isReWord c || c == '-'),
   ("NEWFILEUID", fun c => isReWord c || c == '-')]

theorem headerExp_eq : headerExp = fieldsExp headerFields := rfl

theorem good_of {p : Char → Bool} (h : ∀ c, p c = true → IsWordChar c ∨ c = '-') : GoodClass p := by
  intro c hc
  have hw : ∀ d : Char, IsWordChar d → d ≠ ' ' ∧ d ≠ '\t' ∧ d ≠ '\n' ∧ d ≠ '\r' ∧ d ≠ '\x0c' ∧ d ≠ ':' ∧ d ≠ '<' := by
    intro d hd
    refine ⟨?_, ?_, ?_, ?_, ?_, ?_, ?_⟩ <;>
      (rintro rfl; unfold IsWordChar IsDigitChar IsUpperChar IsLowerChar at hd; revert hd; decide)
  have hs : isReSpace c = false ↔ ¬ IsBlankChar c := by rw [← reSpace_iff]; simp
  rw [hs]
  unfold IsBlankChar
  rcases h c hc with h1 | rfl
  · obtain ⟨a, b, d, e, f, g, i⟩ := hw c h1
    exact ⟨by simp [a, b, d, e, f], g, i⟩
  · decide

theorem headerFields_good : ∀ f ∈ headerFields, GoodClass f.2 ∧ ':' ∉ f.1.toList ∧ '<' ∉ f.1.toList := by
  intro f hf
  refine ⟨?_, ?_⟩
  · apply good_of
    intro c hc
    simp only [headerFields, List.mem_cons, List.not_mem_nil, or_false] at hf
    have u : c.isUpper = true → IsWordChar c ∨ c = '-' := fun h => .inl (.inr (.inl ((upper_iff c).mp h)))
    have d : isDigit c = true → IsWordChar c ∨ c = '-' := fun h => .inl (.inl ((digit_iff c).mp h))
    have w : isReWord c = true → IsWordChar c ∨ c = '-' := fun h => .inl ((word_iff c).mp h)
    rcases hf with rfl | rfl | rfl | rfl | rfl | rfl | rfl | rfl | rfl
    · exact d hc
    · exact u hc
    · exact d hc
    · exact w hc
    · simp only [Bool.or_eq_true, beq_iff_eq] at hc
      rcases hc with (h | h) | h
      · exact u h
      · exact d h
      · exact .inr h
    · simp only [Bool.or_eq_true, beq_iff_eq] at hc
      exact hc.elim w .inr
    · exact u hc
    · simp only [Bool.or_eq_true, beq_iff_eq] at hc
      exact hc.elim w .inr
    · simp only [Bool.or_eq_true, beq_iff_eq] at hc
      exact hc.elim w .inr
  · revert f
    decide +kernel

/-- The captures of the fields, and the text they come from. -/
theorem matches_fields : ∀ (fs : List (String × (Char → Bool))) (s : Str) (caps : List Str),
    Matches (fieldsExp fs) s caps ↔
      caps.length = fs.length ∧ HeaderText ((fs.zip caps).map (fun x => (x.1.1, x.2))) s ∧
      ∀ x ∈ fs.zip caps, x.2 ≠ [] ∧ ∀ c ∈ x.2, x.1.2 c = true
  | [], s, caps => by
    simp only [fieldsExp, Matches, List.zip_nil_left, List.map_nil, HeaderText, List.length_nil, List.not_mem_nil,
      false_implies, implies_true, and_true]
    constructor
    · rintro ⟨t, rfl, rfl, rfl⟩
      exact ⟨rfl, rfl⟩
    · rintro ⟨h1, rfl⟩
      exact ⟨[], rfl, rfl, List.length_eq_zero_iff.mp h1⟩
  | (key, p) :: fs, s, caps => by
    have ih := matches_fields fs
    constructor
    · rintro ⟨t, rfl, w, u, rfl, hw, v, z, c1, rfl, hv0, hv, rfl, w', y, rfl, hw', h⟩
      obtain ⟨h1, h2, h3⟩ := (ih y c1).mp h
      refine ⟨by simp [h1], ⟨w, w', y, by simp, ?_, ?_, h2⟩, ?_⟩
      · exact fun c hc => (reSpace_iff c).mp (hw c hc)
      · exact fun c hc => (reSpace_iff c).mp (hw' c hc)
      · intro x hx
        simp only [List.zip_cons_cons, List.mem_cons] at hx
        rcases hx with rfl | hx
        · exact ⟨hv0, hv⟩
        · exact h3 x hx
    · rintro ⟨h1, h2, h3⟩
      cases caps with
      | nil => simp at h1
      | cons v caps =>
        obtain ⟨w, w', y, rfl, hw, hw', h⟩ := h2
        obtain ⟨hv0, hv⟩ := h3 ((key, p), v) (by simp)
        refine ⟨w ++ (v ++ (w' ++ y)), by simp, w, v ++ (w' ++ y), rfl, fun c hc => (reSpace_iff c).mpr (hw c hc), v, w' ++ y, caps,
          rfl, hv0, hv, rfl, w', y, rfl, fun c hc => (reSpace_iff c).mpr (hw' c hc), ?_⟩
        exact (ih y caps).mpr ⟨by simpa using h1, h, fun x hx => h3 x (by simp [hx])⟩

theorem headerMatch_iff (s : Str) (caps : List Str) :
    matchAll headerExp s = some caps ↔ Matches (fieldsExp headerFields) s caps := by
  rw [headerExp_eq]
  constructor
  · exact matchAll_sound _ _ _
  · intro h
    obtain ⟨caps', hc⟩ := Option.isSome_iff_exists.mp (matchAll_complete _ _ _ h)
    rw [hc, fields_unique headerFields headerFields_good s caps caps' h (matchAll_sound _ _ _ hc)]

theorem ofxVersion_good : enumOfxVersion.Good := good_of_mem (by simp [allEnums])

theorem trimSpace_digits {s : Str} (h : ∀ c ∈ s, isDigit c = true) : trimSpace s = s := by
  apply trimSpace_of_trimmed
  refine ⟨fun c hc => ?_, fun c hc => ?_⟩
  · exact isDigit_not_space (h c (List.mem_of_mem_head? hc))
  · exact isDigit_not_space (h c (List.mem_of_mem_getLast? hc))

theorem version_sgml {version : Str} {v : Nat} (hd : ∀ c ∈ version, isDigit c = true) :
    (enumOfxVersion.fromString version = (v, none) ∧ ¬ v > 4) ↔
      ∃ n, v = n + 1 ∧ sgmlVersions[n]?.map String.toList = some version := by
  rw [ofxVersion_good.fromString_iff, trimSpace_digits hd, ofxVersion_good.valid_iff]
  have hn : enumOfxVersion.names = ["102".toList, "103".toList, "151".toList, "160".toList, "200".toList, "201".toList,
    "202".toList, "203".toList, "210".toList, "211".toList, "220".toList] := rfl
  rw [hn]
  constructor
  · rintro ⟨⟨⟨h1, -⟩, h2⟩, h3⟩
    refine ⟨v - 1, by omega, ?_⟩
    have : v = 1 ∨ v = 2 ∨ v = 3 ∨ v = 4 := by omega
    rcases this with rfl | rfl | rfl | rfl <;> exact h2
  · rintro ⟨n, rfl, h⟩
    have hlt : n < 4 := by
      by_contra hc
      rw [List.getElem?_eq_none (by simp [sgmlVersions]; omega)] at h
      cases h
    refine ⟨⟨⟨by omega, by simp; omega⟩, ?_⟩, by omega⟩
    have : n = 0 ∨ n = 1 ∨ n = 2 ∨ n = 3 := by omega
    rcases this with rfl | rfl | rfl | rfl <;> exact h

theorem made_iff {p : Char → Bool} {q : Char → Prop} (h : ∀ c, p c = true ↔ q c) (s : Str) :
    Made q s ↔ s ≠ [] ∧ ∀ c ∈ s, p c = true := by
  unfold Made
  simp [h]

/-- `checkSGMLHeader` accepts exactly the supported headers. -/
theorem checkSGML_iff (s : Str) (v : Nat) :
    checkSGMLHeader s = .ok v ↔ ∃ n, v = n + 1 ∧ SGMLHeader n s := by
  have henc : ∀ c : Char, (c.isUpper || isDigit c || c == '-') = true ↔ (IsUpperChar c ∨ IsDigitChar c ∨ c = '-') := by
    intro c
    simp only [Bool.or_eq_true, beq_iff_eq, upper_iff, digit_iff, or_assoc]
  have hwrd : ∀ c : Char, (isReWord c || c == '-') = true ↔ (IsWordChar c ∨ c = '-') := by
    intro c
    simp only [Bool.or_eq_true, beq_iff_eq, word_iff]
  constructor
  · intro h
    unfold checkSGMLHeader at h
    cases hm : matchAll headerExp s with
    | none => rw [hm] at h; cases h
    | some caps =>
      have hM := (headerMatch_iff s caps).mp hm
      obtain ⟨hlen, hT, hC⟩ := (matches_fields _ _ _).mp hM
      match caps, hlen with
      | [a, b, c, d, e, f, g, i, j], _ =>
        rw [hm] at h
        simp only at h
        by_cases h1 : a = "100".toList
        swap; · rw [if_pos h1] at h; cases h
        rw [if_neg (not_not.mpr h1)] at h
        by_cases h2 : b = "OFXSGML".toList
        swap; · rw [if_pos h2] at h; cases h
        rw [if_neg (not_not.mpr h2)] at h
        have hdig : ∀ x ∈ c, isDigit x = true := (hC (("VERSION", isDigit), c) (by simp [headerFields])).2
        cases hv : enumOfxVersion.fromString c with
        | mk v' er =>
        rw [hv] at h
        cases er with
        | some er => cases h
        | none =>
        simp only at h
        by_cases h3 : v' > 4
        · rw [if_pos h3] at h; cases h
        rw [if_neg h3] at h
        by_cases h4 : d = "NONE".toList ∨ d = "TYPE1".toList
        swap; · rw [if_pos h4] at h; cases h
        rw [if_neg (not_not.mpr h4)] at h
        by_cases h5 : g = "NONE".toList
        swap; · rw [if_pos h5] at h; cases h
        rw [if_neg (not_not.mpr h5)] at h
        cases h
        obtain ⟨n, hn, hver⟩ := (version_sgml hdig).mp ⟨hv, h3⟩
        refine ⟨n, hn, ?_⟩
        cases hs : sgmlVersions[n]? with
        | none => rw [hs] at hver; cases hver
        | some vs =>
        rw [hs] at hver
        have hvs : vs.toList = c := Option.some.inj hver
        refine ⟨vs, hs, d, e, f, i, j, ?_, h4, ?_, ?_, ?_, ?_⟩
        · rw [hvs, ← h1, ← h2, ← h5]
          exact hT
        · exact (made_iff henc e).mpr (hC (("ENCODING", fun c => c.isUpper || isDigit c || c == '-'), e) (by simp [headerFields]))
        · exact (made_iff hwrd f).mpr (hC (("CHARSET", fun c => isReWord c || c == '-'), f) (by simp [headerFields]))
        · exact (made_iff hwrd i).mpr (hC (("OLDFILEUID", fun c => isReWord c || c == '-'), i) (by simp [headerFields]))
        · exact (made_iff hwrd j).mpr (hC (("NEWFILEUID", fun c => isReWord c || c == '-'), j) (by simp [headerFields]))
  · rintro ⟨n, rfl, vs, hs, d, e, f, i, j, hT, h4, he, hf, hi, hj⟩
    have hvd : vs.toList ≠ [] ∧ ∀ c ∈ vs.toList, isDigit c = true := by
      have : vs ∈ sgmlVersions := List.mem_of_getElem? hs
      revert vs
      intro vs _ _ hmem
      simp only [sgmlVersions, List.mem_cons, List.not_mem_nil, or_false] at hmem
      rcases hmem with rfl | rfl | rfl | rfl <;> decide
    have hdd : d ≠ [] ∧ ∀ c ∈ d, isReWord c = true := by
      rcases h4 with rfl | rfl <;> decide
    have hm : matchAll headerExp s = some ["100".toList, "OFXSGML".toList, vs.toList, d, e, f, "NONE".toList, i, j] := by
      rw [headerMatch_iff, matches_fields]
      refine ⟨rfl, hT, ?_⟩
      intro x hx
      simp only [headerFields, List.zip_cons_cons, List.zip_nil_left, List.mem_cons, List.not_mem_nil, or_false] at hx
      rcases hx with rfl | rfl | rfl | rfl | rfl | rfl | rfl | rfl | rfl
      · decide
      · decide
      · exact hvd
      · exact hdd
      · exact (made_iff henc e).mp he
      · exact (made_iff hwrd f).mp hf
      · decide
      · exact (made_iff hwrd i).mp hi
      · exact (made_iff hwrd j).mp hj
    obtain ⟨hv, h3⟩ := (version_sgml hvd.2).mpr ⟨n, rfl, by rw [hs]; rfl⟩
    unfold checkSGMLHeader
    rw [hm]
    simp only [ne_eq, not_true_eq_false, if_false, hv]
    rw [if_neg h3, if_neg (not_not.mpr h4)]

end Ofx
