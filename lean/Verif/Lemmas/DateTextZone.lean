import Verif.Lemmas.DateText
/- The zone part of a date: exactly what is accepted. -/
namespace Ofx
open Spec

/-! ### Blanks -/

theorem blank_absorb {cs : List Chunk} {st : PState} {w Z : Str} (hw : ∀ x ∈ w, x = ' ') :
    parseChunks (.blank :: cs) st (w ++ ' ' :: Z) = parseChunks (.blank :: cs) st (' ' :: Z) := by
  have hd : (w ++ ' ' :: Z).dropWhile (· == ' ') = (' ' :: Z).dropWhile (· == ' ') := by
    induction w with
    | nil => rfl
    | cons x xs ih =>
      have := hw x (by simp)
      subst this
      rw [List.cons_append, List.dropWhile_cons_of_pos (by simp)]
      exact ih (fun y hy => hw y (by simp [hy]))
  have hh : ∃ t, w ++ ' ' :: Z = ' ' :: t := by
    cases w with
    | nil => exact ⟨Z, rfl⟩
    | cons x xs => have := hw x (by simp); subst this; exact ⟨_, rfl⟩
  obtain ⟨t, ht⟩ := hh
  rw [parseChunks, parseChunks]
  simp only [parseChunk]
  rw [ht] at hd ⊢
  simp only [if_true, hd]

theorem blank_inv {cs : List Chunk} {st st' : PState} {v : Str} (h : parseChunks (.blank :: cs) st v = some st') :
    (v = [] ∨ v.head? = some ' ') ∧ parseChunks cs st (v.dropWhile (· == ' ')) = some st' := by
  rw [parseChunks] at h
  simp only [parseChunk] at h
  cases v with
  | nil => exact ⟨Or.inl rfl, h⟩
  | cons x xs =>
    simp only at h
    by_cases hx : x = ' '
    · rw [if_pos hx] at h
      exact ⟨Or.inr (by rw [hx]; rfl), h⟩
    · rw [if_neg hx] at h; cases h

/-- What is left after skipping blanks. -/
theorem dropBlanks (w : Str) : (∀ x ∈ w, x = ' ') ∨
    ∃ x t, x ≠ ' ' ∧ ∀ Z, (w ++ Z).dropWhile (· == ' ') = x :: t ++ Z := by
  induction w with
  | nil => exact Or.inl (by simp)
  | cons a w ih =>
    by_cases ha : a = ' '
    · subst ha
      rcases ih with ih | ⟨x, t, hx, ih⟩
      · exact Or.inl (by intro x hx; rcases List.mem_cons.mp hx with rfl | h; rfl; exact ih x h)
      · exact Or.inr ⟨x, t, hx, fun Z => by rw [List.cons_append, List.dropWhile_cons_of_pos (by simp)]; exact ih Z⟩
    · exact Or.inr ⟨a, w, ha, fun Z => by rw [List.cons_append, List.dropWhile_cons_of_neg (by simpa using ha)]⟩

/-! ### Numeric zone -/

theorem numTZ_inv {u r : Str} {o : Int} (h : parseNumTZ u = some (o, r)) :
    ∃ sg a b c d, u = sg :: a :: b :: c :: d :: r ∧ (sg = '+' ∨ sg = '-') ∧ isDigit a = true ∧ isDigit b = true ∧
      isDigit c = true ∧ isDigit d = true := by
  match u with
  | [] => simp [parseNumTZ] at h
  | [_] => simp [parseNumTZ] at h
  | [_, _] => simp [parseNumTZ] at h
  | [_, _, _] => simp [parseNumTZ] at h
  | [_, _, _, _] => simp [parseNumTZ] at h
  | sg :: a :: b :: c :: d :: r' =>
    simp only [parseNumTZ] at h
    cases h1 : getnum true [a, b] with
    | none => rw [h1] at h; cases h
    | some p =>
      obtain ⟨hr, x⟩ := p
      cases h2 : getnum true [c, d] with
      | none => rw [h1, h2] at h; cases h
      | some q =>
        obtain ⟨mm, y⟩ := q
        rw [h1, h2] at h
        simp only at h
        obtain ⟨D, hD, hab⟩ := getnum_inv h1
        obtain ⟨E, hE, hcd⟩ := getnum_inv h2
        obtain ⟨a', b', rfl, ha, hb, -⟩ := isDigits_two hD
        obtain ⟨c', d', rfl, hc, hd, -⟩ := isDigits_two hE
        simp only [List.cons_append, List.nil_append, List.cons.injEq] at hab hcd
        obtain ⟨rfl, rfl, -⟩ := hab
        obtain ⟨rfl, rfl, -⟩ := hcd
        by_cases hbig : hr > 24 ∨ mm > 60
        · rw [if_pos hbig] at h; cases h
        · rw [if_neg hbig] at h
          by_cases hp : sg = '+'
          · rw [if_pos hp] at h
            cases h
            exact ⟨sg, a, b, c, d, rfl, Or.inl hp, ha, hb, hc, hd⟩
          · rw [if_neg hp] at h
            by_cases hm : sg = '-'
            · rw [if_pos hm] at h
              cases h
              exact ⟨sg, a, b, c, d, rfl, Or.inr hm, ha, hb, hc, hd⟩
            · rw [if_neg hm] at h; cases h

theorem numTZ_chunk {cs : List Chunk} {st st' : PState} {u : Str} (h : parseChunks (.numTZ :: cs) st u = some st') :
    ∃ o r, parseNumTZ u = some (o, r) ∧ parseChunks cs { st with off := some o } r = some st' := by
  rw [parseChunks] at h
  simp only [parseChunk] at h
  cases hp : parseNumTZ u with
  | none => rw [hp] at h; cases h
  | some p =>
    obtain ⟨o, r⟩ := p
    rw [hp] at h
    exact ⟨o, r, rfl, h⟩

theorem end_inv {st st' : PState} {v : Str} (h : parseChunks [] st v = some st') : v = [] ∧ st' = st := by
  rw [parseChunks] at h
  by_cases hv : v = []
  · rw [if_pos hv] at h; cases h; exact ⟨hv, rfl⟩
  · rw [if_neg hv] at h; cases h

/-- The digits of a zone: hours and minutes. -/
def zoneDigits (h m : Nat) : Str := padZero 2 (natStr h) ++ padZero 2 (natStr m)

theorem zoneDigits_digits (h m : Nat) : ∀ c ∈ zoneDigits h m, isDigit c = true := by
  intro c hc
  rcases List.mem_append.mp hc with hc | hc
  · exact padZero_digits (natStr_digits h) c hc
  · exact padZero_digits (natStr_digits m) c hc

theorem padZero_two_le (n : Nat) : 2 ≤ (padZero 2 (natStr n)).length := by
  simp [padZero]; omega

theorem zoneDigits_ge (h m : Nat) : 4 ≤ (zoneDigits h m).length := by
  unfold zoneDigits
  have h1 := padZero_two_le h
  have h2 := padZero_two_le m
  rw [List.length_append]; omega

theorem zoneDigits_len {h m : Nat} (hl : (zoneDigits h m).length = 4) : h < 100 := by
  unfold zoneDigits at hl
  have h1 := padZero_two_le h
  have h2 := padZero_two_le m
  rw [List.length_append] at hl
  have h3 : (padZero 2 (natStr h)).length = 2 := by omega
  have := digitsVal_lt (padZero_digits (w := 2) (natStr_digits h))
  rw [digitsVal_padZero, digitsVal_natStr, h3] at this
  omega

/-- Only zones of up to 24 hours are read. -/
theorem numTZ_hours {sg : Char} {h m : Nat} {r r' : Str} {o : Int} (hm : m < 60) (hr : ∀ c, r.head? = some c → isDigit c = false)
    (hr' : ∀ c, r'.head? = some c → isDigit c = false)
    (hp : parseNumTZ (sg :: (zoneDigits h m ++ r)) = some (o, r')) : h ≤ 24 ∧ r' = r := by
  obtain ⟨sg', a, b, c, d, e, -, ha, hb, hc, hd⟩ := numTZ_inv hp
  have e' : zoneDigits h m ++ r = [a, b, c, d] ++ r' := by injection e
  have h1 := (takeWhile_append_stop (p := isDigit) (zoneDigits_digits h m) hr)
  have h2 := (takeWhile_append_stop (p := isDigit) (s := [a, b, c, d]) (by simp [ha, hb, hc, hd]) hr')
  have hz : zoneDigits h m = [a, b, c, d] := by rw [← h1.1, e', h2.1]
  have hrr : r' = r := by rw [← h1.2, e', h2.2]
  refine ⟨?_, hrr⟩
  have h100 : h < 100 := zoneDigits_len (m := m) (by rw [hz]; rfl)
  by_contra hgt
  unfold zoneDigits at hp
  rw [pad2 h100, pad2 (by omega)] at hp
  simp only [List.cons_append, List.nil_append] at hp
  unfold parseNumTZ at hp
  simp only [getnum_pad (f := true) (n := h) h100 [], getnum_pad (f := true) (n := m) (by omega) []] at hp
  rw [if_pos (by omega)] at hp
  cases hp

/-- A zone without name. -/
theorem anon_inv {st st' : PState} {w : Str} {sg : Char} {h m : Nat} (hsg : sg = '+' ∨ sg = '-') (hm : m < 60)
    (hp : parseChunks [.blank, .numTZ] st (w ++ ' ' :: sg :: zoneDigits h m) = some st') : (∀ x ∈ w, x = ' ') ∧ h ≤ 24 := by
  obtain ⟨-, h1⟩ := blank_inv hp
  obtain ⟨o, r, h2, h3⟩ := numTZ_chunk h1
  obtain ⟨rfl, -⟩ := end_inv h3
  rcases dropBlanks w with hw | ⟨x, t, hx, hd⟩
  · refine ⟨hw, ?_⟩
    rw [blank_absorb hw] at hp
    obtain ⟨-, h1⟩ := blank_inv hp
    have e : (' ' :: sg :: zoneDigits h m).dropWhile (· == ' ') = sg :: (zoneDigits h m ++ []) := by
      rcases hsg with rfl | rfl <;> simp
    rw [e] at h1
    obtain ⟨o, r, h2, h3⟩ := numTZ_chunk h1
    obtain ⟨rfl, -⟩ := end_inv h3
    exact (numTZ_hours hm (by simp) (by simp) h2).1
  · exfalso
    rw [hd] at h2
    obtain ⟨sg', a, b, c, d, e, -⟩ := numTZ_inv h2
    have := congrArg List.length e
    have hz := zoneDigits_ge h m
    simp at this
    omega

/-! ### Names -/

theorem signedOffset_noblank (t : Str) : ' ' ∉ t.take (parseSignedOffset t) := by
  unfold parseSignedOffset
  cases t with
  | nil => simp
  | cons c ds =>
    simp only
    by_cases hc : c = '+' ∨ c = '-'
    · rw [if_pos hc]
      by_cases hn : ((ds.takeWhile isDigit).isEmpty || decide (digitsVal (ds.takeWhile isDigit) > 23)) = true
      · rw [if_pos hn]; simp
      · rw [if_neg hn]
        have : (c :: ds).take (1 + (ds.takeWhile isDigit).length) = c :: ds.takeWhile isDigit := by
          rw [Nat.add_comm, List.take_succ_cons]
          congr 1
          exact (List.prefix_iff_eq_take.mp (List.takeWhile_prefix isDigit)).symm
        rw [this]
        intro hm
        rcases List.mem_cons.mp hm with h | h
        · rcases hc with rfl | rfl <;> exact absurd h (by decide)
        · exact absurd (mem_takeWhile_imp h) (by decide)
    · rw [if_neg hc]; simp

theorem takeWhile_take_prefix {p : Char → Bool} (s : Str) (k : Nat) :
    s.take ((s.take k).takeWhile p).length = (s.take k).takeWhile p := by
  have h1 : (s.take k).takeWhile p <+: s := (List.takeWhile_prefix p).trans (List.take_prefix k s)
  exact (List.prefix_iff_eq_take.mp h1).symm

/-- The name that is read contains no blank. -/
theorem timeZone_noblank {s : Str} {k : Nat} (h : parseTimeZone s = some k) : ' ' ∉ s.take k := by
  unfold parseTimeZone at h
  by_cases h3 : s.length < 3
  · rw [if_pos h3] at h; cases h
  · rw [if_neg h3] at h
    by_cases h4 : s.take 4 = "ChST".toList ∨ s.take 4 = "MeST".toList
    · rw [if_pos h4] at h
      cases h
      rcases h4 with h4 | h4 <;> (rw [h4]; decide)
    · rw [if_neg h4] at h
      by_cases hg : s.take 3 = "GMT".toList
      · rw [if_pos hg] at h
        cases h
        rw [List.take_add, hg]
        intro hm
        rcases List.mem_append.mp hm with hm | hm
        · exact absurd hm (by decide)
        · exact signedOffset_noblank _ hm
      · rw [if_neg hg] at h
        by_cases hs : s.head? = some '+' ∨ s.head? = some '-'
        · rw [if_pos hs] at h
          simp only at h
          by_cases hn : parseSignedOffset s > 0
          · rw [if_pos hn] at h
            cases h
            exact signedOffset_noblank s
          · rw [if_neg hn] at h; cases h
        · rw [if_neg hs] at h
          simp only at h
          have hk : k = ((s.take 6).takeWhile isUpper).length := by
            generalize (s.take 6).takeWhile isUpper = u at h
            by_cases l3 : u.length = 3
            · rw [if_pos l3] at h; cases h; exact l3.symm
            · rw [if_neg l3] at h
              by_cases l4 : u.length = 4
              · rw [if_pos l4] at h
                by_cases ht : u.getLast? = some 'T' ∨ u = "WITA".toList
                · rw [if_pos ht] at h; cases h; exact l4.symm
                · rw [if_neg ht] at h; cases h
              · rw [if_neg l4] at h
                by_cases l5 : u.length = 5
                · rw [if_pos l5] at h
                  by_cases ht : u.getLast? = some 'T'
                  · rw [if_pos ht] at h; cases h; exact l5.symm
                  · rw [if_neg ht] at h; cases h
                · rw [if_neg l5] at h; cases h
          rw [hk, takeWhile_take_prefix]
          intro hm
          exact absurd (mem_takeWhile_imp hm) (by decide)

theorem tz_cases {st st' : PState} {u : Str} (h : parseChunks [.tz] st u = some st') :
    u = "UTC".toList ∨ (u.take 3 ≠ "UTC".toList ∧ ∃ k, parseTimeZone u = some k ∧ u.drop k = []) := by
  rw [parseChunks] at h
  simp only [parseChunk] at h
  by_cases hu : u.take 3 = "UTC".toList
  · rw [if_pos hu] at h
    obtain ⟨h0, -⟩ := end_inv h
    left
    rw [← List.take_append_drop 3 u, hu, h0]; rfl
  · rw [if_neg hu] at h
    cases hp : parseTimeZone u with
    | none => rw [hp] at h; cases h
    | some k =>
      rw [hp] at h
      obtain ⟨h0, -⟩ := end_inv h
      exact Or.inr ⟨hu, k, rfl, h0⟩

theorem tz_noblank {st st' : PState} {u : Str} (h : parseChunks [.tz] st u = some st') : ' ' ∉ u := by
  rcases tz_cases h with rfl | ⟨-, k, hk, h0⟩
  · decide
  · have := timeZone_noblank hk
    rw [← List.take_append_drop k u, h0, List.append_nil]; exact this

/-- Capitals that are read as a name. -/
theorem tz_readable {st st' : PState} {n : Str} (hc : ∀ c ∈ n, IsCapital c) (h : parseChunks [.tz] st n = some st') :
    ReadableZone n := by
  have hup : ∀ c ∈ n, isUpper c = true := fun c hm => (isCapital_iff c).mp (hc c hm)
  rcases tz_cases h with rfl | ⟨hu, k, hk, h0⟩
  · decide
  · refine ⟨hc, ?_⟩
    have hkl : n.length ≤ k := by
      have := congrArg List.length h0
      simp at this; omega
    unfold parseTimeZone at hk
    by_cases h3 : n.length < 3
    · rw [if_pos h3] at hk; cases hk
    · rw [if_neg h3] at hk
      have hno4 : ¬ (n.take 4 = "ChST".toList ∨ n.take 4 = "MeST".toList) := by
        rintro (h | h)
        · have : 'h' ∈ n.take 4 := by rw [h]; decide
          exact absurd (hup 'h' (List.mem_of_mem_take this)) (by decide)
        · have : 'e' ∈ n.take 4 := by rw [h]; decide
          exact absurd (hup 'e' (List.mem_of_mem_take this)) (by decide)
      have hsign : ∀ t : Str, (∀ c ∈ t, isUpper c = true) → ¬ (t.head? = some '+' ∨ t.head? = some '-') := by
        intro t ht
        rintro (h | h)
        · exact absurd (ht _ (List.mem_of_mem_head? h)) (by decide)
        · exact absurd (ht _ (List.mem_of_mem_head? h)) (by decide)
      rw [if_neg hno4] at hk
      by_cases hg : n.take 3 = "GMT".toList
      · rw [if_pos hg] at hk
        have hz : parseSignedOffset (n.drop 3) = 0 := by
          have := hsign (n.drop 3) (fun c hm => hup c (List.mem_of_mem_drop hm))
          unfold parseSignedOffset
          cases hd : n.drop 3 with
          | nil => rfl
          | cons c ds =>
            rw [hd] at this
            simp only
            rw [if_neg (by simpa using this)]
        rw [hz] at hk
        cases hk
        left; omega
      · rw [if_neg hg, if_neg (hsign n hup)] at hk
        have htw : (n.take 6).takeWhile isUpper = n.take 6 := by
          have := (takeWhile_append_stop (p := isUpper) (s := n.take 6) (t := []) (fun c hm => hup c (List.mem_of_mem_take hm)) (by simp)).1
          simpa using this
        simp only [htw] at hk
        have hl : (n.take 6).length = min 6 n.length := by simp
        by_cases l3 : (n.take 6).length = 3
        · left; omega
        · rw [if_neg l3] at hk
          by_cases l4 : (n.take 6).length = 4
          · have hn6 : n.take 6 = n := List.take_of_length_le (by omega)
            rw [if_pos l4, hn6] at hk
            by_cases ht : n.getLast? = some 'T' ∨ n = "WITA".toList
            · rcases ht with ht | ht
              · exact Or.inr (Or.inl ⟨Or.inl (by omega), ht, hu, hg⟩)
              · exact Or.inr (Or.inr ht)
            · rw [if_neg ht] at hk; cases hk
          · rw [if_neg l4] at hk
            by_cases l5 : (n.take 6).length = 5
            · have hn6 : n.take 6 = n := List.take_of_length_le (by omega)
              rw [if_pos l5, hn6] at hk
              by_cases ht : n.getLast? = some 'T'
              · exact Or.inr (Or.inl ⟨Or.inr (by omega), ht, hu, hg⟩)
              · rw [if_neg ht] at hk; cases hk
            · rw [if_neg l5] at hk; cases hk

theorem count_blankfree {s : Str} (h : ' ' ∉ s) : s.countP (· != ' ') = s.length := by
  rw [List.countP_eq_length]
  intro c hc
  simp only [bne_iff_ne]
  rintro rfl; exact h hc

theorem dropWhile_blank_decomp (u : Str) : ∃ b, u = b ++ u.dropWhile (· == ' ') ∧ b.countP (· != ' ') = 0 := by
  refine ⟨u.takeWhile (· == ' '), (List.takeWhile_append_dropWhile).symm, ?_⟩
  rw [List.countP_eq_zero]
  intro c hc
  have := mem_takeWhile_imp hc
  simp at this
  simp [this]

/-- A zone with a name. -/
theorem named_inv {st st' : PState} {w n : Str} {sg : Char} {h m : Nat} (hsg : sg = '+' ∨ sg = '-') (hm : m < 60)
    (hn : ∀ c ∈ n, IsCapital c) (hne : n ≠ [])
    (hp : parseChunks [.blank, .numTZ, .blank, .tz] st (w ++ ' ' :: sg :: (zoneDigits h m ++ ' ' :: n)) = some st') :
    (∀ x ∈ w, x = ' ') ∧ h ≤ 24 ∧ ReadableZone n := by
  have hnb : ' ' ∉ n := fun hmem => absurd ((isCapital_iff ' ').mp (hn ' ' hmem)) (by decide)
  have hzb : ' ' ∉ zoneDigits h m := fun hmem => absurd (zoneDigits_digits h m ' ' hmem) (by decide)
  obtain ⟨-, h1⟩ := blank_inv hp
  obtain ⟨o, r, h2, h3⟩ := numTZ_chunk h1
  obtain ⟨hr, h4⟩ := blank_inv h3
  rcases dropBlanks w with hw | ⟨x, t, hx, hd⟩
  · refine ⟨hw, ?_⟩
    rw [blank_absorb hw] at hp
    obtain ⟨-, h1⟩ := blank_inv hp
    have e : (' ' :: sg :: (zoneDigits h m ++ ' ' :: n)).dropWhile (· == ' ') = sg :: (zoneDigits h m ++ ' ' :: n) := by
      rcases hsg with rfl | rfl <;> simp
    rw [e] at h1
    obtain ⟨o, r, h2, h3⟩ := numTZ_chunk h1
    obtain ⟨hr, h4⟩ := blank_inv h3
    have hr' : ∀ c, r.head? = some c → isDigit c = false := by
      intro c hc
      rcases hr with rfl | hr
      · cases hc
      · rw [hr] at hc; cases hc; decide
    obtain ⟨h24, rfl⟩ := numTZ_hours hm (by simp; decide) hr' h2
    refine ⟨h24, ?_⟩
    have e2 : (' ' :: n).dropWhile (· == ' ') = n := by
      cases n with
      | nil => exact absurd rfl hne
      | cons c cs =>
        have : c ≠ ' ' := by rintro rfl; exact hnb (by simp)
        simp [this]
    rw [e2] at h4
    exact tz_readable hn h4
  · exfalso
    rw [hd] at h2
    obtain ⟨sg', a, b, c, d, e, hs', ha, hb, hc, hd'⟩ := numTZ_inv h2
    have hb6 := tz_noblank h4
    obtain ⟨bl, hbl, hbl0⟩ := dropWhile_blank_decomp r
    generalize r.dropWhile (· == ' ') = u6 at h4 hb6 hbl
    have hcount := congrArg (List.countP (· != ' ')) e
    have c1 : (x != ' ') = true := by simpa using hx
    have nd : ∀ y, isDigit y = true → (y != ' ') = true := by
      intro y hy; simp only [bne_iff_ne]; rintro rfl; exact absurd hy (by decide)
    have ns : ∀ y, y = '+' ∨ y = '-' → (y != ' ') = true := by rintro y (rfl | rfl) <;> decide
    have hz := zoneDigits_ge h m
    rw [hbl] at hcount
    simp only [List.cons_append, List.countP_cons, List.countP_append, c1, nd _ ha, nd _ hb, nd _ hc, nd _ hd', ns _ hsg, ns _ hs', hbl0,
      count_blankfree hzb, count_blankfree hnb, count_blankfree hb6, if_true] at hcount
    have hle : u6.length ≤ n.length := by
      have s1 : (' ' :: n) <:+ (x :: t ++ ' ' :: sg :: (zoneDigits h m ++ ' ' :: n)) :=
        ⟨x :: t ++ ' ' :: sg :: zoneDigits h m, by simp⟩
      have s2 : u6 <:+ (x :: t ++ ' ' :: sg :: (zoneDigits h m ++ ' ' :: n)) :=
        ⟨sg' :: a :: b :: c :: d :: bl, by rw [e, hbl]; simp⟩
      rcases List.suffix_or_suffix_of_suffix s1 s2 with h' | h'
      · exact absurd (h'.subset (by simp)) hb6
      · have hl := h'.length_le
        rcases Nat.lt_or_ge u6.length (' ' :: n).length with hlt | hge
        · simp at hlt; omega
        · have := h'.eq_of_length (by omega)
          rw [this] at hb6
          exact absurd (by simp) hb6
    simp at hcount
    omega

end Ofx
