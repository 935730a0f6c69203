import Verif.Lemmas.DateTextAll
/- Decoding of dates: the characterisation of the accepted texts. -/
namespace Ofx
open Spec

/-- The offset read from the digits of a zone. -/
def tailOffset (sg : Char) (h m : Nat) : Int :=
  if sg = '-' then -(((h * 60 + m) * 60 : Nat) : Int) else (((h * 60 + m) * 60 : Nat) : Int)

theorem anonZone_iff {sg : Char} {h m : Nat} (hsg : sg = '+' ∨ sg = '-') (hm : m < 60) (c : Civil) (n : Nat) (st' : PState) (w : Str) :
    parseChunks [.blank, .numTZ] (stN c n) (w ++ ' ' :: sg :: zoneDigits h m) = some st' ↔
      (∀ x ∈ w, x = ' ') ∧ h ≤ 24 ∧ st' = stZ c n (tailOffset sg h m) false [] := by
  have fw : ∀ {w : Str}, (∀ x ∈ w, x = ' ') → h ≤ 24 →
      parseChunks [.blank, .numTZ] (stN c n) (w ++ ' ' :: sg :: zoneDigits h m) = some (stZ c n (tailOffset sg h m) false []) := by
    intro w hw h24
    rw [blank_absorb hw]
    exact zoneChunks_anon (stN c n) sg hsg h24 hm
  constructor
  · intro hp
    obtain ⟨hw, h24⟩ := anon_inv hsg hm hp
    rw [fw hw h24] at hp
    cases hp
    exact ⟨hw, h24, rfl⟩
  · rintro ⟨hw, h24, rfl⟩
    exact fw hw h24

theorem namedZone_iff {sg : Char} {h m : Nat} (hsg : sg = '+' ∨ sg = '-') (hm : m < 60) {nm : Str} (hcap : ∀ x ∈ nm, IsCapital x) (hne : nm ≠ [])
    (c : Civil) (n : Nat) (st' : PState) (w : Str) :
    parseChunks [.blank, .numTZ, .blank, .tz] (stN c n) (w ++ ' ' :: sg :: (zoneDigits h m ++ ' ' :: nm)) = some st' ↔
      (∀ x ∈ w, x = ' ') ∧ (h ≤ 24 ∧ ReadableZone nm) ∧
        st' = stZ c n (tailOffset sg h m) (decide (nm = "UTC".toList)) (if nm = "UTC".toList then [] else nm) := by
  have fw : ∀ {w : Str}, (∀ x ∈ w, x = ' ') → h ≤ 24 → ReadableZone nm →
      parseChunks [.blank, .numTZ, .blank, .tz] (stN c n) (w ++ ' ' :: sg :: (zoneDigits h m ++ ' ' :: nm)) =
        some (stZ c n (tailOffset sg h m) (decide (nm = "UTC".toList)) (if nm = "UTC".toList then [] else nm)) := by
    intro w hw h24 hr
    rw [blank_absorb hw]
    have := zoneChunks_named (stN c n) sg hsg h24 hm hr
    simp only at this
    refine Eq.trans this ?_
    by_cases hu : nm = "UTC".toList
    · rw [if_pos hu, if_pos hu]
      simp only [hu, decide_true]; rfl
    · rw [if_neg hu, if_neg hu]
      simp only [hu, decide_false]; rfl
  constructor
  · intro hp
    obtain ⟨hw, h24, hr⟩ := named_inv hsg hm hcap hne hp
    rw [fw hw h24 hr] at hp
    cases hp
    exact ⟨hw, ⟨h24, hr⟩, rfl⟩
  · rintro ⟨hw, ⟨h24, hr⟩, rfl⟩
    exact fw hw h24 hr

theorem sign_cases (z : Zone) : z.sign = '+' ∨ z.sign = '-' := by
  unfold Spec.Zone.sign
  by_cases h : z.west = true ∧ z.hours ≠ 0
  · rw [if_pos h]; exact Or.inr rfl
  · rw [if_neg h]; exact Or.inl rfl

theorem tailOffset_eq (z : Zone) (hu : z.name ≠ ['U', 'T', 'C']) : tailOffset z.sign z.hours (z.hundredths * 60 / 100) = z.readAs := by
  unfold tailOffset Zone.readAs Spec.Zone.sign
  rw [if_neg hu]
  have e : (z.hours * 60 + z.hundredths * 60 / 100) * 60 = z.hours * 3600 + z.hundredths * 60 / 100 * 60 := by
    rw [Nat.add_mul, Nat.mul_assoc]
  by_cases h : z.west = true ∧ z.hours ≠ 0
  · rw [if_pos h, if_pos rfl, if_pos h, e]; ring
  · rw [if_neg h, if_neg (by decide), if_neg h, e]; ring

/-- The name of the zone that a suffix denotes. -/
def zoneNamed (z : Zone) : Str := if z.name = [] ∧ z.readAs = 0 then ['G', 'M', 'T'] else z.name

theorem readAs_zero {z : Zone} (hn : z.name = []) : z.readAs = 0 ↔ z.hours = 0 ∧ z.hundredths * 60 / 100 = 0 := by
  unfold Zone.readAs
  rw [if_neg (by rw [hn]; simp)]
  by_cases h : z.west = true ∧ z.hours ≠ 0
  · rw [if_pos h]
    have := h.2
    omega
  · rw [if_neg h]
    omega

/-- Decoding with a zone suffix. -/
theorem zoned_iff (loc : LocalZone) (z : Zone) (hz : z.hundredths < 100) (hcap : ∀ x ∈ z.name, IsCapital x) (v : Str) (t : GoTime) :
    tryFormats loc (zoneTail z).2 (v ++ (zoneTail z).1) ofxDateFormats = .ok t ↔
      z.hours ≤ 24 ∧ (z.name = [] ∨ ReadableZone z.name) ∧ t.off = z.readAs ∧ t.zone = zoneShown loc t.ns t.off (zoneNamed z) ∧
        Core v t.ns t.off := by
  have hm : z.hundredths * 60 / 100 < 60 := by omega
  have hsg := sign_cases z
  by_cases hn : z.name = []
  · have hu : z.name ≠ ['U', 'T', 'C'] := by rw [hn]; simp
    by_cases h0 : z.hours = 0 ∧ z.hundredths * 60 / 100 = 0
    · have e : zoneTail z = (' ' :: z.sign :: (zoneDigits z.hours (z.hundredths * 60 / 100) ++ ' ' :: "GMT".toList), [.blank, .numTZ, .blank, .tz]) := by
        unfold zoneTail; rw [if_neg (by simp [hn]), if_pos h0]
      have hnm : zoneNamed z = "GMT".toList := by unfold zoneNamed; rw [if_pos ⟨hn, (readAs_zero hn).mpr h0⟩]; rfl
      rw [e, hnm]
      have := tryFormats_iff loc [.numTZ, .blank, .tz] (z.sign :: (zoneDigits z.hours (z.hundredths * 60 / 100) ++ ' ' :: "GMT".toList))
        (z.hours ≤ 24 ∧ ReadableZone "GMT".toList) _ _ _ (namedZone_iff hsg hm (by decide) (by decide)) v t
      refine this.trans ?_
      rw [show decide ("GMT".toList = "UTC".toList) = false from by decide, if_neg (by decide), if_neg (by decide), if_neg (by decide), tailOffset_eq z hu]
      constructor
      · rintro ⟨⟨h1, -⟩, h2, h3, h4⟩
        exact ⟨h1, Or.inl hn, h2, by rw [h3, h2], h4⟩
      · rintro ⟨h1, -, h2, h3, h4⟩
        exact ⟨⟨h1, gmt_readable⟩, h2, by rw [h3, h2], h4⟩
    · have e : zoneTail z = (' ' :: z.sign :: zoneDigits z.hours (z.hundredths * 60 / 100), [.blank, .numTZ]) := by
        unfold zoneTail; rw [if_neg (by simp [hn]), if_neg h0]
      have hnm : zoneNamed z = [] := by unfold zoneNamed; rw [if_neg (fun h => h0 ((readAs_zero hn).mp h.2)), hn]
      rw [e, hnm]
      have := tryFormats_iff loc [.numTZ] (z.sign :: zoneDigits z.hours (z.hundredths * 60 / 100))
        (z.hours ≤ 24) _ _ _ (anonZone_iff hsg hm) v t
      refine this.trans ?_
      rw [if_neg (by decide), if_neg (by decide), tailOffset_eq z hu]
      constructor
      · rintro ⟨h1, h2, h3, h4⟩
        exact ⟨h1, Or.inl hn, h2, by rw [h3, h2], h4⟩
      · rintro ⟨h1, -, h2, h3, h4⟩
        exact ⟨h1, h2, by rw [h3, h2], h4⟩
  · have e : zoneTail z = (' ' :: z.sign :: (zoneDigits z.hours (z.hundredths * 60 / 100) ++ ' ' :: z.name), [.blank, .numTZ, .blank, .tz]) := by
      unfold zoneTail; rw [if_pos hn]
    have hnm : zoneNamed z = z.name := by unfold zoneNamed; rw [if_neg (fun h => hn h.1)]
    rw [e, hnm]
    have := tryFormats_iff loc [.numTZ, .blank, .tz] (z.sign :: (zoneDigits z.hours (z.hundredths * 60 / 100) ++ ' ' :: z.name))
      (z.hours ≤ 24 ∧ ReadableZone z.name) _ _ _ (namedZone_iff hsg hm hcap hn) v t
    refine this.trans ?_
    have ho : (if (decide (z.name = "UTC".toList)) = true then 0 else tailOffset z.sign z.hours (z.hundredths * 60 / 100)) = z.readAs := by
      by_cases hu : z.name = ['U', 'T', 'C']
      · have : z.name = "UTC".toList := hu
        rw [if_pos (by simpa using this)]
        unfold Zone.readAs
        rw [if_pos hu]
      · have : ¬ z.name = "UTC".toList := hu
        rw [if_neg (by simpa using this), tailOffset_eq z hu]
    have hs : ∀ o, (if (decide (z.name = "UTC".toList)) = true then "UTC".toList
        else zoneShown loc t.ns (tailOffset z.sign z.hours (z.hundredths * 60 / 100)) (if z.name = "UTC".toList then [] else z.name)) =
        zoneShown loc t.ns o z.name := by
      intro o
      unfold zoneShown
      by_cases hu : z.name = "UTC".toList
      · rw [if_pos (by simpa using hu), if_pos hn, hu]
      · rw [if_neg (by simpa using hu), if_neg hu, if_pos hn, if_pos hn]
    rw [ho, hs t.off]
    constructor
    · rintro ⟨⟨h1, h1'⟩, h2, h3⟩
      exact ⟨h1, Or.inr h1', h2, h3⟩
    · rintro ⟨h1, h1', h2, h3⟩
      exact ⟨⟨h1, h1'.resolve_left hn⟩, h2, h3⟩

/-- Decoding without a zone suffix. -/
theorem plain_iff (loc : LocalZone) (v : Str) (t : GoTime) :
    tryFormats loc [.blank, .numTZ, .blank, .tz] (v ++ " +0000 GMT".toList) ofxDateFormats = .ok t ↔
      t.off = 0 ∧ t.zone = zoneShown loc t.ns t.off ['G', 'M', 'T'] ∧ Core v t.ns t.off := by
  have hz : zoneTail ⟨false, 0, 0, []⟩ = (" +0000 GMT".toList, [.blank, .numTZ, .blank, .tz]) := by
    unfold zoneTail
    rw [if_neg (by simp), if_pos (by simp)]
    have : zoneDigits 0 0 = ['0', '0', '0', '0'] := by
      unfold zoneDigits; rw [pad2 (by omega)]; rfl
    simp only [Nat.zero_mul, Nat.zero_div, this]
    rfl
  have := zoned_iff loc ⟨false, 0, 0, []⟩ (by decide) (by simp) v t
  rw [hz] at this
  refine this.trans ?_
  have h1 : (⟨false, 0, 0, []⟩ : Zone).readAs = 0 := by decide
  have h2 : zoneNamed ⟨false, 0, 0, []⟩ = ['G', 'M', 'T'] := by decide
  rw [h1, h2]
  simp

theorem splitC_cases (c : Char) (s : Str) :
    (c ∉ s ∧ splitC c s = (s, none)) ∨ ∃ a b, s = a ++ c :: b ∧ c ∉ a ∧ splitC c s = (a, some b) := by
  by_cases h : c ∈ s
  · right
    have key : ∃ a b, s = a ++ c :: b ∧ c ∉ a := by
      induction s with
      | nil => cases h
      | cons x xs ih =>
        by_cases hx : x = c
        · exact ⟨[], xs, by rw [hx]; rfl, by simp⟩
        · have hm : c ∈ xs := by simp only [List.mem_cons] at h; exact h.resolve_left (fun e => hx e.symm)
          obtain ⟨a', b', e', ha'⟩ := ih hm
          exact ⟨x :: a', b', by rw [e']; rfl, by simp [ha', Ne.symm hx]⟩
    obtain ⟨a, b, rfl, ha⟩ := key
    exact ⟨a, b, rfl, ha, splitC_append ha⟩
  · exact Or.inl ⟨h, splitC_none h⟩

/-- Core texts have no bracket. -/
theorem core_nobracket {v : Str} {i o : Int} (h : Core v i o) : '[' ∉ v ∧ ']' ∉ v := by
  obtain ⟨c, n, body, blanks, rfl, hM, hb, -⟩ := h
  constructor <;> intro hm <;> rcases List.mem_append.mp hm with hm | hm
  · exact (moment_chars hM _ hm).2.1 rfl
  · exact absurd (hb _ hm) (by decide)
  · exact (moment_chars hM _ hm).2.2 rfl
  · exact absurd (hb _ hm) (by decide)

/-- Exactly the texts that are read as dates. -/
theorem dateText_iff (loc : LocalZone) (text : Str) (t : GoTime) :
    Date.unmarshal loc text = .ok t ↔ ∃ name, DateText text t.ns t.off name ∧ t.zone = zoneShown loc t.ns t.off name := by
  -- the part before the first closing bracket
  have hhead : ∀ head tail : Str, text = head ++ tail → ']' ∉ head → (tail = [] ∨ tail.head? = some ']') → (splitC ']' text).1 = head := by
    rintro head tail rfl hb (rfl | ht)
    · rw [List.append_nil, splitC_none hb]
    · cases tail with
      | nil => cases ht
      | cons x xs =>
        cases ht
        rw [splitC_append hb]
  have hex : ∃ tail, text = (splitC ']' text).1 ++ tail ∧ ']' ∉ (splitC ']' text).1 ∧ (tail = [] ∨ tail.head? = some ']') := by
    rcases splitC_cases ']' text with ⟨h, e⟩ | ⟨a, b, h, ha, e⟩
    · rw [e]; exact ⟨[], by simp, h, Or.inl rfl⟩
    · rw [e]; exact ⟨']' :: b, h, ha, Or.inr rfl⟩
  have hspec : ∀ name, DateText text t.ns t.off name ↔ ∃ c n, c.Exists ∧ c.milli = 0 ∧
      ((MomentText c n (trimSpace (splitC ']' text).1) ∧ t.off = 0 ∧ name = ['G', 'M', 'T']) ∨
       ∃ body blanks zt z, trimSpace (splitC ']' text).1 = body ++ blanks ++ zt ∧ MomentText c n body ∧ (∀ x ∈ blanks, x = ' ') ∧ ZoneText z zt ∧
         z.hours ≤ 24 ∧ (z.name = [] ∨ ReadableZone z.name) ∧ t.off = z.readAs ∧ name = zoneNamed z) ∧ t.ns = c.instant t.off + n := by
    intro name
    constructor
    · rintro ⟨head, tail, core, c, n, h1, h2, h3, h4, h5, h6, h7, h8⟩
      rw [hhead head tail h1 h2 h3, (trimsTo_iff head core).mp h4]
      exact ⟨c, n, h5, h6, h7, h8⟩
    · rintro ⟨c, n, h5, h6, h7, h8⟩
      obtain ⟨tail, h1, h2, h3⟩ := hex
      exact ⟨_, tail, _, c, n, h1, h2, h3, (trimsTo_iff _ _).mpr rfl, h5, h6, h7, h8⟩
  simp only [hspec]
  unfold Date.unmarshal
  simp only
  have htrim := trimSpace_trimmed (splitC ']' text).1
  have hnob : ']' ∉ trimSpace (splitC ']' text).1 := by
    obtain ⟨tail, -, h2, -⟩ := hex
    obtain ⟨w, w', -, -, he⟩ := trimSpace_decomp (splitC ']' text).1
    intro hm
    apply h2
    rw [he]
    simp [hm]
  generalize trimSpace (splitC ']' text).1 = core at htrim hnob
  rcases splitC_cases '[' core with ⟨hb, e⟩ | ⟨v, zs, rfl, hv, e⟩
  · simp only [e]
    refine (plain_iff loc core t).trans ?_
    constructor
    · rintro ⟨h0, hzn, c, n, body, blanks, rfl, hM, hbl, hc, hm, hi⟩
      have hbn : blanks = [] := by
        rcases List.eq_nil_or_concat blanks with rfl | ⟨l, x, rfl⟩
        · rfl
        · exfalso
          have hx := hbl x (by simp)
          have := htrim.2 x (by simp)
          rw [hx] at this
          exact absurd this (by decide)
      subst hbn
      rw [List.append_nil]
      exact ⟨_, ⟨c, n, hc, hm, Or.inl ⟨hM, h0, rfl⟩, hi⟩, hzn⟩
    · rintro ⟨name, ⟨c, n, hc, hm, ⟨hM, h0, rfl⟩ | ⟨body, blanks, zt, z, rfl, hM, hbl, hz, h24, hn, ho, hnm⟩, hi⟩, hzn⟩
      · exact ⟨h0, hzn, c, n, core, [], by simp, hM, by simp, hc, hm, hi⟩
      · exfalso
        obtain ⟨_, _, _, _, rfl, -⟩ := hz
        exact hb (by simp)
  · simp only [e]
    have hrt : trimRightC ']' zs = zs := by
      unfold trimRightC
      apply trimRightP_eq_self
      intro x hx
      have : x ≠ ']' := by
        rintro rfl
        exact hnob (by simp [List.mem_of_getLast? hx])
      simp [this]
    rw [hrt]
    constructor
    · intro ht
      cases hz : zoneOf zs with
      | error e => rw [hz] at ht; cases ht
      | ok p =>
        obtain ⟨zone, fmt⟩ := p
        rw [hz] at ht
        simp only at ht
        obtain ⟨z, hzt, hcap, ez⟩ := zoneOf_inv hz
        have e1 : zone = (zoneTail z).1 := by rw [← ez]
        have e2 : fmt = (zoneTail z).2 := by rw [← ez]
        rw [e1, e2] at ht
        obtain ⟨h24, hn, ho, hzn, c, n, body, blanks, rfl, hM, hbl, hc, hm, hi⟩ :=
          (zoned_iff loc z (zoneText_hundredths hzt) hcap v t).mp ht
        exact ⟨_, ⟨c, n, hc, hm, Or.inr ⟨body, blanks, '[' :: zs, z, rfl, hM, hbl, hzt, h24, hn, ho, rfl⟩, hi⟩, hzn⟩
    · rintro ⟨name, ⟨c, n, hc, hm, ⟨hM, h0, -⟩ | ⟨body, blanks, zt, z, e', hM, hbl, hz, h24, hn, ho, rfl⟩, hi⟩, hzn⟩
      · exact absurd rfl (moment_chars hM '[' (by simp)).2.1
      · have hcap : ∀ x ∈ z.name, IsCapital x := by
          intro x hx
          rcases hn with h | h
          · rw [h] at hx; cases hx
          · exact h.1 x hx
        have hh := zoneText_hundredths hz
        obtain ⟨zs', rfl, hzo⟩ := zoneOf_fw hz h24 hcap
        have hcore : Core (body ++ blanks) t.ns t.off := ⟨c, n, body, blanks, rfl, hM, hbl, hc, hm, hi⟩
        have h3 : splitC '[' (body ++ blanks ++ '[' :: zs') = (body ++ blanks, some zs') := splitC_append (core_nobracket hcore).1
        rw [← e', e] at h3
        simp only [Prod.mk.injEq, Option.some.injEq] at h3
        obtain ⟨rfl, rfl⟩ := h3
        rw [hzo]
        exact (zoned_iff loc z hh hcap (body ++ blanks) t).mpr ⟨h24, hn, ho, hzn, hcore⟩

end Ofx
