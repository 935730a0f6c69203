import Verif.Lemmas.Header
import Verif.Lemmas.MsgSets
/-
The XML header loop accepts what Spec/Header.lean says.
-/
namespace Ofx
open Spec

theorem cut_first {x : Char} {xs a b : Str} (ha : x ∉ a) : cut (x :: xs) (a ++ (x :: xs) ++ b) = some (a, b) := by
  induction a with
  | nil =>
    have hp : (x :: xs).isPrefixOf ((x :: xs) ++ b) = true := List.isPrefixOf_iff_prefix.mpr (List.prefix_append ..)
    simp only [List.nil_append, List.cons_append] at hp ⊢
    rw [cut, if_pos hp]
    simp
  | cons y a ih =>
    have hy : x ≠ y := fun h => ha (by simp [h])
    have hp : ¬ (x :: xs).isPrefixOf (y :: (a ++ (x :: xs) ++ b)) = true := by
      rw [List.isPrefixOf_iff_prefix]
      intro h
      obtain ⟨t, ht⟩ := h
      simp only [List.cons_append, List.cons.injEq] at ht
      exact hy ht.1
    simp only [List.cons_append] at hp ih ⊢
    rw [cut, if_neg hp, ih (fun h => ha (List.mem_cons_of_mem _ h))]

theorem cut_single {x : Char} {s a b : Str} (h : cut [x] s = some (a, b)) : x ∉ a := by
  induction s generalizing a with
  | nil => simp [cut] at h
  | cons c s ih =>
    unfold cut at h
    by_cases hp : [x].isPrefixOf (c :: s) = true
    · rw [if_pos hp] at h
      cases h
      simp
    · rw [if_neg hp] at h
      cases hc : cut [x] s with
      | none => rw [hc] at h; cases h
      | some y =>
        obtain ⟨a', b'⟩ := y
        rw [hc] at h
        cases h
        have hne : x ≠ c := by
          rintro rfl
          exact hp (by simp [List.isPrefixOf])
        simp only [List.mem_cons, not_or]
        exact ⟨hne, ih hc⟩

/-- What the loop does with one attribute. -/
def attrStep (seen : Bool) (version : Option Nat) (header value : Str) : Option (Bool × Option Nat) :=
  if header = "OFXHEADER".toList then (if value ≠ "200".toList then none else some (true, version))
  else if header = "VERSION".toList then
    match enumOfxVersion.fromString value with
    | (_, some _) => none
    | (v, none) => if v < 5 then none else some (seen, some v)
  else if header = "SECURITY".toList then (if value ≠ "NONE".toList then none else some (seen, version))
  else if header = "OLDFILEUID".toList ∨ header = "NEWFILEUID".toList then some (seen, version)
  else none

theorem loop_step {seen : Bool} {version : Option Nat} {s h r v r' : Str} (hs : s ≠ [])
    (h1 : cut "=\"".toList s = some (h, r)) (h2 : cut "\"".toList r = some (v, r')) (res : Bool × Option Nat) :
    xmlHeaderLoop seen version s = .ok res ↔
      ∃ st, attrStep seen version h v = some st ∧ xmlHeaderLoop st.1 st.2 (trimSpace r') = .ok res := by
  cases s with
  | nil => exact absurd rfl hs
  | cons c cs =>
  rw [xmlHeaderLoop]
  split
  · rename_i h3; rw [h3] at h1; cases h1
  rename_i hd rest h3
  rw [h3] at h1
  cases h1
  split
  · rename_i h4; rw [h4] at h2; cases h2
  rename_i vl rest' h4
  rw [h4] at h2
  cases h2
  unfold attrStep
  by_cases c1 : h = "OFXHEADER".toList
  · rw [if_pos c1, if_pos c1]
    by_cases c2 : v = "200".toList
    · rw [if_neg (not_not.mpr c2), if_neg (not_not.mpr c2)]; simp
    · rw [if_pos c2, if_pos c2]; simp
  rw [if_neg c1, if_neg c1]
  by_cases c2 : h = "VERSION".toList
  · rw [if_pos c2, if_pos c2]
    cases hv : enumOfxVersion.fromString v with
    | mk n e =>
    cases e with
    | some e => simp
    | none =>
      simp only
      by_cases c3 : n < 5
      · rw [if_pos c3, if_pos c3]; simp
      · rw [if_neg c3, if_neg c3]; simp
  rw [if_neg c2, if_neg c2]
  by_cases c3 : h = "SECURITY".toList
  · rw [if_pos c3, if_pos c3]
    by_cases c4 : v = "NONE".toList
    · rw [if_neg (not_not.mpr c4), if_neg (not_not.mpr c4)]; simp
    · rw [if_pos c4, if_pos c4]; simp
  rw [if_neg c3, if_neg c3]
  by_cases c4 : h = "OLDFILEUID".toList ∨ h = "NEWFILEUID".toList
  · rw [if_pos c4, if_pos c4]; simp
  · rw [if_neg c4, if_neg c4]; simp

/-- The loop over a list of attributes. -/
def attrsRun : Bool → Option Nat → List (Str × Str) → Option (Bool × Option Nat)
  | seen, version, [] => some (seen, version)
  | seen, version, a :: as =>
    match attrStep seen version a.1 a.2 with
    | some st => attrsRun st.1 st.2 as
    | none => none

theorem attrStep_name {seen : Bool} {version : Option Nat} {h v : Str} {st : Bool × Option Nat}
    (hs : attrStep seen version h v = some st) :
    h = "OFXHEADER".toList ∨ h = "VERSION".toList ∨ h = "SECURITY".toList ∨ h = "OLDFILEUID".toList ∨ h = "NEWFILEUID".toList := by
  unfold attrStep at hs
  by_cases c1 : h = "OFXHEADER".toList
  · exact .inl c1
  rw [if_neg c1] at hs
  by_cases c2 : h = "VERSION".toList
  · exact .inr (.inl c2)
  rw [if_neg c2] at hs
  by_cases c3 : h = "SECURITY".toList
  · exact .inr (.inr (.inl c3))
  rw [if_neg c3] at hs
  by_cases c4 : h = "OLDFILEUID".toList ∨ h = "NEWFILEUID".toList
  · exact .inr (.inr (.inr c4))
  rw [if_neg c4] at hs
  cases hs

theorem loop_nil (seen : Bool) (version : Option Nat) : xmlHeaderLoop seen version [] = .ok (seen, version) := by
  rw [xmlHeaderLoop]

theorem trimSpace_eq_nil {s : Str} : trimSpace s = [] ↔ IsPadding s := by
  rw [← isBlank_text]
  simp [isBlank]

theorem trim_attr {w x t : Str} (hw : IsPadding w) (hx : x ≠ []) (h1 : ∀ c, x.head? = some c → isSpace c = false)
    (h2 : ∀ c, x.getLast? = some c → isSpace c = false) :
    trimSpace (w ++ x ++ t) = x ++ trimRightP isSpace t := by
  rw [isPadding_iff] at hw
  obtain ⟨c, cs, rfl⟩ := List.exists_cons_of_ne_nil hx
  unfold trimSpace trimLeftP
  rw [List.append_assoc, dropWhile_append_all hw, dropWhile_eq_self (by intro d hd; exact h1 d (by simpa using hd))]
  generalize c :: cs = x at *
  clear hw h1
  -- only the tail is trimmed
  unfold trimRightP
  rw [List.reverse_append]
  have : ∀ y : Str, (y ++ x.reverse).dropWhile isSpace = y.dropWhile isSpace ++ x.reverse := by
    intro y
    induction y with
    | nil =>
      simp only [List.nil_append, List.dropWhile_nil]
      apply dropWhile_eq_self
      intro d hd
      exact h2 d (by rw [List.head?_reverse] at hd; exact hd)
    | cons a y ih =>
      by_cases ha : isSpace a = true
      · simp only [List.cons_append, List.dropWhile_cons, ha, if_true]
        exact ih
      · simp [ha]
  rw [this, List.reverse_append, List.reverse_reverse]

theorem trim_trimRight (t : Str) : trimSpace (trimRightP isSpace t) = trimSpace t := by
  have hd : t = trimRightP isSpace t ++ (t.reverse.takeWhile isSpace).reverse := by
    unfold trimRightP
    rw [← List.reverse_append, List.takeWhile_append_dropWhile, List.reverse_reverse]
  conv_rhs => rw [hd]
  have := trimSpace_pad' [] (trimRightP isSpace t) (t.reverse.takeWhile isSpace).reverse (by intro c hc; cases hc)
    (by intro c hc; exact mem_takeWhile_imp (by simpa using hc))
  simpa using this.symm

theorem attrText_pad {attrs : List (Str × Str)} {s w : Str} (h : AttrText attrs s) (hw : IsPadding w) :
    AttrText attrs (s ++ w) := by
  induction attrs generalizing s with
  | nil =>
    unfold AttrText at h ⊢
    rw [isPadding_iff] at *
    exact h.append hw
  | cons a attrs ih =>
    obtain ⟨n, v⟩ := a
    unfold AttrText at h ⊢
    obtain ⟨w1, rest, rfl, h1, h2⟩ := h
    exact ⟨w1, rest ++ w, by simp, h1, ih h2⟩

theorem loop_sound {n : Nat} {seen : Bool} {version : Option Nat} {s : Str} {res : Bool × Option Nat} (hn : s.length ≤ n)
    (h : xmlHeaderLoop seen version (trimSpace s) = .ok res) :
    ∃ attrs, AttrText attrs s ∧ (∀ a ∈ attrs, '"' ∉ a.2) ∧ attrsRun seen version attrs = some res := by
  induction n generalizing seen version s with
  | zero =>
    have : s = [] := List.length_eq_zero_iff.mp (Nat.le_zero.mp hn)
    subst this
    have h' : xmlHeaderLoop seen version [] = .ok res := h
    rw [loop_nil] at h'
    cases h'
    exact ⟨[], (by unfold AttrText; rw [isPadding_iff]; intro c hc; cases hc), by simp, rfl⟩
  | succ n ih =>
    by_cases hs : trimSpace s = []
    · rw [hs, loop_nil] at h
      cases h
      exact ⟨[], by unfold AttrText; exact trimSpace_eq_nil.mp hs, by simp, rfl⟩
    obtain ⟨hd, r, h1⟩ : ∃ hd r, cut "=\"".toList (trimSpace s) = some (hd, r) := by
      cases hc : cut "=\"".toList (trimSpace s) with
      | some x => exact ⟨x.1, x.2, rfl⟩
      | none =>
        exfalso
        generalize trimSpace s = t at *
        cases t with
        | nil => exact hs rfl
        | cons c cs =>
        rw [xmlHeaderLoop] at h
        split at h
        · cases h
        · rename_i h3; rw [h3] at hc; cases hc
    obtain ⟨v, r', h2⟩ : ∃ v r', cut "\"".toList r = some (v, r') := by
      cases hc : cut "\"".toList r with
      | some x => exact ⟨x.1, x.2, rfl⟩
      | none =>
        exfalso
        generalize trimSpace s = t at *
        cases t with
        | nil => exact hs rfl
        | cons c cs =>
        rw [xmlHeaderLoop] at h
        split at h
        · cases h
        · rename_i h3
          rw [h3] at h1
          cases h1
          split at h
          · cases h
          · rename_i h4; rw [h4] at hc; cases hc
    obtain ⟨st, hst, hrun⟩ := (loop_step hs h1 h2 res).mp h
    have e1 := cut_eq h1
    have e2 := cut_eq h2
    obtain ⟨w, w', hw, hw', hd'⟩ := trimSpace_decomp s
    have hlen := trimSpace_length s
    have l1 := congrArg List.length e1
    have l2 := congrArg List.length e2
    have k1 : "=\"".toList.length = 2 := rfl
    have k2 : "\"".toList.length = 1 := rfl
    simp only [List.length_append, k1, k2] at l1 l2
    obtain ⟨attrs, g1, g2, g3⟩ := ih (by omega) hrun
    refine ⟨(hd, v) :: attrs, ?_, ?_, ?_⟩
    · unfold AttrText
      refine ⟨w, r' ++ w', ?_, (isPadding_iff ..).mpr hw, attrText_pad g1 ((isPadding_iff ..).mpr hw')⟩
      conv_lhs => rw [hd', e1, e2]
      simp only [List.append_assoc]
    · intro a ha
      rcases List.mem_cons.mp ha with rfl | ha
      · exact cut_single h2
      · exact g2 a ha
    · simp only [attrsRun, hst]
      exact g3

theorem loop_complete {attrs : List (Str × Str)} {seen : Bool} {version : Option Nat} {s : Str} {res : Bool × Option Nat}
    (h : AttrText attrs s) (hq : ∀ a ∈ attrs, '"' ∉ a.2) (hr : attrsRun seen version attrs = some res) :
    xmlHeaderLoop seen version (trimSpace s) = .ok res := by
  induction attrs generalizing seen version s with
  | nil =>
    unfold AttrText at h
    rw [trimSpace_eq_nil.mpr h, loop_nil]
    simp only [attrsRun] at hr
    cases hr
    rfl
  | cons a attrs ih =>
    obtain ⟨n, v⟩ := a
    unfold AttrText at h
    obtain ⟨w, rest, rfl, h1, h2⟩ := h
    simp only [attrsRun] at hr
    cases hst : attrStep seen version n v with
    | none => rw [hst] at hr; cases hr
    | some st =>
    rw [hst] at hr
    have hname := attrStep_name hst
    have hn1 : n ≠ [] ∧ (∀ c, n.head? = some c → isSpace c = false) ∧ '=' ∉ n := by
      rcases hname with rfl | rfl | rfl | rfl | rfl <;>
        exact ⟨by decide +kernel, by intro c hc; cases hc; decide +kernel, by decide +kernel⟩
    obtain ⟨hn1, hn2, hn3⟩ := hn1
    have ht := trim_attr (w := w) (x := n ++ "=\"".toList ++ v ++ "\"".toList) (t := rest) h1 (by simp)
      (by
        intro c hc
        apply hn2 c
        obtain ⟨d, ds, rfl⟩ := List.exists_cons_of_ne_nil hn1
        simpa using hc)
      (by
        intro c hc
        rw [List.getLast?_append] at hc
        cases hc
        decide +kernel)
    have e : w ++ n ++ "=\"".toList ++ v ++ "\"".toList ++ rest = w ++ (n ++ "=\"".toList ++ v ++ "\"".toList) ++ rest := by
      simp only [List.append_assoc]
    rw [e, ht]
    refine (loop_step (h := n) (r := v ++ "\"".toList ++ trimRightP isSpace rest) (v := v) (r' := trimRightP isSpace rest)
      (by simp) ?_ ?_ res).mpr ⟨st, hst, ?_⟩
    · have := cut_first (x := '=') (xs := ['"']) (b := v ++ "\"".toList ++ trimRightP isSpace rest) hn3
      simp only [List.append_assoc] at this ⊢
      exact this
    · have := cut_first (x := '"') (xs := []) (b := trimRightP isSpace rest) (hq (n, v) (by simp))
      simp only [List.append_assoc] at this ⊢
      exact this
    · rw [trim_trimRight]
      exact ih h2 (fun a ha => hq a (List.mem_cons_of_mem _ ha)) hr

theorem isPadding_trim {s t : Str} (ht : Trimmed t) :
    trimSpace s = t ↔ ∃ w w', s = w ++ t ++ w' ∧ IsPadding w ∧ IsPadding w' := by
  constructor
  · rintro rfl
    obtain ⟨w, w', hw, hw', hd⟩ := trimSpace_decomp s
    exact ⟨w, w', hd, (isPadding_iff ..).mpr hw, (isPadding_iff ..).mpr hw'⟩
  · rintro ⟨w, w', rfl, hw, hw'⟩
    exact trimSpace_pad ((isPadding_iff ..).mp hw) ((isPadding_iff ..).mp hw') ht

/-- FromString accepts the XML versions of the specification. -/
theorem version_xml (value : Str) (v : Nat) :
    (enumOfxVersion.fromString value = (v, none) ∧ 5 ≤ v) ↔ ∃ n, v = n + 5 ∧ StatesVersion n value := by
  rw [ofxVersion_good.fromString_iff, ofxVersion_good.valid_iff]
  have hn : enumOfxVersion.names = ["102".toList, "103".toList, "151".toList, "160".toList, "200".toList, "201".toList,
    "202".toList, "203".toList, "210".toList, "211".toList, "220".toList] := rfl
  rw [hn]
  have hx : ∀ n, (["102".toList, "103".toList, "151".toList, "160".toList, "200".toList, "201".toList,
    "202".toList, "203".toList, "210".toList, "211".toList, "220".toList])[n + 5 - 1]? = xmlVersions[n]?.map String.toList := by
    intro n
    rw [← List.getElem?_map]
    rfl
  have ht : ∀ (n : Nat) (x : String), xmlVersions[n]? = some x → Trimmed x.toList := by
    intro n x hx
    have : x ∈ xmlVersions := List.mem_of_getElem? hx
    simp only [xmlVersions, List.mem_cons, List.not_mem_nil, or_false] at this
    rcases this with rfl | rfl | rfl | rfl | rfl | rfl | rfl <;>
      exact ⟨by intro c hc; cases hc; decide +kernel, by intro c hc; cases hc; decide +kernel⟩
  constructor
  · rintro ⟨⟨⟨h1, h1'⟩, h2⟩, h3⟩
    refine ⟨v - 5, by omega, ?_⟩
    have hv : v = v - 5 + 5 := by omega
    rw [hv, hx] at h2
    cases hs : xmlVersions[v - 5]? with
    | none => rw [hs] at h2; cases h2
    | some x =>
      rw [hs] at h2
      have : x.toList = trimSpace value := Option.some.inj h2
      exact ⟨x, hs, (isPadding_trim (ht _ x hs)).mp this.symm⟩
  · rintro ⟨n, rfl, x, hs, h⟩
    have hs' : xmlVersions[n]? = some x := hs
    have hlt : n < 7 := by
      by_contra hc
      rw [List.getElem?_eq_none (by simp [xmlVersions]; omega)] at hs'
      cases hs'
    refine ⟨⟨⟨by omega, by simp; omega⟩, ?_⟩, by omega⟩
    rw [hx, hs', (isPadding_trim (ht _ x hs)).mpr h]
    rfl

theorem attrStep_iff (seen : Bool) (version : Option Nat) (h v : Str) (st : Bool × Option Nat) :
    attrStep seen version h v = some st ↔
      (h = "OFXHEADER".toList ∧ v = "200".toList ∧ st = (true, version)) ∨
      (h = "VERSION".toList ∧ ∃ n, StatesVersion n v ∧ st = (seen, some (n + 5))) ∨
      (h = "SECURITY".toList ∧ v = "NONE".toList ∧ st = (seen, version)) ∨
      ((h = "OLDFILEUID".toList ∨ h = "NEWFILEUID".toList) ∧ st = (seen, version)) := by
  have ne1 : "VERSION".toList ≠ "OFXHEADER".toList := by decide
  have ne2 : "SECURITY".toList ≠ "OFXHEADER".toList := by decide
  have ne3 : "SECURITY".toList ≠ "VERSION".toList := by decide
  have ne4 : ∀ x, (x = "OLDFILEUID".toList ∨ x = "NEWFILEUID".toList) →
      x ≠ "OFXHEADER".toList ∧ x ≠ "VERSION".toList ∧ x ≠ "SECURITY".toList := by
    rintro x (rfl | rfl) <;> decide
  unfold attrStep
  constructor
  · intro hs
    by_cases c1 : h = "OFXHEADER".toList
    · rw [if_pos c1] at hs
      by_cases c2 : v = "200".toList
      · rw [if_neg (not_not.mpr c2)] at hs
        cases hs
        exact .inl ⟨c1, c2, rfl⟩
      · rw [if_pos c2] at hs; cases hs
    rw [if_neg c1] at hs
    by_cases c2 : h = "VERSION".toList
    · rw [if_pos c2] at hs
      cases hv : enumOfxVersion.fromString v with
      | mk n e =>
      rw [hv] at hs
      cases e with
      | some e => cases hs
      | none =>
        simp only at hs
        by_cases c3 : n < 5
        · rw [if_pos c3] at hs; cases hs
        · rw [if_neg c3] at hs
          cases hs
          obtain ⟨k, hk, hsv⟩ := (version_xml v n).mp ⟨hv, by omega⟩
          exact .inr (.inl ⟨c2, k, hsv, by rw [hk]⟩)
    rw [if_neg c2] at hs
    by_cases c3 : h = "SECURITY".toList
    · rw [if_pos c3] at hs
      by_cases c4 : v = "NONE".toList
      · rw [if_neg (not_not.mpr c4)] at hs
        cases hs
        exact .inr (.inr (.inl ⟨c3, c4, rfl⟩))
      · rw [if_pos c4] at hs; cases hs
    rw [if_neg c3] at hs
    by_cases c4 : h = "OLDFILEUID".toList ∨ h = "NEWFILEUID".toList
    · rw [if_pos c4] at hs
      cases hs
      exact .inr (.inr (.inr ⟨c4, rfl⟩))
    · rw [if_neg c4] at hs; cases hs
  · rintro (⟨rfl, rfl, rfl⟩ | ⟨rfl, n, hn, rfl⟩ | ⟨rfl, rfl, rfl⟩ | ⟨h4, rfl⟩)
    · rw [if_pos rfl, if_neg (not_not.mpr rfl)]
    · rw [if_neg ne1, if_pos rfl]
      obtain ⟨hv, h5⟩ := (version_xml v (n + 5)).mpr ⟨n, rfl, hn⟩
      rw [hv]
      simp only
      rw [if_neg (by omega)]
    · rw [if_neg ne2, if_neg ne3, if_pos rfl, if_neg (not_not.mpr rfl)]
    · obtain ⟨a, b, c⟩ := ne4 h h4
      rw [if_neg a, if_neg b, if_neg c, if_pos h4]

/-- The version after the attributes. -/
def EndsWith (attrs : List (Str × Str)) (version res : Option Nat) : Prop :=
  (∃ n pre value post, attrs = pre ++ ("VERSION".toList, value) :: post ∧ (∀ a ∈ post, a.1 ≠ "VERSION".toList) ∧
    StatesVersion n value ∧ res = some (n + 5)) ∨
  ((∀ a ∈ attrs, a.1 ≠ "VERSION".toList) ∧ res = version)

/-- Acceptable attributes, but for the quote. -/
def AttrOk (a : Str × Str) : Prop :=
  (a.1 = "OFXHEADER".toList ∧ a.2 = "200".toList) ∨
   (a.1 = "VERSION".toList ∧ ∃ n, StatesVersion n a.2) ∨
   (a.1 = "SECURITY".toList ∧ a.2 = "NONE".toList) ∨
   a.1 = "OLDFILEUID".toList ∨ a.1 = "NEWFILEUID".toList

theorem attrsRun_iff (seen : Bool) (version : Option Nat) (attrs : List (Str × Str)) (st : Bool × Option Nat) :
    attrsRun seen version attrs = some st ↔
      (∀ a ∈ attrs, AttrOk a) ∧ (st.1 = true ↔ seen = true ∨ ∃ a ∈ attrs, a.1 = "OFXHEADER".toList) ∧
      EndsWith attrs version st.2 := by
  induction attrs generalizing seen version with
  | nil =>
    simp only [attrsRun, Option.some.injEq]
    constructor
    · rintro rfl
      exact ⟨by simp, by simp, .inr ⟨by simp, rfl⟩⟩
    · rintro ⟨-, h1, h2⟩
      obtain ⟨a, b⟩ := st
      rcases h2 with ⟨n, pre, value, post, he, -⟩ | ⟨-, h2⟩
      · simp at he
      · simp only at h1 h2
        rw [h2]
        congr 1
        simp at h1
        cases seen <;> cases a <;> simp_all
  | cons a attrs ih =>
    obtain ⟨h, v⟩ := a
    simp only [attrsRun]
    have ne1 : "VERSION".toList ≠ "OFXHEADER".toList := by decide
    have ne2 : "SECURITY".toList ≠ "OFXHEADER".toList ∧ "SECURITY".toList ≠ "VERSION".toList := by decide
    have ne4 : ∀ x, (x = "OLDFILEUID".toList ∨ x = "NEWFILEUID".toList) →
        x ≠ "OFXHEADER".toList ∧ x ≠ "VERSION".toList ∧ x ≠ "SECURITY".toList := by
      rintro x (rfl | rfl) <;> decide
    -- attributes other than VERSION
    have other : h ≠ "VERSION".toList → ∀ res, EndsWith ((h, v) :: attrs) version res ↔ EndsWith attrs version res := by
      intro hne res
      constructor
      · rintro (⟨n, pre, value, post, he, hp, hs, hr⟩ | ⟨hp, hr⟩)
        · cases pre with
          | nil =>
            simp only [List.nil_append, List.cons.injEq, Prod.mk.injEq] at he
            exact absurd he.1.1 hne
          | cons b pre =>
            simp only [List.cons_append, List.cons.injEq] at he
            exact .inl ⟨n, pre, value, post, he.2, hp, hs, hr⟩
        · exact .inr ⟨fun a ha => hp a (List.mem_cons_of_mem _ ha), hr⟩
      · rintro (⟨n, pre, value, post, he, hp, hs, hr⟩ | ⟨hp, hr⟩)
        · exact .inl ⟨n, (h, v) :: pre, value, post, by rw [he]; rfl, hp, hs, hr⟩
        · refine .inr ⟨?_, hr⟩
          intro a ha
          rcases List.mem_cons.mp ha with rfl | ha
          · exact hne
          · exact hp a ha
    constructor
    · intro hr
      cases hst : attrStep seen version h v with
      | none => rw [hst] at hr; cases hr
      | some st1 =>
      rw [hst] at hr
      obtain ⟨g1, g2, g3⟩ := (ih st1.1 st1.2).mp hr
      rcases (attrStep_iff ..).mp hst with ⟨rfl, rfl, rfl⟩ | ⟨rfl, n, hn, rfl⟩ | ⟨rfl, rfl, rfl⟩ | ⟨h4, rfl⟩
      · refine ⟨?_, ?_, (other ne1.symm _).mpr g3⟩
        · intro a ha
          rcases List.mem_cons.mp ha with rfl | ha
          · exact .inl ⟨rfl, rfl⟩
          · exact g1 a ha
        · constructor
          · intro _; exact .inr ⟨_, List.mem_cons_self .., rfl⟩
          · intro _; exact g2.mpr (.inl rfl)
      · refine ⟨?_, ?_, ?_⟩
        · intro a ha
          rcases List.mem_cons.mp ha with rfl | ha
          · exact .inr (.inl ⟨rfl, n, hn⟩)
          · exact g1 a ha
        · rw [g2]
          simp
        · rcases g3 with ⟨m, pre, value, post, he, hp, hs, hr⟩ | ⟨hp, hr⟩
          · exact .inl ⟨m, ("VERSION".toList, v) :: pre, value, post, by rw [he]; rfl, hp, hs, hr⟩
          · exact .inl ⟨n, [], v, attrs, rfl, hp, hn, hr⟩
      · refine ⟨?_, ?_, (other ne2.2 _).mpr g3⟩
        · intro a ha
          rcases List.mem_cons.mp ha with rfl | ha
          · exact .inr (.inr (.inl ⟨rfl, rfl⟩))
          · exact g1 a ha
        · rw [g2]
          simp
      · obtain ⟨n1, n2, n3⟩ := ne4 h h4
        refine ⟨?_, ?_, (other n2 _).mpr g3⟩
        · intro a ha
          rcases List.mem_cons.mp ha with rfl | ha
          · exact .inr (.inr (.inr h4))
          · exact g1 a ha
        · rw [g2]
          constructor
          · rintro (h | ⟨a, ha, hn⟩)
            · exact .inl h
            · exact .inr ⟨a, List.mem_cons_of_mem _ ha, hn⟩
          · rintro (h | ⟨a, ha, hn⟩)
            · exact .inl h
            · rcases List.mem_cons.mp ha with rfl | ha
              · exact absurd hn n1
              · exact .inr ⟨a, ha, hn⟩
    · rintro ⟨g1, g2, g3⟩
      have ht : ∀ a ∈ attrs, AttrOk a := fun a ha => g1 a (List.mem_cons_of_mem _ ha)
      have hseen : h ≠ "OFXHEADER".toList →
          (st.1 = true ↔ seen = true ∨ ∃ a ∈ attrs, a.1 = "OFXHEADER".toList) := by
        intro hne
        rw [g2]
        constructor
        · rintro (h | ⟨a, ha, hn⟩)
          · exact .inl h
          · rcases List.mem_cons.mp ha with rfl | ha
            · exact absurd hn hne
            · exact .inr ⟨a, ha, hn⟩
        · rintro (h | ⟨a, ha, hn⟩)
          · exact .inl h
          · exact .inr ⟨a, List.mem_cons_of_mem _ ha, hn⟩
      have hr : ∀ st1, attrStep seen version h v = some st1 → attrsRun st1.1 st1.2 attrs = some st →
          (match attrStep seen version h v with
            | some st => attrsRun st.1 st.2 attrs
            | none => none) = some st := by
        intro st1 e1 e2
        rw [e1]
        exact e2
      rcases g1 (h, v) (List.mem_cons_self ..) with ⟨e1, e2⟩ | ⟨e1, n, hn⟩ | ⟨e1, e2⟩ | h4
      · simp only at e1 e2
        subst e1 e2
        refine hr (true, version) ((attrStep_iff ..).mpr (.inl ⟨rfl, rfl, rfl⟩)) ((ih ..).mpr ⟨ht, ?_, (other ne1.symm _).mp g3⟩)
        constructor
        · intro _; exact .inl rfl
        · intro _; exact g2.mpr (.inr ⟨_, List.mem_cons_self .., rfl⟩)
      · simp only at e1 hn
        subst e1
        rcases g3 with ⟨m, pre, value, post, he, hp, hs, hres⟩ | ⟨hp, -⟩
        · cases pre with
          | nil =>
            simp only [List.nil_append, List.cons.injEq, Prod.mk.injEq, true_and] at he
            obtain ⟨rfl, rfl⟩ := he
            exact hr (seen, some (m + 5)) ((attrStep_iff ..).mpr (.inr (.inl ⟨rfl, m, hs, rfl⟩)))
              ((ih ..).mpr ⟨ht, hseen ne1, .inr ⟨hp, hres⟩⟩)
          | cons b pre =>
            simp only [List.cons_append, List.cons.injEq] at he
            exact hr (seen, some (n + 5)) ((attrStep_iff ..).mpr (.inr (.inl ⟨rfl, n, hn, rfl⟩)))
              ((ih ..).mpr ⟨ht, hseen ne1, .inl ⟨m, pre, value, post, he.2, hp, hs, hres⟩⟩)
        · exact absurd rfl (hp _ (List.mem_cons_self ..))
      · simp only at e1 e2
        subst e1 e2
        exact hr (seen, version) ((attrStep_iff ..).mpr (.inr (.inr (.inl ⟨rfl, rfl, rfl⟩))))
          ((ih ..).mpr ⟨ht, hseen ne2.1, (other ne2.2 _).mp g3⟩)
      · have n4 := ne4 h h4
        exact hr (seen, version) ((attrStep_iff ..).mpr (.inr (.inr (.inr ⟨h4, rfl⟩))))
          ((ih ..).mpr ⟨ht, hseen n4.1, (other n4.2.1 _).mp g3⟩)

/-- `checkXMLHeader` accepts exactly the supported headers. -/
theorem checkXML_iff (inst : Str) (v : Nat) :
    checkXMLHeader inst = .ok v ↔ ∃ n attrs, v = n + 5 ∧ AttrText attrs inst ∧ XMLHeader n attrs := by
  constructor
  · intro h
    unfold checkXMLHeader at h
    cases hl : xmlHeaderLoop false none (trimSpace inst) with
    | error e => rw [hl] at h; cases h
    | ok r =>
    obtain ⟨seen, version⟩ := r
    rw [hl] at h
    cases seen with
    | false => cases h
    | true =>
    cases version with
    | none => cases h
    | some v' =>
    cases h
    obtain ⟨attrs, h1, h2, h3⟩ := loop_sound (Nat.le_refl _) hl
    obtain ⟨g1, g2, g3⟩ := (attrsRun_iff ..).mp h3
    rcases g3 with ⟨n, pre, value, post, he, hp, hs, hres⟩ | ⟨-, hres⟩
    · cases hres
      refine ⟨n, attrs, rfl, h1, fun a ha => ⟨h2 a ha, g1 a ha⟩, ?_, pre, value, post, he, hp, hs⟩
      rcases g2.mp rfl with h | h
      · cases h
      · exact h
    · cases hres
  · rintro ⟨n, attrs, rfl, h1, g1, g2, pre, value, post, he, hp, hs⟩
    have := loop_complete (seen := false) (version := none) (res := (true, some (n + 5))) h1 (fun a ha => (g1 a ha).1)
      ((attrsRun_iff ..).mpr ⟨fun a ha => (g1 a ha).2, by simpa using g2, .inl ⟨n, pre, value, post, he, hp, hs, rfl⟩⟩)
    unfold checkXMLHeader
    rw [this]
    rfl

end Ofx
