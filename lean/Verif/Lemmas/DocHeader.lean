import Verif.Lemmas.XmlHeader
import Verif.Lemmas.Utf8
import Verif.Lemmas.Lexer
/-
Classification of documents and the way to their body.
-/
namespace Ofx
open Spec

theorem indexOf_cut (sub s : Str) : indexOf sub s = (cut sub s).map (·.1.length) := by
  induction s with
  | nil =>
    unfold indexOf cut
    by_cases h : sub.isEmpty = true
    · rw [if_pos h, if_pos h]; rfl
    · rw [if_neg h, if_neg h]; rfl
  | cons c s ih =>
    unfold indexOf cut
    by_cases h : sub.isPrefixOf (c :: s) = true
    · rw [if_pos h, if_pos h]; rfl
    · rw [if_neg h, if_neg h, ih]
      cases cut sub s with
      | none => rfl
      | some x => rfl

theorem indexOf_some {sub s : Str} {i : Nat} (h : indexOf sub s = some i) :
    ∃ a b, s = a ++ sub ++ b ∧ a.length = i := by
  rw [indexOf_cut] at h
  cases hc : cut sub s with
  | none => rw [hc] at h; cases h
  | some x =>
    rw [hc] at h
    cases h
    exact ⟨x.1, x.2, cut_eq hc, rfl⟩

theorem indexOf_prefix {sub s : Str} (hs : sub <+: s) : indexOf sub s = some 0 := by
  obtain ⟨t, rfl⟩ := hs
  cases sub with
  | nil =>
    cases t with
    | nil => rfl
    | cons c t =>
      rw [List.nil_append, indexOf]
      rw [if_pos (by simp [List.isPrefixOf])]
  | cons c sub =>
    rw [List.cons_append, indexOf]
    rw [if_pos]
    rw [List.isPrefixOf_iff_prefix]
    exact ⟨t, rfl⟩

/-- A document beginning with the keyword of SGML headers is classified as such. -/
theorem guess_sgml {s : Str} (h : "OFXHEADER:".toList <+: s) : guessVersion s = false := by
  unfold guessVersion
  rw [indexOf_prefix h]
  simp only
  cases hx : indexOf "OFXHEADER=".toList s with
  | none => rfl
  | some x =>
    obtain ⟨a, b, hs, hl⟩ := indexOf_some hx
    simp only [decide_eq_false_iff_not]
    intro hle
    have : a = [] := List.length_eq_zero_iff.mp (by omega)
    subst this
    obtain ⟨t, ht⟩ := h
    rw [hs] at ht
    simp at ht

theorem take_prefix {p s : Str} {n : Nat} (h : p <+: s) (hn : p.length ≤ n) : p <+: s.take n := by
  obtain ⟨t, rfl⟩ := h
  rw [List.take_append, List.take_of_length_le hn]
  exact List.prefix_append ..

theorem sgml_prefix {n : Nat} {s : Str} (h : SGMLHeader n s) : "OFXHEADER:".toList <+: s := by
  obtain ⟨v, -, d, e, f, i, j, hT, -⟩ := h
  unfold HeaderText at hT
  obtain ⟨w, w', rest, rfl, -⟩ := hT
  refine ⟨w ++ "100".toList ++ w' ++ rest, ?_⟩
  simp

theorem latin1_byte (b : UInt8) : (Char.ofNat b.toNat).toNat = b.toNat := by
  have h : b.toNat < 256 := b.toNat_lt
  have hv : Nat.isValidChar b.toNat := .inl (by omega)
  rw [Char.ofNat, dif_pos hv]
  rfl

theorem latin1_inj {a b : UInt8} (h : Char.ofNat a.toNat = Char.ofNat b.toNat) : a = b := by
  have := congrArg Char.toNat h
  rw [latin1_byte, latin1_byte] at this
  exact UInt8.toNat_inj.mp this

/-- The byte of '<'. -/
def ltByte : UInt8 := 60

theorem readSlice_ok {head rest : List UInt8} (h1 : ltByte ∉ head) (h2 : head.length < 1024) :
    readSlice (head ++ ltByte :: rest) = .ok (latin1 head ++ ['<'], ltByte :: rest) := by
  unfold readSlice
  have hnot : '<' ∉ latin1 head := by
    intro hm
    obtain ⟨b, hb, he⟩ := List.mem_map.mp hm
    exact h1 (latin1_inj (a := b) (b := ltByte) he ▸ hb)
  have e : latin1 ((head ++ ltByte :: rest).take 1024) = latin1 head ++ ['<'] ++ latin1 (rest.take (1024 - head.length - 1)) := by
    rw [List.take_append, List.take_of_length_le (by omega), latin1_append]
    obtain ⟨k, hk⟩ : ∃ k, 1024 - head.length = k + 1 := ⟨1024 - head.length - 1, by omega⟩
    rw [hk, List.take_succ_cons]
    simp [latin1, ltByte]
  rw [e, indexOf_cut, cut_first hnot]
  simp only [Option.map_some, latin1_length]
  have e1 : (head ++ ltByte :: rest).take (head.length + 1) = head ++ [ltByte] := by
    rw [List.take_append, List.take_of_length_le (by omega)]
    simp
  have e2 : (head ++ ltByte :: rest).drop head.length = ltByte :: rest := List.drop_left
  rw [e1, e2, latin1_append]
  rfl

theorem readSlice_some {bs rest : List UInt8} {s : Str} (h : readSlice bs = .ok (s, rest)) :
    ∃ head tail, bs = head ++ ltByte :: tail ∧ ltByte ∉ head ∧ head.length < 1024 ∧ s = latin1 head ++ ['<'] ∧
      rest = ltByte :: tail := by
  have key : ∃ head tail, bs = head ++ ltByte :: tail ∧ ltByte ∉ head ∧ head.length < 1024 := by
    unfold readSlice at h
    cases hi : indexOf ['<'] (latin1 (bs.take 1024)) with
    | none => rw [hi] at h; cases h
    | some i =>
      rw [indexOf_cut] at hi
      cases hc : cut ['<'] (latin1 (bs.take 1024)) with
      | none => rw [hc] at hi; cases hi
      | some x =>
        obtain ⟨a, b⟩ := x
        have e1 := cut_eq hc
        have e2 := cut_single hc
        have hlen := congrArg List.length e1
        simp only [latin1_length, List.length_append, List.length_cons, List.length_nil, List.length_take] at hlen
        have hl : a.length < bs.length ∧ a.length < 1024 := by omega
        refine ⟨bs.take a.length, bs.drop (a.length + 1), ?_, ?_, ?_⟩
        · have hb : bs[a.length]? = some ltByte := by
            have := congrArg (fun l => l[a.length]?) e1
            simp only [latin1, List.map_take, List.getElem?_take, if_pos hl.2, List.append_assoc,
              List.getElem?_append_right (Nat.le_refl _), Nat.sub_self] at this
            rw [List.getElem?_eq_getElem (by simpa using hl.1)] at this
            simp only [List.getElem_map, List.cons_append, List.getElem?_cons_zero, Option.some.injEq] at this
            rw [List.getElem?_eq_getElem hl.1, latin1_inj (b := ltByte) this]
          have hb' : bs[a.length]'hl.1 = ltByte := by
            rw [List.getElem?_eq_getElem hl.1] at hb
            exact Option.some.inj hb
          conv_lhs => rw [← List.take_append_drop a.length bs, List.drop_eq_getElem_cons hl.1, hb']
        · intro hm
          apply e2
          have e3 : latin1 (bs.take a.length) = a := by
            have := congrArg (List.take a.length) e1
            rw [← latin1_take, List.take_take, Nat.min_eq_left (by omega)] at this
            rw [this]
            simp
          rw [← e3]
          exact List.mem_map.mpr ⟨ltByte, hm, rfl⟩
        · rw [List.length_take]; omega
  obtain ⟨head, tail, rfl, h1, h2⟩ := key
  rw [readSlice_ok h1 h2] at h
  cases h
  exact ⟨head, tail, rfl, h1, h2, rfl, rfl⟩

theorem decodeOfx_version {env : Env} {v : Nat} {n : Node} {r : Response Message} (h : decodeOfx env v n = .ok r) :
    r.version = v := by
  cases n with
  | text s => cases h
  | misc => cases h
  | elem n cs =>
    simp only [decodeOfx] at h
    by_cases hn : n = "OFX".toList
    · rw [if_pos hn] at h
      generalize cs.filter (fun c => !isBlank c) = cs at h
      match cs, h with
      | .elem sn sc :: rest, h =>
        simp only [decodeOfxChildren] at h
        by_cases hs : sn = (MsgType.rs .signon).string
        · rw [if_pos hs] at h
          cases h1 : decodeSignon env sc with
          | error e => rw [h1] at h; cases h
          | ok so =>
            rw [h1] at h
            simp only at h
            cases h2 : decodeSets env (fun _ => []) rest with
            | error e => rw [h2] at h; cases h
            | ok f => rw [h2] at h; cases h; rfl
        · rw [if_neg hs] at h; cases h
    · rw [if_neg hn] at h; cases h

theorem decodeBody_version {env : Env} {strict : Bool} {v : Nat} {toks : List Tok} {r : Response Message}
    (h : decodeBody env strict v toks = .ok r) : r.version = v := by
  unfold decodeBody at h
  split at h
  · split at h
    · exact decodeOfx_version h
    · cases h
  · cases h

theorem skipBlank_split (ts : List Tok) : ∃ w, ts = w ++ skipBlank ts ∧ BlankTexts w := by
  induction ts with
  | nil => exact ⟨[], rfl, by intro t ht; cases ht⟩
  | cons t ts ih =>
    cases t with
    | text s =>
      unfold skipBlank
      by_cases hs : (trimSpace s).isEmpty = true
      · rw [if_pos hs]
        obtain ⟨w, h1, h2⟩ := ih
        refine ⟨.text s :: w, by rw [List.cons_append, ← h1], ?_⟩
        intro t ht
        rcases List.mem_cons.mp ht with rfl | ht
        · exact ⟨s, rfl, trimSpace_eq_nil.mp (List.isEmpty_iff.mp hs)⟩
        · exact h2 t ht
      · rw [if_neg hs]
        exact ⟨[], rfl, by intro t ht; cases ht⟩
    | start n => exact ⟨[], rfl, by intro t ht; cases ht⟩
    | stop n => exact ⟨[], rfl, by intro t ht; cases ht⟩
    | proc a b => exact ⟨[], rfl, by intro t ht; cases ht⟩
    | misc => exact ⟨[], rfl, by intro t ht; cases ht⟩

theorem skipBlank_append {w ts : List Tok} (hw : BlankTexts w) : skipBlank (w ++ ts) = skipBlank ts := by
  induction w with
  | nil => rfl
  | cons t w ih =>
    obtain ⟨s, rfl, hs⟩ := hw t (List.mem_cons_self ..)
    rw [List.cons_append, skipBlank, if_pos (by rw [trimSpace_eq_nil.mpr hs]; rfl)]
    exact ih (fun t ht => hw t (List.mem_cons_of_mem _ ht))

theorem readXMLHeaders_iff (toks : List Tok) (v : Nat) (rest : List Tok) :
    readXMLHeaders toks = .ok (v, rest) ↔
      ∃ w w' i inst, toks = w ++ .proc "xml".toList i :: (w' ++ .proc "OFX".toList inst :: rest) ∧ BlankTexts w ∧
        BlankTexts w' ∧ checkXMLHeader inst = .ok v := by
  constructor
  · intro h
    unfold readXMLHeaders at h
    obtain ⟨w, h1, h2⟩ := skipBlank_split toks
    generalize skipBlank toks = t1 at h h1
    match t1, h with
    | .proc target i :: r1, h =>
      simp only at h
      by_cases c1 : target = "xml".toList
      · rw [if_pos c1] at h
        obtain ⟨w', h3, h4⟩ := skipBlank_split r1
        generalize skipBlank r1 = t2 at h h3
        match t2, h with
        | .proc target' inst :: r2, h =>
          simp only at h
          by_cases c2 : target' = "OFX".toList
          · rw [if_pos c2] at h
            cases h5 : checkXMLHeader inst with
            | error e => rw [h5] at h; cases h
            | ok x =>
              rw [h5] at h
              cases h
              exact ⟨w, w', i, inst, by rw [h1, h3, c1, c2], h2, h4, h5⟩
          · rw [if_neg c2] at h; cases h
      · rw [if_neg c1] at h; cases h
  · rintro ⟨w, w', i, inst, rfl, h1, h2, h3⟩
    unfold readXMLHeaders
    rw [skipBlank_append h1]
    simp only [skipBlank, if_true]
    rw [skipBlank_append h2]
    simp only [skipBlank, if_true, h3]

theorem sgml_version_lt {n : Nat} {s : Str} (h : SGMLHeader n s) : n < 4 := by
  obtain ⟨v, hv, -⟩ := h
  have hv' : sgmlVersions[n]? = some v := hv
  exact (List.getElem?_eq_some_iff.mp hv').1

theorem xml_version_lt {n : Nat} {attrs : List (Str × Str)} (h : XMLHeader n attrs) : n < 7 := by
  obtain ⟨-, -, pre, value, post, -, -, v, hv, -⟩ := h
  have hv' : xmlVersions[n]? = some v := hv
  exact (List.getElem?_eq_some_iff.mp hv').1

theorem decoded_headers {env : Env} {nt : NameTable} {bs : List UInt8} {r : Response Message}
    (h : decodeResponse env nt bs = .ok r) :
    (∃ n head rest, bs = head ++ 60 :: rest ∧ 60 ∉ head ∧ head.length < 1024 ∧ SGMLHeader n (latin1 head ++ ['<']) ∧
        r.version = n + 1) ∨
    (∃ n attrs inst i w w' rest, lex true nt (utf8Decode bs) =
        w ++ .proc "xml".toList i :: (w' ++ .proc "OFX".toList inst :: rest) ∧ BlankTexts w ∧ BlankTexts w' ∧
        AttrText attrs inst ∧ XMLHeader n attrs ∧ r.version = n + 5) := by
  unfold decodeResponse at h
  by_cases hg : guessVersion (latin1 (bs.take 1024)) = true
  · rw [if_pos hg] at h
    right
    cases hx : readXMLHeaders (lex true nt (utf8Decode bs)) with
    | error e => rw [hx] at h; cases h
    | ok x =>
      obtain ⟨v, rest⟩ := x
      rw [hx] at h
      obtain ⟨w, w', i, inst, h1, h2, h3, h4⟩ := (readXMLHeaders_iff ..).mp hx
      obtain ⟨n, attrs, rfl, h5, h6⟩ := (checkXML_iff ..).mp h4
      exact ⟨n, attrs, inst, i, w, w', rest, h1, h2, h3, h5, h6, decodeBody_version h⟩
  · rw [if_neg hg] at h
    left
    cases hs : readSlice bs with
    | error e => rw [hs] at h; cases h
    | ok x =>
      obtain ⟨s, rest⟩ := x
      rw [hs] at h
      obtain ⟨head, tail, h1, h2, h3, rfl, rfl⟩ := readSlice_some hs
      simp only at h
      cases hc : checkSGMLHeader (latin1 head ++ ['<']) with
      | error e => rw [hc] at h; cases h
      | ok v =>
        rw [hc] at h
        obtain ⟨n, rfl, h5⟩ := (checkSGML_iff ..).mp hc
        exact ⟨n, head, tail, h1, h2, h3, h5, decodeBody_version h⟩

theorem guess_xml (a b : Str) (i : Nat) (h1 : indexOf "OFXHEADER=".toList a = some i)
    (h2 : indexOf "OFXHEADER:".toList a = none) (h3 : i + 10 ≤ a.length) : guessVersion (a ++ b) = true := by
  unfold guessVersion
  cases hs : indexOf "OFXHEADER:".toList (a ++ b) with
  | none => rfl
  | some j =>
    have hi : ∀ sub (t : Str) k, indexOf sub t = some k → ∀ u, indexOf sub (t ++ u) = some k := by
      intro sub t
      induction t with
      | nil =>
        intro k h u
        unfold indexOf at h
        by_cases hsub : sub.isEmpty = true
        · rw [if_pos hsub] at h
          cases h
          rw [List.isEmpty_iff.mp hsub]
          exact indexOf_prefix (List.nil_prefix ..)
        · rw [if_neg hsub] at h; cases h
      | cons c t ih =>
        intro k h u
        unfold indexOf at h
        rw [List.cons_append, indexOf]
        by_cases hp : sub.isPrefixOf (c :: t) = true
        · rw [if_pos hp] at h
          rw [if_pos]
          · exact h
          · rw [List.isPrefixOf_iff_prefix] at hp ⊢
            exact hp.trans ⟨u, rfl⟩
        · rw [if_neg hp] at h
          cases ht : indexOf sub t with
          | none => rw [ht] at h; cases h
          | some m =>
            rw [ht] at h
            cases h
            by_cases hp' : sub.isPrefixOf (c :: (t ++ u)) = true
            · exfalso
              obtain ⟨x, y, e, el⟩ := indexOf_some ht
              apply hp
              rw [List.isPrefixOf_iff_prefix] at hp' ⊢
              refine List.prefix_of_prefix_length_le hp' ⟨u, rfl⟩ ?_
              rw [e]
              simp only [List.length_cons, List.length_append]
              omega
            · rw [if_neg hp', ih m ht u]
              rfl
    rw [hi _ _ _ h1 b]
    simp only [decide_eq_true_eq]
    -- a match before the end of `a` would be one in `a`
    have hlow : ∀ (t : Str), indexOf "OFXHEADER:".toList t = none → ∀ u k, indexOf "OFXHEADER:".toList (t ++ u) = some k →
        t.length < k + 10 := by
      intro t
      induction t with
      | nil => intro _ u k _; simp
      | cons c t ih =>
        intro h u k hk
        unfold indexOf at h
        rw [List.cons_append, indexOf] at hk
        by_cases hp : "OFXHEADER:".toList.isPrefixOf (c :: t) = true
        · rw [if_pos hp] at h; cases h
        rw [if_neg hp] at h
        by_cases hp' : "OFXHEADER:".toList.isPrefixOf (c :: (t ++ u)) = true
        · rw [if_pos hp'] at hk
          cases hk
          by_contra hc
          apply hp
          rw [List.isPrefixOf_iff_prefix] at hp' ⊢
          refine List.prefix_of_prefix_length_le hp' ⟨u, rfl⟩ ?_
          have : "OFXHEADER:".toList.length = 10 := rfl
          omega
        · rw [if_neg hp'] at hk
          cases ht : indexOf "OFXHEADER:".toList (t ++ u) with
          | none => rw [ht] at hk; cases hk
          | some m =>
            rw [ht] at hk
            cases hk
            have hn : indexOf "OFXHEADER:".toList t = none := by
              cases hq : indexOf "OFXHEADER:".toList t with
              | none => rfl
              | some q => rw [hq] at h; cases h
            have := ih hn u m ht
            simp only [List.length_cons]
            omega
    have := hlow a h2 b j hs
    omega

/-- Facts about the SGML headers written, checked for each of them. -/
def sgmlHeaderGood (v : Nat) (cr : Bool) : Bool :=
  match writeHeader v cr with
  | none => false
  | some h => h.all (fun c => decide (c.toNat < 128)) && !h.contains '<' && decide (h.length < 1024) &&
      (match checkSGMLHeader (h ++ ['<']) with
        | .ok x => x == v
        | .error _ => false)

theorem sgmlHeaders_good : ∀ v ∈ [1, 2, 3, 4], ∀ cr ∈ [false, true], sgmlHeaderGood v cr = true := by
  decide +kernel

/-- The text of the OFX processing instruction written. -/
def xmlInst (v : Nat) : Str :=
  "OFXHEADER=\"200\" VERSION=\"".toList ++ ofxVersionString v ++
      "\" SECURITY=\"NONE\" OLDFILEUID=\"NONE\" NEWFILEUID=\"NONE\"".toList

/-- The text of the xml processing instruction written. -/
def xmlDecl : Str := "version=\"1.0\" encoding=\"UTF-8\" standalone=\"no\"".toList

def lineEnd (cr : Bool) : Str := if cr then ['\r', '\n'] else ['\n']

def xmlHeaderText (v : Nat) (cr : Bool) : Str :=
  "<?".toList ++ "xml".toList ++ [' '] ++ xmlDecl ++ "?>".toList ++ (lineEnd cr ++
    ("<?".toList ++ "OFX".toList ++ [' '] ++ xmlInst v ++ "?>".toList ++ lineEnd cr))

/-- Facts about the XML headers written, checked for each of them. -/
def xmlHeaderGood (v : Nat) (cr : Bool) : Bool :=
  (writeHeader v cr == some (xmlHeaderText v cr)) &&
  (xmlHeaderText v cr).all (fun c => decide (c.toNat < 128)) && decide ((xmlHeaderText v cr).length < 1024) &&
  (indexOf "OFXHEADER=".toList (xmlHeaderText v cr) == some (60 + (lineEnd cr).length)) &&
  (indexOf "OFXHEADER:".toList (xmlHeaderText v cr) == none) &&
  decide (100 ≤ (xmlHeaderText v cr).length) &&
  !(xmlInst v).contains '?' &&
  (match xmlInst v with | c :: _ => !isXmlSpace c | [] => false)

theorem xmlHeaders_good : ∀ v ∈ [5, 6, 7, 8, 9, 10, 11], ∀ cr ∈ [false, true], xmlHeaderGood v cr = true := by
  decide +kernel

theorem xmlInst_version {v : Nat} (hv : 5 ≤ v ∧ v ≤ 11) : checkXMLHeader (xmlInst v) = .ok v := by
  have hn : ∃ vs : String, xmlVersions[v - 5]? = some vs ∧ ofxVersionString v = vs.toList ∧ '"' ∉ vs.toList := by
    have : v = 5 ∨ v = 6 ∨ v = 7 ∨ v = 8 ∨ v = 9 ∨ v = 10 ∨ v = 11 := by omega
    rcases this with rfl | rfl | rfl | rfl | rfl | rfl | rfl
    · exact ⟨"200", rfl, by decide +kernel, by decide +kernel⟩
    · exact ⟨"201", rfl, by decide +kernel, by decide +kernel⟩
    · exact ⟨"202", rfl, by decide +kernel, by decide +kernel⟩
    · exact ⟨"203", rfl, by decide +kernel, by decide +kernel⟩
    · exact ⟨"210", rfl, by decide +kernel, by decide +kernel⟩
    · exact ⟨"211", rfl, by decide +kernel, by decide +kernel⟩
    · exact ⟨"220", rfl, by decide +kernel, by decide +kernel⟩
  obtain ⟨vs, h1, h2, h3⟩ := hn
  have nil : IsPadding [] := (isPadding_iff ..).mpr (by intro c hc; cases hc)
  have sp : IsPadding [' '] := (isPadding_iff ..).mpr (by intro c hc; rw [List.mem_singleton.mp hc]; decide)
  have hs : StatesVersion (v - 5) vs.toList := ⟨vs, h1, [], [], by simp, nil, nil⟩
  rw [checkXML_iff]
  refine ⟨v - 5, [("OFXHEADER".toList, "200".toList), ("VERSION".toList, vs.toList), ("SECURITY".toList, "NONE".toList),
    ("OLDFILEUID".toList, "NONE".toList), ("NEWFILEUID".toList, "NONE".toList)], by omega, ?_, ?_, ?_, ?_⟩
  · unfold xmlInst
    rw [h2]
    simp only [AttrText]
    refine ⟨[], _, ?_, nil, [' '], _, rfl, sp, [' '], _, rfl, sp, [' '], _, rfl, sp, [' '], [], rfl, sp, nil⟩
    simp
  · intro a ha
    simp only [List.mem_cons, List.not_mem_nil, or_false] at ha
    rcases ha with rfl | rfl | rfl | rfl | rfl
    · exact ⟨by decide, .inl ⟨rfl, rfl⟩⟩
    · exact ⟨h3, .inr (.inl ⟨rfl, v - 5, hs⟩)⟩
    · exact ⟨by decide, .inr (.inr (.inl ⟨rfl, rfl⟩))⟩
    · exact ⟨by decide, .inr (.inr (.inr (.inl rfl)))⟩
    · exact ⟨by decide, .inr (.inr (.inr (.inr rfl)))⟩
  · exact ⟨_, List.mem_cons_self .., rfl⟩
  · refine ⟨[("OFXHEADER".toList, "200".toList)], vs.toList, _, rfl, ?_, hs⟩
    intro a ha
    simp only [List.mem_cons, List.not_mem_nil, or_false] at ha
    rcases ha with rfl | rfl | rfl <;> decide

theorem lex_lineEnd (strict : Bool) (nt : NameTable) (cr : Bool) (r : Str) :
    lex strict nt (lineEnd cr ++ '<' :: r) = .text ['\n'] :: lex strict nt ('<' :: r) := by
  cases cr
  · exact lex_text strict nt (by decide) (by decide) (by unfold textToken; simp [lineEnd, contains, normLines, unescape]; decide)
  · exact lex_text strict nt (by decide) (by decide) (by unfold textToken; simp [lineEnd, contains, normLines, unescape]; decide)

/-- The tokens of a document with a written XML header. -/
theorem lex_xmlHeader (nt : NameTable) {v : Nat} (cr : Bool) (hv : 5 ≤ v ∧ v ≤ 11) (r : Str) :
    lex true nt (xmlHeaderText v cr ++ '<' :: r) =
      .proc "xml".toList xmlDecl :: .text ['\n'] :: .proc "OFX".toList (xmlInst v) :: .text ['\n'] :: lex true nt ('<' :: r) := by
  have hg : xmlHeaderGood v cr = true := by
    apply xmlHeaders_good
    · simp; omega
    · cases cr <;> simp
  unfold xmlHeaderGood at hg
  simp only [Bool.and_eq_true] at hg
  obtain ⟨⟨-, hq⟩, hsp⟩ := hg
  unfold xmlHeaderText
  rw [List.append_assoc, lex_proc true nt (by decide +kernel) (by intro c hc; cases hc; decide +kernel) (by decide) (by decide +kernel)
    (by decide +kernel)]
  have e : lineEnd cr ++ ("<?".toList ++ "OFX".toList ++ [' '] ++ xmlInst v ++ "?>".toList ++ lineEnd cr) ++ '<' :: r =
    lineEnd cr ++ '<' :: ('?' :: ("OFX".toList ++ [' '] ++ xmlInst v ++ "?>".toList ++ (lineEnd cr ++ '<' :: r))) := by simp
  rw [e, lex_lineEnd]
  have e2 : '<' :: ('?' :: ("OFX".toList ++ [' '] ++ xmlInst v ++ "?>".toList ++ (lineEnd cr ++ '<' :: r))) =
    "<?".toList ++ "OFX".toList ++ [' '] ++ xmlInst v ++ "?>".toList ++ (lineEnd cr ++ '<' :: r) := by simp
  rw [e2, lex_proc true nt (by decide +kernel) ?_ ?_ ?_ ?_, lex_lineEnd]
  · intro c hc
    cases hx : xmlInst v with
    | nil => rw [hx] at hc; cases hc
    | cons d ds =>
      rw [hx] at hc hsp
      cases hc
      simpa using hsp
  · intro h0
    rw [h0] at hsp
    cases hsp
  · simpa using hq
  · unfold procOk
    rw [if_neg (by decide)]

end Ofx
