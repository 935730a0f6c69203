import Verif.Lemmas.GrammarMarkup
import Verif.Lemmas.GrammarTree
import Verif.Lemmas.DocHeader
/-
Documents: what is read against the grammar.
-/
namespace Ofx
open Spec

/-! ### The kind of document -/

theorem prefix_of {a b s : Str} (ha : a <+: s) (hb : b <+: s) (h : a.length ≤ b.length) : a <+: b :=
  List.prefix_of_prefix_length_le ha hb h

theorem cut_none {sep s : Str} (hi : sep <:+: s) : cut sep s ≠ none := by
  induction s with
  | nil =>
    rw [List.infix_nil] at hi
    subst hi
    simp [cut]
  | cons c s ih =>
    unfold cut
    by_cases hp : sep.isPrefixOf (c :: s) = true
    · rw [if_pos hp]; simp
    · rw [if_neg hp]
      rw [List.infix_cons_iff] at hi
      rcases hi with h | h
      · exact absurd (List.isPrefixOf_iff_prefix.mpr h) hp
      · have := ih h
        cases hc : cut sep s with
        | none => exact absurd hc this
        | some x => simp

theorem guess_iff (p : Str) : guessVersion p = true ↔ LooksXML p := by
  have hcut : ∀ (c : Char), (∀ a b, cut ("OFXHEADER".toList ++ [c]) p = some (a, b) ↔
      p = a ++ ("OFXHEADER".toList ++ [c]) ++ b ∧ ¬ ("OFXHEADER".toList ++ [c]) <:+: a ++ "OFXHEADER".toList) := by
    intro c a b
    rw [cut_iff (by simp)]
    rw [List.dropLast_concat]
  have hin : ∀ (c : Char), cut ("OFXHEADER".toList ++ [c]) p = none → ¬ ("OFXHEADER".toList ++ [c]) <:+: p := by
    intro c h hi
    exact cut_none hi h
  have e1 : "OFXHEADER:".toList = "OFXHEADER".toList ++ [':'] := rfl
  have e2 : "OFXHEADER=".toList = "OFXHEADER".toList ++ ['='] := rfl
  have len : "OFXHEADER".toList.length = 9 := rfl
  unfold guessVersion LooksXML
  rw [e1, e2]
  generalize "OFXHEADER".toList = key at hcut hin len
  rw [indexOf_cut, indexOf_cut]
  cases hs : cut (key ++ [':']) p with
  | none =>
    simp only [Option.map_none, true_iff]
    intro h
    exact absurd h (hin _ hs)
  | some x =>
    obtain ⟨a, b⟩ := x
    obtain ⟨h1, h2⟩ := (hcut _ _ _).mp hs
    have hi : key ++ [':'] <:+: p := ⟨a, b, h1.symm⟩
    simp only [Option.map_some, hi, true_imp_iff]
    cases hx : cut (key ++ ['=']) p with
    | none =>
      simp only [Option.map_none, Bool.false_eq_true, false_iff, not_exists, not_and]
      intro a' b' h
      exact absurd ⟨a', b', h.symm⟩ (hin _ hx)
    | some y =>
      obtain ⟨c, d⟩ := y
      obtain ⟨h3, h4⟩ := (hcut _ _ _).mp hx
      simp only [Option.map_some, decide_eq_true_eq]
      have pre : ∀ {u v : Str} {x : Char}, p = u ++ (key ++ [x]) ++ v → u ++ key <+: p ∧ u ++ (key ++ [x]) <+: p := by
        intro u v x h
        exact ⟨⟨[x] ++ v, by rw [h]; simp⟩, ⟨v, h.symm⟩⟩
      constructor
      · intro hle
        refine ⟨c, d, h3, fun hn => h2 ?_⟩
        exact hn.trans (prefix_of (pre h3).1 (pre h1).1 (by simp; omega)).isInfix
      · rintro ⟨c', d', h5, h6⟩
        have k1 : c'.length ≤ a.length := by
          by_contra hlt
          apply h6
          have := prefix_of (pre h1).2 (pre h5).1 (by simp; omega)
          exact ((List.suffix_append a (key ++ [':'])).isInfix).trans this.isInfix
        have k2 : c.length ≤ c'.length := by
          by_contra hlt
          apply h4
          have := prefix_of (pre h5).2 (pre h3).1 (by simp; omega)
          exact ((List.suffix_append c' (key ++ ['='])).isInfix).trans this.isInfix
        omega

/-! ### The element of a document -/

/-- The element after the header. -/
def treeOf (strict : Bool) (toks : List Tok) : Option Node :=
  match skipBlank toks with
  | .start n :: rest =>
    match build strict (n, []) [] rest with
    | .ok (root, _) => some root
    | .error _ => none
  | _ => none

/-- Version and element of a document. -/
def docOf (nt : NameTable) (bs : List UInt8) : Option (Nat × Node) :=
  if guessVersion (latin1 (bs.take 1024)) then
    match readXMLHeaders (lex true nt (utf8Decode bs)) with
    | .error _ => none
    | .ok (version, toks) => (treeOf true toks).map (version, ·)
  else
    match readSlice bs with
    | .error _ => none
    | .ok (s, rest) =>
      match checkSGMLHeader s with
      | .error _ => none
      | .ok version => (treeOf false (lex false nt (utf8Decode rest))).map (version, ·)

theorem decodeBody_tree (env : Env) (strict : Bool) (v : Nat) (toks : List Tok) (r : Response Message) :
    decodeBody env strict v toks = .ok r ↔ ∃ root, treeOf strict toks = some root ∧ decodeOfx env v root = .ok r := by
  unfold decodeBody treeOf
  generalize skipBlank toks = st
  split
  · rename_i n rest
    simp only
    generalize build strict (n, []) [] rest = b
    cases b with
    | ok x => obtain ⟨root, y⟩ := x; simp
    | error e => simp
  · rename_i hne
    constructor
    · intro h; cases h
    · rintro ⟨root, h, -⟩
      split at h
      · rename_i n rest; exact absurd rfl (hne n rest)
      · cases h

theorem decode_doc (env : Env) (nt : NameTable) (bs : List UInt8) (r : Response Message) :
    decodeResponse env nt bs = .ok r ↔ ∃ v root, docOf nt bs = some (v, root) ∧ decodeOfx env v root = .ok r := by
  have key : ∀ (strict : Bool) (v : Nat) (toks : List Tok), (decodeBody env strict v toks = .ok r ↔
      ∃ v' root, (treeOf strict toks).map (v, ·) = some (v', root) ∧ decodeOfx env v' root = .ok r) := by
    intro strict v toks
    rw [decodeBody_tree]
    constructor
    · rintro ⟨root, h1, h2⟩; exact ⟨v, root, by rw [h1]; rfl, h2⟩
    · rintro ⟨v', root, h1, h2⟩
      cases ht : treeOf strict toks with
      | none => rw [ht] at h1; cases h1
      | some x => rw [ht] at h1; cases h1; exact ⟨_, rfl, h2⟩
  unfold decodeResponse docOf
  by_cases hg : guessVersion (latin1 (bs.take 1024)) = true
  · rw [if_pos hg, if_pos hg]
    cases readXMLHeaders (lex true nt (utf8Decode bs)) with
    | error e => simp
    | ok x => obtain ⟨v, toks⟩ := x; exact key _ _ _
  · rw [if_neg hg, if_neg hg]
    cases readSlice bs with
    | error e => simp
    | ok x =>
      obtain ⟨s, rest⟩ := x
      simp only
      cases checkSGMLHeader s with
      | error e => simp
      | ok v => exact key _ _ _

theorem treeOf_iff {strict : Bool} {toks : List Tok} {root : Node} :
    treeOf strict toks = some root ↔ ∃ w n ts cs rest, toks = w ++ .start n :: ts ∧ BlankTexts w ∧
      Content (!strict) n ts cs rest ∧ root = .elem n cs := by
  constructor
  · intro h
    unfold treeOf at h
    obtain ⟨w, hw, hb⟩ := skipBlank_split toks
    split at h
    · rename_i n ts hsk
      rw [hsk] at hw
      cases hbd : build strict (n, []) [] ts with
      | error e => rw [hbd] at h; cases h
      | ok x =>
        obtain ⟨root', rest⟩ := x
        rw [hbd] at h
        cases h
        obtain ⟨cs, hc, rfl⟩ := build_iff.mp hbd
        exact ⟨w, n, ts, cs, rest, hw, hb, hc, rfl⟩
    · cases h
  · rintro ⟨w, n, ts, cs, rest, rfl, hb, hc, rfl⟩
    unfold treeOf
    rw [skipBlank_append hb]
    have : skipBlank (.start n :: ts) = .start n :: ts := rfl
    rw [this]
    simp only
    rw [build_iff.mpr ⟨cs, hc, rfl⟩]

/-- Bytes that are decoded as `s` and more start with the bytes of `s`. -/
theorem utf8_split {bs : List UInt8} {s r : Str} (h : utf8Decode bs = s ++ r) : ∃ tail, bs = toBytes s ++ tail := by
  obtain ⟨junk, e, -⟩ := utf8Decode_split bs (Nat.le_refl _)
  rw [h, toBytes_append, List.append_assoc] at e
  exact ⟨_, e⟩

theorem toBytes_lt (s : Str) : toBytes ('<' :: s) = ltByte :: toBytes s := by
  rw [show toBytes ('<' :: s) = String.utf8EncodeChar '<' ++ toBytes s from by simp [toBytes]]
  rfl

theorem document_iff (nt : NameTable) (bs : List UInt8) (v : Nat) (root : Node) :
    Document nt bs v root ↔ docOf nt bs = some (v, root) := by
  constructor
  · intro h
    cases h with
    | @sgml n head tail s name w ts rest cs hbs hh hlen hs hH hv hp hb hc hr =>
      cases s with
      | nil => cases hs
      | cons c s =>
        cases hs
        have hbs' : bs = head ++ ltByte :: (toBytes s ++ tail) := by rw [hbs, toBytes_lt]; simp
        have hg : guessVersion (latin1 (bs.take 1024)) = false := by
          apply guess_sgml
          have h1 := sgml_prefix hH
          have h2 : latin1 head ++ ['<'] <+: latin1 (bs.take 1024) := by
            rw [hbs']
            generalize toBytes s ++ tail = more
            refine ⟨latin1 (more.take (1024 - head.length - 1)), ?_⟩
            have e1 : (head ++ ltByte :: more).take 1024 = head ++ ltByte :: more.take (1024 - head.length - 1) := by
              have : 1024 - head.length = (1024 - head.length - 1) + 1 := by omega
              rw [List.take_append, List.take_of_length_le (by omega), this, List.take_succ_cons]
              simp
            rw [e1]
            simp [latin1, ltByte]
          exact h1.trans h2
        unfold docOf
        rw [hg, if_neg (by decide)]
        rw [hbs', readSlice_ok hh hlen]
        simp only
        rw [(checkSGML_iff _ _).mpr ⟨n, rfl, hH⟩]
        simp only
        have hd : utf8Decode (ltByte :: (toBytes s ++ tail)) = ('<' :: s) ++ utf8Decode tail := by
          rw [← utf8Decode_append, toBytes_lt]; rfl
        rw [hd, pieces_lex (strict := false) hp]
        rw [(treeOf_iff (strict := false)).mpr ⟨w, name, ts ++ lex false nt (utf8Decode tail), cs, _, by simp, hb, content_append hc _, hr⟩, hv]
        rfl
    | @xml n tail s decl inst name attrs w w' w'' ts rest cs hbs hlook hp hb hb' hb'' ha hx hv hc hr =>
      unfold docOf
      rw [if_pos ((guess_iff _).mpr hlook)]
      have hd : utf8Decode bs = s ++ utf8Decode tail := by rw [hbs, utf8Decode_append]
      rw [hd, pieces_lex (strict := true) hp]
      have := (readXMLHeaders_iff ((w ++ .proc "xml".toList decl :: (w' ++ .proc "OFX".toList inst :: (w'' ++ .start name :: ts))) ++
          lex true nt (utf8Decode tail)) v (w'' ++ .start name :: (ts ++ lex true nt (utf8Decode tail)))).mpr
        ⟨w, w', decl, inst, by simp, hb, hb', (checkXML_iff _ _).mpr ⟨n, attrs, hv, ha, hx⟩⟩
      rw [this]
      simp only
      rw [(treeOf_iff (strict := true)).mpr ⟨w'', name, _, cs, _, rfl, hb'', content_append hc _, hr⟩]
      rfl
  · intro h
    unfold docOf at h
    by_cases hg : guessVersion (latin1 (bs.take 1024)) = true
    · rw [if_pos hg] at h
      cases hx : readXMLHeaders (lex true nt (utf8Decode bs)) with
      | error e => rw [hx] at h; cases h
      | ok x =>
        obtain ⟨v', toks⟩ := x
        rw [hx] at h
        simp only at h
        cases ht : treeOf true toks with
        | none => rw [ht] at h; cases h
        | some root' =>
          rw [ht] at h
          cases h
          obtain ⟨w, w', decl, inst, hl, hb, hb', hck⟩ := (readXMLHeaders_iff _ _ _).mp hx
          obtain ⟨w'', name, ts, cs, rest, rfl, hb'', hc, hr⟩ := treeOf_iff.mp ht
          obtain ⟨used, t, more, rest', hnt, rfl, -, hc'⟩ := content_needs hc
          obtain ⟨s1, r1, q', hs1, hp1, -⟩ := lex_pieces _ _ (Nat.le_refl _)
            (w ++ .proc "xml".toList decl :: (w' ++ .proc "OFX".toList inst :: (w'' ++ .start name :: used))) more t
            (by rw [hl]; simp) hnt
          obtain ⟨tail, hbs⟩ := utf8_split hs1
          obtain ⟨n, attrs, hv, ha, hxh⟩ := (checkXML_iff _ _).mp hck
          refine .xml (w := w) (w' := w') (w'' := w'') (ts := used ++ t :: q') (rest := rest' ++ q') (cs := cs) (decl := decl)
            (inst := inst) (name := name) hbs ((guess_iff _).mp hg) ?_ hb hb' hb'' ha hxh hv ?_ hr
          · simpa using hp1
          · simpa using content_append hc' q'
    · rw [if_neg hg] at h
      cases hrs : readSlice bs with
      | error e => rw [hrs] at h; cases h
      | ok x =>
        obtain ⟨s, rest⟩ := x
        rw [hrs] at h
        simp only at h
        cases hck : checkSGMLHeader s with
        | error e => rw [hck] at h; cases h
        | ok v' =>
          rw [hck] at h
          simp only at h
          cases ht : treeOf false (lex false nt (utf8Decode rest)) with
          | none => rw [ht] at h; cases h
          | some root' =>
            rw [ht] at h
            cases h
            obtain ⟨n, hv, hH⟩ := (checkSGML_iff _ _).mp hck
            obtain ⟨head, tail, hbs, hh, hlen, hs, hrest⟩ := readSlice_some hrs
            obtain ⟨w, name, ts, cs, rest1, htoks, hb, hc, hr⟩ := treeOf_iff.mp ht
            obtain ⟨used, t, more, rest', hnt, rfl, -, hc'⟩ := content_needs hc
            obtain ⟨s1, r1, q', hs1, hp1, -⟩ := lex_pieces _ _ (Nat.le_refl _) (w ++ .start name :: used) more t
              (by rw [htoks]; simp) hnt
            obtain ⟨tail', hb2⟩ := utf8_split hs1
            have hne := pieces_ne hp1 (by simp)
            refine .sgml (w := w) (ts := used ++ t :: q') (rest := rest' ++ q') (cs := cs) (name := name) (s := s1) (tail := tail')
              (head := head) (n := n) ?_ hh hlen ?_ (hs ▸ hH) hv ?_ hb ?_ hr
            · rw [hbs, ← hrest, hb2]; simp
            · cases s1 with
              | nil => exact absurd rfl hne
              | cons c s1 =>
                have hd : utf8Decode rest = '<' :: utf8Decode tail := by
                  rw [hrest]
                  exact utf8Decode_cons '<' tail
                rw [hd] at hs1
                rw [← (List.cons.inj hs1).1]; rfl
            · simpa using hp1
            · simpa using content_append hc' q'

/-! ### Ordinary texts -/

theorem chars_ascii {sgml : Bool} {s : Str} (h : ∀ c ∈ s, c ≠ '&' ∧ c ≠ '\r' ∧ XmlChar c) : Chars sgml s s := by
  induction s with
  | nil => exact .nil
  | cons c s ih =>
    have hc := h c (List.mem_cons_self ..)
    exact .plain hc.1 hc.2.1 hc.2.2 (ih fun d hd => h d (List.mem_cons_of_mem _ hd))

theorem cdata_ascii {s : Str} (h : ∀ c ∈ s, c ≠ '\r' ∧ XmlChar c) : CDataText s s := by
  induction s with
  | nil => exact .nil
  | cons c s ih =>
    have hc := h c (List.mem_cons_self ..)
    exact .plain hc.1 hc.2 (ih fun d hd => h d (List.mem_cons_of_mem _ hd))

theorem nameText_plain (nt : NameTable) {n : Str} (h : plainName n = true) : NameText nt n := by
  rw [← isName_iff]
  exact isName_plain nt h

end Ofx
