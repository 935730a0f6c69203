import Verif.Lemmas.Truncate
import Verif.Lemmas.DocHeader
/-
The beginning of a document, byte by byte.
-/
namespace Ofx
open Spec

theorem indexOf_ext {sub t : Str} {k : Nat} (h : indexOf sub t = some k) (u : Str) : indexOf sub (t ++ u) = some k := by
  induction t generalizing k with
  | nil =>
    unfold indexOf at h
    by_cases hsub : sub.isEmpty = true
    · rw [if_pos hsub] at h
      cases h
      rw [List.isEmpty_iff.mp hsub]
      exact indexOf_prefix (List.nil_prefix ..)
    · rw [if_neg hsub] at h; cases h
  | cons c t ih =>
    unfold indexOf at h
    rw [List.cons_append, indexOf]
    by_cases hp : sub.isPrefixOf (c :: t) = true
    · rw [if_pos hp] at h
      rw [if_pos]
      · exact h
      · rw [List.isPrefixOf_iff_prefix] at hp ⊢
        exact hp.trans ⟨u, rfl⟩
    · rw [if_neg hp] at h
      cases ht : indexOf sub t with
      | none => rw [ht] at h; cases h
      | some m =>
        rw [ht] at h
        cases h
        by_cases hp' : sub.isPrefixOf (c :: (t ++ u)) = true
        · exfalso
          obtain ⟨x, y, e, el⟩ := indexOf_some ht
          apply hp
          rw [List.isPrefixOf_iff_prefix] at hp' ⊢
          refine List.prefix_of_prefix_length_le hp' ⟨u, rfl⟩ ?_
          rw [e]
          simp only [List.length_cons, List.length_append]
          omega
        · rw [if_neg hp', ih ht]
          rfl

theorem indexOf_late {sub t u : Str} {k : Nat} (hs : sub ≠ []) (h : indexOf sub t = none) (hk : indexOf sub (t ++ u) = some k) :
    t.length < k + sub.length := by
  induction t generalizing k with
  | nil =>
    have := List.length_pos_iff.mpr hs
    simp only [List.length_nil]
    omega
  | cons c t ih =>
    unfold indexOf at h
    rw [List.cons_append, indexOf] at hk
    by_cases hp : sub.isPrefixOf (c :: t) = true
    · rw [if_pos hp] at h; cases h
    rw [if_neg hp] at h
    by_cases hp' : sub.isPrefixOf (c :: (t ++ u)) = true
    · rw [if_pos hp'] at hk
      cases hk
      by_contra hc
      apply hp
      rw [List.isPrefixOf_iff_prefix] at hp' ⊢
      exact List.prefix_of_prefix_length_le hp' ⟨u, rfl⟩ (by omega)
    · rw [if_neg hp'] at hk
      cases ht : indexOf sub (t ++ u) with
      | none => rw [ht] at hk; cases hk
      | some m =>
        rw [ht] at hk
        cases hk
        have hn : indexOf sub t = none := by
          cases hq : indexOf sub t with
          | none => rfl
          | some q => rw [hq] at h; cases h
        have := ih hn ht
        simp only [List.length_cons]
        omega

theorem indexOf_early {sub t u : Str} {k : Nat} (hs : sub ≠ []) (hk : indexOf sub (t ++ u) = some k) (hl : k + sub.length ≤ t.length) :
    indexOf sub t = some k := by
  cases h : indexOf sub t with
  | none => have := indexOf_late hs h hk; omega
  | some j => rw [← hk, indexOf_ext h]

/-- The beginning of a document that is classified as XML is. -/
theorem guess_shrink {a b : Str} (h : guessVersion (a ++ b) = true) : guessVersion a = true := by
  unfold guessVersion at h ⊢
  cases hs : indexOf "OFXHEADER:".toList a with
  | none => rfl
  | some j =>
    rw [indexOf_ext hs b] at h
    simp only at h ⊢
    cases hx : indexOf "OFXHEADER=".toList (a ++ b) with
    | none => rw [hx] at h; cases h
    | some i =>
      rw [hx] at h
      simp only [decide_eq_true_eq] at h
      have hl : j + 10 ≤ a.length := by
        obtain ⟨p, q, e, el⟩ := indexOf_some hs
        have := congrArg List.length e
        simp only [List.length_append] at this
        have h10 : "OFXHEADER:".toList.length = 10 := rfl
        omega
      rw [indexOf_early (by decide) hx (by have h10 : "OFXHEADER=".toList.length = 10 := rfl; omega)]
      simpa using h

/-- A document classified as XML for a reason stays so, whatever follows. -/
theorem guess_grow {a b : Str} (h : guessVersion a = true) (hx : ∃ i, indexOf "OFXHEADER=".toList a = some i) :
    guessVersion (a ++ b) = true := by
  obtain ⟨i, hi⟩ := hx
  unfold guessVersion at h ⊢
  rw [indexOf_ext hi b]
  cases hs : indexOf "OFXHEADER:".toList (a ++ b) with
  | none => rfl
  | some j =>
    simp only [decide_eq_true_eq]
    cases hs' : indexOf "OFXHEADER:".toList a with
    | none =>
      have h1 := indexOf_late (by decide) hs' hs
      obtain ⟨p, q, e, el⟩ := indexOf_some hi
      have := congrArg List.length e
      simp only [List.length_append] at this
      have h10 : "OFXHEADER=".toList.length = 10 := rfl
      have h11 : "OFXHEADER:".toList.length = 10 := rfl
      omega
    | some j' =>
      rw [hs', hi] at h
      rw [indexOf_ext hs' b] at hs
      cases hs
      simpa using h

/-- A text that occurs has a first occurrence. -/
theorem indexOf_of_infix {sub s : Str} (h : sub <:+: s) : ∃ i, indexOf sub s = some i := by
  obtain ⟨a, b, rfl⟩ := h
  induction a with
  | nil => exact ⟨0, indexOf_prefix ⟨b, rfl⟩⟩
  | cons c a ih =>
    obtain ⟨i, hi⟩ := ih
    rw [List.cons_append, List.cons_append, indexOf]
    by_cases hp : sub.isPrefixOf (c :: (a ++ sub ++ b)) = true
    · exact ⟨0, by rw [if_pos hp]⟩
    · exact ⟨i + 1, by rw [if_neg hp, hi]; rfl⟩

theorem attr_infix {attrs : List (Str × Str)} {s : Str} (h : AttrText attrs s) (ha : ∃ a ∈ attrs, a.1 = "OFXHEADER".toList) :
    "OFXHEADER=".toList <:+: s := by
  induction attrs generalizing s with
  | nil => obtain ⟨a, ha, _⟩ := ha; cases ha
  | cons a attrs ih =>
    obtain ⟨name, value⟩ := a
    unfold AttrText at h
    obtain ⟨w, rest, rfl, _, hr⟩ := h
    obtain ⟨a, ha, hn⟩ := ha
    rcases List.mem_cons.mp ha with rfl | ha
    · simp only at hn
      subst hn
      refine ⟨w, "\"".toList ++ value ++ "\"".toList ++ rest, ?_⟩
      rw [show "OFXHEADER=".toList = "OFXHEADER".toList ++ "=".toList from rfl, show "=\"".toList = "=".toList ++ "\"".toList from rfl]
      simp only [List.append_assoc]
    · exact (ih hr ⟨a, ha, hn⟩).trans (List.suffix_append _ _).isInfix

theorem xmlHeader_infix {inst : Str} {v : Nat} (h : checkXMLHeader inst = .ok v) : "OFXHEADER=".toList <:+: inst := by
  obtain ⟨n, attrs, _, h1, _, h2, _⟩ := (checkXML_iff ..).mp h
  exact attr_infix h1 h2

theorem lexOne_proc {strict : Bool} {nt : NameTable} {s r a inst : Str} {ts : List Tok} (h : lexOne strict nt s = some (ts, r))
    (hm : Tok.proc a inst ∈ ts) : inst <:+: s := by
  cases s with
  | nil => cases h
  | cons c s =>
    by_cases hc : c = '<'
    · subst hc
      cases s with
      | nil => cases h
      | cons c s =>
        by_cases h1 : c = '/'
        · subst h1
          obtain ⟨n, w, hn, hw, e, ht, hx⟩ := lexStop_exact (show lexStop nt s = some (ts, r) from h)
          rw [ht] at hm
          simp at hm
        · by_cases h2 : c = '?'
          · subst h2
            have h : lexProc nt s = some (ts, r) := h
            unfold lexProc at h
            cases hn : lexName nt s with
            | none => rw [hn] at h; cases h
            | some p =>
              obtain ⟨n, r1⟩ := p
              rw [hn] at h
              simp only at h
              obtain ⟨hne, hs, _⟩ := lexName_exact hn
              obtain ⟨w, hw, _⟩ := skipSpace_exact (s := r1) rfl
              cases hc : cut "?>".toList (skipSpace r1) with
              | none => rw [hc] at h; cases h
              | some q =>
                obtain ⟨i, r2⟩ := q
                rw [hc] at h
                simp only at h
                by_cases hp : procOk n i = true
                · rw [if_pos hp] at h
                  cases h
                  simp only [List.mem_singleton] at hm
                  cases hm
                  have he := cut_eq hc
                  refine ⟨'<' :: '?' :: (a ++ w), "?>".toList ++ r, ?_⟩
                  rw [hs, hw, he]
                  simp
                · rw [if_neg hp] at h; cases h
          · by_cases h3 : c = '!'
            · subst h3
              exfalso
              have h : lexBang s = some (ts, r) := h
              unfold lexBang at h
              split at h
              · cases h
              · split at h
                · split at h
                  · generalize afterComment _ = o at h
                    cases o with
                    | none => cases h
                    | some y => cases h; simp at hm
                  · cases h
                · split at h
                  · split at h
                    · split at h
                      · split at h
                        · cases h; simp at hm
                        · cases h
                      · cases h
                    · cases h
                  · generalize afterDirective .plain 0 _ = o at h
                    cases o with
                    | none => cases h
                    | some y => cases h; simp at hm
            · rw [lexOne_start h1 h2 h3] at h
              obtain ⟨u, n, hu, e, ht, hx⟩ := lexStart_exact h
              rcases ht with ht | ht <;> (rw [ht] at hm; simp at hm)
    · rw [lexOne_text hc] at h
      cases ht : textToken strict ((c :: s).takeWhile (· != '<')) with
      | none => rw [ht] at h; cases h
      | some t => rw [ht] at h; cases h; simp at hm

theorem lexOne_suffix {strict : Bool} {nt : NameTable} {s r : Str} {ts : List Tok} (h : lexOne strict nt s = some (ts, r)) : r <:+ s := by
  cases s with
  | nil => cases h
  | cons c s =>
    by_cases hc : c = '<'
    · subst hc
      obtain ⟨u, e, _⟩ := lexOne_exact h
      exact ⟨'<' :: u, e.symm⟩
    · rw [lexOne_text hc] at h
      cases ht : textToken strict ((c :: s).takeWhile (· != '<')) with
      | none => rw [ht] at h; cases h
      | some t => rw [ht] at h; cases h; exact List.dropWhile_suffix _

theorem lex_proc_mem {strict : Bool} {nt : NameTable} {a inst : Str} (n : Nat) (s : Str) (hn : s.length ≤ n)
    (hm : Tok.proc a inst ∈ lex strict nt s) : inst <:+: s := by
  induction n generalizing s with
  | zero =>
    have : s = [] := List.length_eq_zero_iff.mp (Nat.le_zero.mp hn)
    subst this
    rw [lex_nil] at hm
    cases hm
  | succ n ih =>
    rw [lex] at hm
    cases h : lexOne strict nt s with
    | none => rw [h] at hm; cases hm
    | some p =>
      obtain ⟨ts, r⟩ := p
      rw [h] at hm
      simp only at hm
      by_cases hl : r.length < s.length
      · rw [if_pos hl] at hm
        rcases List.mem_append.mp hm with hm | hm
        · exact lexOne_proc h hm
        · refine (ih r (by omega) hm).trans ?_
          exact (lexOne_suffix h).isInfix
      · rw [if_neg hl] at hm
        cases hm

theorem skipBlank_suffix (a : List Tok) : skipBlank a <:+ a := by
  induction a with
  | nil => exact List.suffix_refl _
  | cons t a ih =>
    cases t with
    | text s =>
      simp only [skipBlank]
      by_cases hs : (trimSpace s).isEmpty = true
      · rw [if_pos hs]; exact ih.trans (List.suffix_cons ..)
      · rw [if_neg hs]
    | start n => exact List.suffix_refl _
    | stop n => exact List.suffix_refl _
    | proc a b => exact List.suffix_refl _
    | misc => exact List.suffix_refl _

/-- The keyword of XML headers is in every XML document. -/
theorem xml_keyword {nt : NameTable} {s : Str} {v : Nat} {rest : List Tok} (h : readXMLHeaders (lex true nt s) = .ok (v, rest)) :
    "OFXHEADER=".toList <:+: s := by
  obtain ⟨i, r1, inst, h1, h2, h3⟩ := readXML_iff.mp h
  refine (xmlHeader_infix h3).trans (lex_proc_mem (strict := true) (nt := nt) (a := "OFX".toList) _ s (Nat.le_refl _) ?_)
  have m1 : Tok.proc "OFX".toList inst ∈ r1 := (skipBlank_suffix r1).subset (by rw [h2]; exact List.mem_cons_self ..)
  exact (skipBlank_suffix _).subset (by rw [h1]; exact List.mem_cons_of_mem _ m1)

theorem latin1_infix {s : Str} {bs : List UInt8} (h : "OFXHEADER=".toList <:+: utf8Decode bs) (hs : s = latin1 bs) :
    "OFXHEADER=".toList <:+: s := by
  subst hs
  obtain ⟨a, b, e⟩ := h
  obtain ⟨junk, e2, _⟩ := utf8Decode_split bs (Nat.le_refl _)
  rw [e2, ← e, toBytes_append, toBytes_append, latin1_append, latin1_append, latin1_append,
    latin1_ascii (s := "OFXHEADER=".toList) (by unfold Ascii; decide)]
  exact ⟨latin1 (toBytes a), latin1 (toBytes b) ++ latin1 junk, by simp only [List.append_assoc]⟩

theorem utf8Decode_grow (b x : List UInt8) : ∃ y, utf8Decode (b ++ x) = utf8Decode b ++ y := by
  obtain ⟨junk, e, _⟩ := utf8Decode_split b (Nat.le_refl _)
  refine ⟨utf8Decode (junk ++ x), ?_⟩
  conv_lhs => rw [e, List.append_assoc, utf8Decode_append]

/-- A complete XML document may be followed by anything. -/
theorem lexed_xml_ext {env : Env} {nt : NameTable} {s : Str} {r : Response Message} (h : decodeXML env (lex true nt s) = .ok r) (y : Str) :
    decodeXML env (lex true nt (s ++ y)) = .ok r := by
  obtain ⟨q, h1, h2⟩ := lex_grow (strict := true) (nt := nt) _ s y (Nat.le_refl _)
  obtain ⟨z, hz⟩ := h2
  rw [← hz]
  apply decodeXML_ext
  rcases h1 with h1 | ⟨t, h1⟩
  · rw [← h1]; exact h
  · rw [h1] at h
    exact decodeXML_drop (.inl ⟨_, rfl, fun n e => by cases e⟩) h

theorem lexed_sgml_ext {env : Env} {nt : NameTable} {s : Str} {v : Nat} {r : Response Message}
    (h : decodeBody env false v (lex false nt s) = .ok r) (y : Str) :
    decodeBody env false v (lex false nt (s ++ y)) = .ok r := by
  obtain ⟨q, h1, h2⟩ := lex_grow (strict := false) (nt := nt) _ s y (Nat.le_refl _)
  obtain ⟨z, hz⟩ := h2
  rw [← hz]
  apply decodeBody_ext
  rcases h1 with h1 | ⟨t, h1⟩
  · rw [← h1]; exact h
  · rw [h1] at h
    exact decodeBody_drop (.inl ⟨_, rfl, fun n e => by cases e⟩) h

/-- What decoding succeeds on, by kind of document. -/
theorem decodeResponse_iff {env : Env} {nt : NameTable} {bs : List UInt8} {r : Response Message} :
    decodeResponse env nt bs = .ok r ↔
      (guessVersion (latin1 (bs.take 1024)) = true ∧ decodeXML env (lex true nt (utf8Decode bs)) = .ok r) ∨
      ∃ head tail v, bs = head ++ ltByte :: tail ∧ ltByte ∉ head ∧ head.length < 1024 ∧
        checkSGMLHeader (latin1 head ++ ['<']) = .ok v ∧ decodeBody env false v (lex false nt (utf8Decode (ltByte :: tail))) = .ok r := by
  constructor
  · intro h
    unfold decodeResponse at h
    by_cases hg : guessVersion (latin1 (bs.take 1024)) = true
    · rw [if_pos hg] at h
      refine .inl ⟨hg, ?_⟩
      unfold decodeXML
      exact h
    · rw [if_neg hg] at h
      cases hs : readSlice bs with
      | error e => rw [hs] at h; cases h
      | ok p =>
        obtain ⟨s, rest⟩ := p
        rw [hs] at h
        simp only at h
        obtain ⟨head, tail, h1, h2, h3, rfl, rfl⟩ := readSlice_some hs
        cases hc : checkSGMLHeader (latin1 head ++ ['<']) with
        | error e => rw [hc] at h; cases h
        | ok v => rw [hc] at h; exact .inr ⟨head, tail, v, h1, h2, h3, hc, h⟩
  · rintro (⟨hg, h⟩ | ⟨head, tail, v, rfl, h2, h3, hc, h⟩)
    · unfold decodeResponse
      rw [if_pos hg]
      exact h
    · have hp : guessVersion (latin1 ((head ++ ltByte :: tail).take 1024)) = false := by
        apply guess_sgml
        obtain ⟨n, _, hn⟩ := (checkSGML_iff ..).mp hc
        rw [latin1_take]
        refine take_prefix ?_ (by decide)
        rw [show head ++ ltByte :: tail = head ++ [ltByte] ++ tail from by simp, latin1_append, latin1_append]
        exact (sgml_prefix hn).trans (List.prefix_append _ _)
      unfold decodeResponse
      rw [if_neg (by rw [hp]; decide), readSlice_ok h2 h3]
      simp only [hc]
      exact h

/-- A document that decodes may be followed by anything. -/
theorem decodeResponse_ext {env : Env} {nt : NameTable} {bs : List UInt8} {r : Response Message}
    (h : decodeResponse env nt bs = .ok r) (x : List UInt8) : decodeResponse env nt (bs ++ x) = .ok r := by
  rcases decodeResponse_iff.mp h with ⟨hg, h⟩ | ⟨head, tail, v, rfl, h2, h3, hc, h⟩
  · obtain ⟨y, hy⟩ := utf8Decode_grow bs x
    refine decodeResponse_iff.mpr (.inl ⟨?_, by rw [hy]; exact lexed_xml_ext h y⟩)
    rw [List.take_append, latin1_append]
    by_cases hl : 1024 ≤ bs.length
    · rw [Nat.sub_eq_zero_of_le hl, List.take_zero, show latin1 [] = [] from rfl, List.append_nil]
      exact hg
    · refine guess_grow hg ?_
      rw [List.take_of_length_le (by omega)]
      obtain ⟨v, rest, h1, _⟩ := decodeXML_iff.mp h
      exact indexOf_of_infix (latin1_infix (xml_keyword h1) rfl)
  · obtain ⟨y, hy⟩ := utf8Decode_grow (ltByte :: tail) x
    refine decodeResponse_iff.mpr (.inr ⟨head, tail ++ x, v, by simp, h2, h3, hc, ?_⟩)
    rw [← List.cons_append, hy]
    exact lexed_sgml_ext h y

/-- The shortest beginning of a token list on which a reader succeeds ends with an end tag,
if the reader has no use for inert tokens at the end. -/
theorem shortest_tokens {strict : Bool} (F : List Tok → Except String (Response Message)) (h0 : ∀ r, F [] ≠ .ok r)
    (hdrop : ∀ toks tl r, Inert strict tl → F (toks ++ tl) = .ok r → F toks = .ok r)
    {toks : List Tok} {r : Response Message} (h : F toks = .ok r) (hext : ∀ a x r, F a = .ok r → F (a ++ x) = .ok r) :
    ∃ p m, p ++ [.stop m] <+: toks ∧ F (p ++ [.stop m]) = .ok r ∧ (strict = true → m = "OFX".toList) ∧ ∀ p0, p ≠ p0 ++ [.start m] := by
  induction toks using List.reverseRecOn generalizing r with
  | nil => exact absurd h (h0 r)
  | append_singleton l t ih =>
    by_cases hl : ∃ r', F l = .ok r'
    · obtain ⟨r', hl⟩ := hl
      have := hext _ [t] _ hl
      rw [h] at this
      cases this
      obtain ⟨p, m, h1, h2⟩ := ih hl
      exact ⟨p, m, h1.trans (List.prefix_append ..), h2⟩
    · cases t with
      | stop m =>
        refine ⟨l, m, List.prefix_refl _, h, ?_, ?_⟩
        · intro hs
          by_contra hm
          exact hl ⟨r, hdrop _ _ _ (.inl ⟨_, rfl, fun n e => by cases e; exact ⟨hs, hm⟩⟩) h⟩
        · rintro p0 rfl
          have h' : F (p0 ++ [.start m, .stop m]) = .ok r := by
            rw [← h]
            simp
          have := hext _ [.start m] _ (hdrop _ _ _ (.inr ⟨m, rfl⟩) h')
          exact hl ⟨r, this⟩
      | start n => exact absurd ⟨r, hdrop _ _ _ (.inl ⟨_, rfl, fun n e => by cases e⟩) h⟩ hl
      | text n => exact absurd ⟨r, hdrop _ _ _ (.inl ⟨_, rfl, fun n e => by cases e⟩) h⟩ hl
      | proc a b => exact absurd ⟨r, hdrop _ _ _ (.inl ⟨_, rfl, fun n e => by cases e⟩) h⟩ hl
      | misc => exact absurd ⟨r, hdrop _ _ _ (.inl ⟨_, rfl, fun n e => by cases e⟩) h⟩ hl

/-- Some beginning of the document that ends with an end tag decodes to the same. -/
theorem ends_with_tag {env : Env} {nt : NameTable} {bs : List UInt8} {r : Response Message} (h : decodeResponse env nt bs = .ok r) :
    ∃ a x m w, bs = a ++ x ∧ decodeResponse env nt a = .ok r ∧ (∀ c ∈ w, isXmlSpace c = true) ∧
      (∃ v, a = v ++ toBytes ("</".toList ++ m ++ w ++ ">".toList)) ∧ (5 ≤ r.version → m = "OFX".toList) := by
  rcases decodeResponse_iff.mp h with ⟨hg, h⟩ | ⟨head, tail, v, rfl, h2, h3, hc, h⟩
  · obtain ⟨p, m, h1, h2, h3, h4⟩ := shortest_tokens (strict := true) (decodeXML env) (fun r h => by cases h)
      (fun _ _ _ hi h => decodeXML_drop hi h) h (fun _ x _ h => decodeXML_ext h x)
    obtain ⟨u, rest, e, hu, hend⟩ := lex_upto _ _ p (Nat.le_refl _) h1
    rcases hend with ⟨v, w, hw, hv, _⟩ | ⟨p0, hp0⟩
    · obtain ⟨junk, e2, _⟩ := utf8Decode_split bs (Nat.le_refl _)
      have e3 : bs = toBytes u ++ (toBytes rest ++ junk) := by
        conv_lhs => rw [e2, e, toBytes_append, List.append_assoc]
      refine ⟨toBytes u, toBytes rest ++ junk, m, w, e3, ?_, hw, ⟨toBytes v, ?_⟩, fun _ => h3 rfl⟩
      · refine decodeResponse_iff.mpr (.inl ⟨?_, ?_⟩)
        · rw [e3, List.take_append, latin1_append] at hg
          exact guess_shrink hg
        · rw [utf8Decode_toBytes, hu]; exact h2
      · rw [hv, toBytes_append]
        rfl
    · exact absurd hp0 (h4 p0)
  · obtain ⟨p, m, h1, h2', _, h4⟩ := shortest_tokens (strict := false) (decodeBody env false v) (fun r h => by cases h)
      (fun _ _ _ hi h => decodeBody_drop hi h) h (fun _ x _ h => decodeBody_ext h x)
    obtain ⟨u, rest, e, hu, hend⟩ := lex_upto _ _ p (Nat.le_refl _) h1
    rcases hend with ⟨v', w, hw, hv, hz⟩ | ⟨p0, hp0⟩
    · obtain ⟨junk, e2, _⟩ := utf8Decode_split (ltByte :: tail) (Nat.le_refl _)
      have e3 : ltByte :: tail = toBytes u ++ (toBytes rest ++ junk) := by
        conv_lhs => rw [e2, e, toBytes_append, List.append_assoc]
      refine ⟨head ++ toBytes u, toBytes rest ++ junk, m, w, by rw [e3, List.append_assoc], ?_, hw, ⟨head ++ toBytes v', ?_⟩, ?_⟩
      · have hne : toBytes u ≠ [] := by
          rw [hv, toBytes_append]
          simp [toBytes]
        obtain ⟨y, hy⟩ : ∃ y, toBytes u = ltByte :: y := by
          cases hb : toBytes u with
          | nil => exact absurd hb hne
          | cons b y => rw [hb] at e3; cases e3; exact ⟨y, rfl⟩
        refine decodeResponse_iff.mpr (.inr ⟨head, y, v, by rw [hy], h2, h3, hc, ?_⟩)
        rw [← hy, utf8Decode_toBytes, hu]
        exact h2'
      · rw [hv, toBytes_append, ← List.append_assoc]
        rfl
      · intro hver
        exfalso
        obtain ⟨n, rfl, hn⟩ := (checkSGML_iff ..).mp hc
        have h5 := decodeBody_version h
        obtain ⟨version, hv, _⟩ := hn
        have : n < 4 := by
          by_contra hge
          rw [List.getElem?_eq_none (by simpa [sgmlVersions] using hge)] at hv
          cases hv
        omega
    · exact absurd hp0 (h4 p0)

end Ofx
