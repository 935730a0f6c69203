import Verif.Lemmas.SaysDoc
import Verif.Spec.Meaning
import Verif.Lemmas.Layout
import Verif.Lemmas.DocHeader
import Verif.Lemmas.Header
import Verif.Lemmas.TextCheck
import Mathlib.Data.List.Forall2
/-
A document has one meaning.
-/
namespace Ofx
open Spec

/-! ### Headers -/

theorem split_first {x : Char} {a a' b b' : Str} (h : x ∉ a) (h' : x ∉ a') (e : a ++ x :: b = a' ++ x :: b') :
    a = a' ∧ b = b' := by
  induction a generalizing a' with
  | nil =>
    cases a' with
    | nil => simpa using e
    | cons c a' => simp only [List.nil_append, List.cons_append, List.cons.injEq] at e; exact absurd (e.1 ▸ List.mem_cons_self ..) h'
  | cons c a ih =>
    cases a' with
    | nil => simp only [List.nil_append, List.cons_append, List.cons.injEq] at e; exact absurd (e.1 ▸ List.mem_cons_self ..) h
    | cons d a' =>
      simp only [List.cons_append, List.cons.injEq] at e
      obtain ⟨g1, g2⟩ := ih (fun hm => h (List.mem_cons_of_mem _ hm)) (fun hm => h' (List.mem_cons_of_mem _ hm)) e.2
      exact ⟨by rw [e.1, g1], g2⟩

theorem padding_no {w : Str} (h : IsPadding w) {c : Char} (hc : isSpace c = false) : c ∉ w := by
  intro hm
  have := (isPadding_iff w).mp h _ hm
  rw [hc] at this; cases this

/-- The header before an element states one version, and ends where the element begins. -/
theorem header_unique {v v' : Nat} {head head' t t' : Str} (h : HeaderStates v head) (h' : HeaderStates v' head')
    (e : head ++ '<' :: t = head' ++ '<' :: t') : v = v' ∧ t = t' := by
  have mixed : ∀ {n : Nat} {head : Str}, SGMLHeader n (head ++ ['<']) → ∀ t, (head ++ '<' :: t).head? = some 'O' := by
    intro n head h t
    obtain ⟨u, hu⟩ := sgml_prefix h
    cases head with
    | nil => simp at hu
    | cons c head =>
      simp at hu
      simp [← hu.1]
  have xml : ∀ {w : Str}, IsPadding w → ∀ t, (w ++ '<' :: t).head? ≠ some 'O' := by
    intro w hw t
    cases w with
    | nil => simp
    | cons c w =>
      simp only [List.cons_append, List.head?_cons, ne_eq, Option.some.injEq]
      rintro rfl
      exact padding_no hw (c := 'O') (by decide) (List.mem_cons_self ..)
  rcases h with ⟨n, rfl, h1, h2⟩ | ⟨n, attrs, w, w1, w2, decl, inst, rfl, rfl, p1, p2, p3, p4, p5, p6, p7⟩ <;>
    rcases h' with ⟨n', rfl, h1', h2'⟩ | ⟨n', attrs', w', w1', w2', decl', inst', rfl, rfl, p1', p2', p3', p4', p5', p6', p7'⟩
  · obtain ⟨rfl, rfl⟩ := split_first h1 h1' e
    have a := (checkSGML_iff _ _).mpr ⟨n, rfl, h2⟩
    have b := (checkSGML_iff _ _).mpr ⟨n', rfl, h2'⟩
    rw [a] at b
    cases b
    exact ⟨rfl, rfl⟩
  · exfalso
    have := mixed h2 t
    rw [e] at this
    simp only [List.append_assoc] at this
    exact xml p1' _ this
  · exfalso
    have := mixed h2' t'
    rw [← e] at this
    simp only [List.append_assoc] at this
    exact xml p1 _ this
  · have lt : isSpace '<' = false := by decide
    have e0 : w ++ '<' :: ("?xml ".toList ++ (decl ++ '?' :: '>' :: (w1 ++ '<' :: ("?OFX ".toList ++ (inst ++ '?' :: '>' :: (w2 ++ '<' :: t)))))) =
        w' ++ '<' :: ("?xml ".toList ++ (decl' ++ '?' :: '>' :: (w1' ++ '<' :: ("?OFX ".toList ++ (inst' ++ '?' :: '>' :: (w2' ++ '<' :: t')))))) := by
      simpa using e
    clear e
    have e1 := (split_first (padding_no p1 lt) (padding_no p1' lt) e0).2
    have e2 := split_first p4 p4' (List.append_cancel_left e1)
    have e3 := split_first (padding_no p2 lt) (padding_no p2' lt) (List.cons.inj e2.2).2
    have e4 := split_first p5 p5' (List.append_cancel_left e3.2)
    have e5 := split_first (padding_no p3 lt) (padding_no p3' lt) (List.cons.inj e4.2).2
    obtain ⟨rfl, -⟩ := e4
    refine ⟨?_, e5.2⟩
    have a := (checkXML_iff _ _).mpr ⟨n, attrs, rfl, p6, p7⟩
    have b := (checkXML_iff _ _).mpr ⟨n', attrs', rfl, p6', p7'⟩
    rw [a] at b
    cases b
    rfl

/-! ### Trees -/

theorem tidyL_txt (s : Str) : tidyL (txt s) = if trimSpace s = [] then [] else [.text (trimSpace s)] := by
  unfold txt
  by_cases hs : s = []
  · subst hs; rfl
  · rw [if_neg hs]; rfl

mutual
theorem pad_tidy : {c c' : List Node} → Pad c c' → tidyL c = tidyL c'
  | _, _, .text h => by rw [tidyL_txt, tidyL_txt, h]
  | _, _, .forest h => forest_tidy h
theorem forest_tidy : {c c' : List Node} → Forest c c' → tidyL c = tidyL c'
  | _, _, .nil => rfl
  | _, _, .blank hs h => by
    rw [forest_tidy h]
    conv_rhs => unfold tidyL
    simp only
    rw [if_pos (trimSpace_eq_nil.mpr hs)]
  | _, _, .elem hp h => by
    unfold tidyL
    simp only [tidy]
    rw [pad_tidy hp, forest_tidy h]
end

/-- The tree a text is read as, in a container. -/
theorem layout_read {strict : Bool} (nt : NameTable) {c : Node} {t : Str} (h : Layout (!strict) c t) :
    ∃ ys, Forest [c] ys ∧ ∃ r, build strict ("OFX".toList, []) [] (lex strict nt (t ++ (['<', '/'] ++ "OFX".toList ++ ['>'] ++ []))) =
      .ok (.elem "OFX".toList ys, r) := by
  have hn : AsciiName "OFX".toList := ((containerB_iff _).mp container_ofx).1
  have hl : StaysOpen strict "OFX".toList := fun _ => ((containerB_iff _).mp container_ofx).2
  obtain ⟨ys, h1, h2⟩ := layout_build nt h ("OFX".toList, []) [] [] [] (['<', '/'] ++ "OFX".toList ++ ['>'] ++ []) hl .nil
    (fun c hc => by cases hc) (tagNext_stop strict nt hn [])
  refine ⟨ys, h1, lex strict nt [], ?_⟩
  rw [List.nil_append] at h2
  rw [h2, lex_stop strict nt hn, build_last]
  simp

/-- Two elements laid out as the same text are read as one tree. -/
theorem layout_common {sgml : Bool} {c c' : Node} {t : Str} (h : Layout sgml c t) (h' : Layout sgml c' t) :
    ∃ ys, Forest [c] ys ∧ Forest [c'] ys := by
  have e : sgml = !(!sgml) := by simp
  rw [e] at h h'
  obtain ⟨ys, h1, r, h2⟩ := layout_read ⟨fun _ => false, fun _ => false⟩ h
  obtain ⟨ys', h1', r', h2'⟩ := layout_read ⟨fun _ => false, fun _ => false⟩ h'
  rw [h2] at h2'
  cases h2'
  exact ⟨ys, h1, h1'⟩

theorem forest_one {n : Str} {d : List Node} {ys : List Node} (h : Forest [.elem n d] ys) :
    ∃ d', elems ys = [(n, d')] ∧ Pad d d' := by
  induction ys with
  | nil => cases h
  | cons y ys ih =>
    cases h with
    | blank hs h => exact ih h
    | elem hp h =>
      refine ⟨_, ?_, hp⟩
      have : ∀ ys, Forest [] ys → elems ys = [] := by
        intro ys
        induction ys with
        | nil => intro _; rfl
        | cons y ys ih => intro h; cases h; exact ih (by assumption)
      simp only [elems]
      rw [this _ h]

/-- Elements with the same name and contents that differ by white space. -/
def ElemPad (a b : Str × List Node) : Prop := a.1 = b.1 ∧ Pad a.2 b.2

theorem forest_elems {c c' : List Node} (h : Forest c c') : List.Forall₂ ElemPad (elems c) (elems c') := by
  induction c' generalizing c with
  | nil => cases h; exact .nil
  | cons x c' ih =>
    cases h with
    | blank hs h => exact ih h
    | elem hp h => exact .cons ⟨rfl, hp⟩ (ih h)

theorem elems_txt (s : Str) : elems (txt s) = [] := by
  unfold txt
  by_cases hs : s = []
  · rw [if_pos hs]; rfl
  · rw [if_neg hs]; rfl

theorem pad_elems {c c' : List Node} (h : Pad c c') : List.Forall₂ ElemPad (elems c) (elems c') := by
  cases h with
  | text h => rw [elems_txt, elems_txt]; exact .nil
  | forest h => exact forest_elems h

theorem pad_inside {name : Str} {c c' : List Node} (h : Pad c c') : List.Forall₂ ElemPad (inside name c) (inside name c') := by
  have := pad_elems h
  unfold inside
  generalize elems c = l at this
  generalize elems c' = l' at this
  induction this with
  | nil => exact .nil
  | @cons a b l l' hab _ ih =>
    by_cases ha : a.1 = name
    · rw [List.filter_cons_of_pos (by simpa using ha), List.filter_cons_of_pos (by simpa using hab.1 ▸ ha), List.flatMap_cons,
        List.flatMap_cons]
      exact List.rel_append (pad_elems hab.2) ih
    · rw [List.filter_cons_of_neg (by simpa using ha), List.filter_cons_of_neg (by simpa using hab.1 ▸ ha)]
      exact ih

/-! ### Messages -/

theorem readsAs_pad {env : Env} {n : Str} {c c' : List Node} (h : Pad c c') (m : Message) :
    ReadsAs env n c m ↔ ReadsAs env n c' m := by
  cases m <;> exact pad_decodeNew env n h _

/-- The name and the contents of an element determine the message. -/
theorem readsAs_unique {env : Env} {n : Str} {c : List Node} {m m' : Message} (hn : n = (elementName m).toList)
    (hn' : n = (elementName m').toList) (h : ReadsAs env n c m) (h' : ReadsAs env n c m') : m = m' := by
  have hn : elementName m = elementName m' := String.toList_injective (hn.symm.trans hn')
  cases m <;> cases m' <;>
    first
    | (simp only [elementName] at hn; exact absurd hn (by decide))
    | exact congrArg _ (Except.ok.inj (Eq.trans (Eq.symm (show _ = _ from h)) h'))

theorem messages_unique {env : Env} {s : MsgSet} {a b x : List (Str × List Node)} {ms ms' : List Message}
    (ha : List.Forall₂ ElemPad a x) (hb : List.Forall₂ ElemPad b x)
    (h : List.Forall₂ (fun (e : Str × List Node) (m : Message) =>
      e.1 = (elementName m).toList ∧ m.type = .rq s ∧ ReadsAs env e.1 e.2 m) a ms)
    (h' : List.Forall₂ (fun (e : Str × List Node) (m : Message) =>
      e.1 = (elementName m).toList ∧ m.type = .rq s ∧ ReadsAs env e.1 e.2 m) b ms') : ms = ms' := by
  induction ha generalizing b ms ms' with
  | nil => cases hb; cases h; cases h'; rfl
  | cons p _ ih =>
    cases hb with
    | cons q hb =>
    cases h with
    | cons r h =>
    cases h' with
    | cons r' h' =>
    rw [ih hb h h']
    congr 1
    have e1 := p.1.symm.trans r.1
    have e2 := q.1.symm.trans r'.1
    have r2 := r.2.2
    have r2' := r'.2.2
    rw [p.1, readsAs_pad p.2] at r2
    rw [q.1, readsAs_pad q.2] at r2'
    exact readsAs_unique e1 e2 r2 r2'

theorem forall_reads {env : Env} {s : MsgSet} {l : List (Str × List Node)} {ms : List Message}
    (h : List.Forall₂ (fun (e : Str × List Node) (m : Message) =>
      e.1 = (elementName m).toList ∧ m.type = .rq s ∧ MessageSays env e.1 e.2 m) l ms) :
    List.Forall₂ (fun (e : Str × List Node) (m : Message) =>
      e.1 = (elementName m).toList ∧ m.type = .rq s ∧ ReadsAs env e.1 e.2 m) l ms :=
  h.imp (fun _ _ h => ⟨h.1, h.2.1, (message_says ..).mpr h.2.2⟩)

/-- A document has one meaning. -/
theorem says_unique {env : Env} {bs : List UInt8} {v v' : Nat} {so so' : SignonRequest} {sets sets' : MsgSet → List Message}
    (h : SaysRequest env bs v so sets) (h' : SaysRequest env bs v' so' sets') :
    v = v' ∧ so = so' ∧ ∀ s, s ≠ .signon → sets s = sets' s := by
  obtain ⟨head, t, cs, first, ch, rest, rfl, h1, h2, h3, h4, h5, -, h7⟩ := h
  obtain ⟨head', t', cs', first', ch', rest', e, h1', h2', h3', h4', h5', -, h7'⟩ := h'
  have e : head ++ t = head' ++ t' := by
    have := congrArg utf8Decode e
    rwa [utf8Decode_toBytes, utf8Decode_toBytes] at this
  obtain ⟨u, hu⟩ := (tagNext_layout (strict := true) ⟨fun _ => false, fun _ => false⟩ h2 [] []).1
  obtain ⟨u', hu'⟩ := (tagNext_layout (strict := true) ⟨fun _ => false, fun _ => false⟩ h2' [] []).1
  rw [List.append_nil] at hu hu'
  subst hu hu'
  obtain ⟨rfl, rfl⟩ := header_unique h1 h1' e
  obtain ⟨ys, g1, g2⟩ := layout_common h2 h2'
  obtain ⟨d, k1, k2⟩ := forest_one g1
  obtain ⟨d', k1', k2'⟩ := forest_one g2
  rw [k1] at k1'
  cases k1'
  refine ⟨rfl, ?_, ?_⟩
  · have p := pad_elems k2
    have p' := pad_elems k2'
    rw [h3] at p
    rw [h3'] at p'
    generalize elems d = l at p p'
    cases p with
    | cons a _ =>
    cases p' with
    | cons a' _ =>
    have q := pad_elems a.2
    have q' := pad_elems a'.2
    rw [h4] at q
    rw [h4'] at q'
    rename_i x _ _ _
    generalize elems x.2 = y at q q'
    cases q with
    | cons b _ =>
    cases q' with
    | cons b' _ =>
    have h5 := (decodeNew_says env _ _ so (by decide +kernel)).mpr (signonRequestIs_iff.mp h5)
    have h5' := (decodeNew_says env _ _ so' (by decide +kernel)).mpr (signonRequestIs_iff.mp h5')
    have r := (pad_decodeNew env "SONRQ".toList b.2 so).mp h5
    have r' := (pad_decodeNew env "SONRQ".toList b'.2 so').mp h5'
    rw [r] at r'
    cases r'
    rfl
  · intro s hs
    have hm : (s, String.ofList (MsgType.rq s).string) ∈ requestOrder := by
      cases s <;> first | (exact absurd rfl hs) | (decide +kernel)
    exact messages_unique (pad_inside k2) (pad_inside k2') (forall_reads (h7 _ hm)) (forall_reads (h7' _ hm))

end Ofx
