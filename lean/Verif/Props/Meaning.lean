import Verif.Props.Text
import Verif.Props.Codec
import Verif.Lemmas.Meaning
/-
Property C71: the document sent means exactly what the request says.
-/
namespace Ofx.Props
open Ofx Ofx.Spec

/-- C71: a text lays out one element tree only, apart from white space around texts and
between elements: whatever the texts in it, nothing in a text can be taken for markup. -/
theorem C71_one_tree {sgml : Bool} {n n' : Node} {t : Str} (h : Layout sgml n t) (h' : Layout sgml n' t) : tidy n = tidy n' := by
  obtain ⟨ys, h1, h2⟩ := layout_common h h'
  have e := (forest_tidy h1).trans (forest_tidy h2).symm
  have key : ∀ {m : Node} {u : Str}, Layout sgml m u → tidyL [m] = [tidy m] := by
    intro m u hm
    cases hm with
    | leaf _ _ => unfold textNode; split <;> rfl
    | openLeaf _ _ _ _ => unfold textNode; split <;> rfl
    | node _ _ _ => rfl
  rw [key h, key h'] at e
  exact (List.cons.inj e).1

/-- C71: a document says one thing. -/
theorem C71_one_meaning {env : Env} {bs : List UInt8} {v v' : Nat} {so so' : SignonRequest} {sets sets' : MsgSet → List Message}
    (h : SaysRequest env bs v so sets) (h' : SaysRequest env bs v' so' sets') :
    v = v' ∧ so = so' ∧ ∀ s, s ≠ .signon → sets s = sets' s := says_unique h h'

theorem header_states {v : Nat} {cr : Bool} {head : Str} (h : writeHeader v cr = some head) : HeaderStates v head := by
  by_cases hv : 1 ≤ v ∧ v ≤ 4
  · have hg : sgmlHeaderGood v cr = true := by
      apply sgmlHeaders_good
      · simp; omega
      · cases cr <;> simp
    unfold sgmlHeaderGood at hg
    rw [h] at hg
    simp only [Bool.and_eq_true] at hg
    obtain ⟨⟨⟨-, h2⟩, -⟩, h4⟩ := hg
    cases hc : checkSGMLHeader (head ++ ['<']) with
    | error e => rw [hc] at h4; cases h4
    | ok x =>
      rw [hc] at h4
      have hx : x = v := by simpa using h4
      obtain ⟨n, hn, hh⟩ := (checkSGML_iff _ _).mp hc
      exact .inl ⟨n, by omega, by simpa using h2, hh⟩
  · have hv' : 5 ≤ v ∧ v ≤ 11 := by
      unfold writeHeader at h
      rw [if_neg hv] at h
      by_cases h5 : 5 ≤ v ∧ v ≤ 11
      · exact h5
      · rw [if_neg h5] at h; cases h
    have hg : xmlHeaderGood v cr = true := by
      apply xmlHeaders_good
      · simp; omega
      · cases cr <;> simp
    unfold xmlHeaderGood at hg
    simp only [Bool.and_eq_true] at hg
    obtain ⟨⟨⟨⟨⟨⟨⟨h1, -⟩, -⟩, -⟩, -⟩, -⟩, h2⟩, -⟩ := hg
    have h1 : writeHeader v cr = some (xmlHeaderText v cr) := by simpa using h1
    rw [h1] at h
    cases h
    obtain ⟨n, attrs, hn, a1, a2⟩ := (checkXML_iff _ _).mp (xmlInst_version hv')
    have hw : IsPadding (lineEnd cr) := (isPadding_iff _).mpr (by cases cr <;> decide)
    refine .inr ⟨n, attrs, [], lineEnd cr, lineEnd cr, xmlDecl, xmlInst v, hn, ?_, fun c hc => (by cases hc), hw, hw, by decide +kernel,
      by simpa using h2, a1, a2⟩
    unfold xmlHeaderText
    simp

theorem inside_order (order : List (MsgSet × String)) (hn : (order.map (·.2.toList)).Nodup) (p : MsgSet × String → Bool)
    (content : MsgSet → List Node) (x : MsgSet × String) (hx : x ∈ order) (hp : p x = false → elems (content x.1) = []) :
    inside x.2.toList ((order.filter p).map (fun s => Node.elem s.2.toList (content s.1))) = elems (content x.1) := by
  have hnone : ∀ l : List (MsgSet × String), x.2.toList ∉ l.map (·.2.toList) →
      inside x.2.toList ((l.filter p).map (fun s => Node.elem s.2.toList (content s.1))) = [] := by
    intro l
    induction l with
    | nil => intro _; rfl
    | cons a l ih =>
      intro h
      simp only [List.map_cons, List.mem_cons, not_or] at h
      by_cases ha : p a = true
      · rw [List.filter_cons_of_pos ha, List.map_cons, inside_cons, if_neg (fun e => h.1 e.symm), ih h.2]; rfl
      · rw [List.filter_cons_of_neg ha]; exact ih h.2
  induction order with
  | nil => cases hx
  | cons a l ih =>
    rw [List.map_cons, List.nodup_cons] at hn
    rcases List.mem_cons.mp hx with rfl | hx
    · by_cases ha : p x = true
      · rw [List.filter_cons_of_pos ha, List.map_cons, inside_cons, if_pos rfl, hnone l hn.1, List.append_nil]
      · rw [List.filter_cons_of_neg ha, hnone l hn.1, hp (by simpa using ha)]
    · have hne : ¬ a.2.toList = x.2.toList := fun e => hn.1 (e ▸ List.mem_map.mpr ⟨x, hx, rfl⟩)
      by_cases ha : p a = true
      · rw [List.filter_cons_of_pos ha, List.map_cons, inside_cons, if_neg hne, List.nil_append]
        exact ih hn.2 hx
      · rw [List.filter_cons_of_neg ha]; exact ih hn.2 hx

theorem requestOrder_mem {s : MsgSet} {n : String} (h : (s, n) ∈ requestOrder) : s ≠ .signon := by
  rw [requestOrder_eq] at h
  obtain ⟨a, ha, he⟩ := List.mem_map.mp h
  cases he
  exact (MsgSet.mem_lists _).mp ha

theorem messageSent_valid {m : Message} {v : Nat} (h : (m.valid v).1 = none) : (m.valid v).2 = messageSent m := by
  cases m with
  | profileRequest m =>
    show Message.profileRequest (m.valid v).2 = _
    have h : (m.valid v).1 = none := h
    unfold ProfileRequest.valid at h ⊢
    cases hu : UID.valid m.TrnUID with
    | some e => rw [hu] at h; cases h
    | none => rfl
  | _ => rfl

theorem isTrim_none : IsTrim "NONE".toList :=
  ⟨fun c h => by cases h; decide, fun c h => by cases h; decide⟩
theorem isTrim_eng : IsTrim "ENG".toList :=
  ⟨fun c h => by cases h; decide, fun c h => by cases h; decide⟩

theorem messageSent_repr {env : Env} {m : Message} (h : ReprMessage env m) : ReprMessage env (messageSent m) := by
  cases m with
  | profileRequest m =>
    have h : TyRepr env (OfxType.ty ProfileRequest) "PROFTRNRQ".toList (OfxType.toDen m) := h
    exact ⟨h.1, h.2.1, h.2.2.1, h.2.2.2.1, isTrim_none, h.2.2.2.2.2⟩
  | _ => exact h

theorem elements_read {ms : List Message} {ns : List Node} {env : Env} {s : MsgSet} {version : Nat}
    (h : List.Forall₂ (fun (m : Message) n => ∃ cs, n = .elem m.name cs ∧ (m.valid version).2.encode = .ok [n]) ms ns)
    (ht : ∀ m ∈ ms, m.type = .rq s ∧ (m.valid version).1 = none) (hx : ∀ m ∈ ms, ReprMessage env m) :
    ∃ ms', List.Forall₂ (fun (e : Str × List Node) (m : Message) =>
      e.1 = (elementName m).toList ∧ m.type = .rq s ∧ ReadsAs env e.1 e.2 m) (elems ns) ms' ∧
      List.Forall₂ SameMessage (ms.map messageSent) ms' := by
  induction h with
  | nil => exact ⟨[], .nil, .nil⟩
  | @cons m n ms ns h1 h2 ih =>
    obtain ⟨ms', i2, i3⟩ := ih (fun m hm => ht m (List.mem_cons_of_mem _ hm)) (fun m hm => hx m (List.mem_cons_of_mem _ hm))
    obtain ⟨cs, rfl, he⟩ := h1
    obtain ⟨htm, hv⟩ := ht m (List.mem_cons_self ..)
    rw [messageSent_valid hv] at he
    have hl : NoLoans (messageSent m) := by
      cases m <;> trivial
    obtain ⟨cs', m', e1, e2, e3, e4, e5⟩ :=
      message_roundtrip (message_repr env _ hl (messageSent_repr (hx m (List.mem_cons_self ..))))
    rw [e1] at he
    simp only [Except.ok.injEq, List.cons.injEq, Node.elem.injEq, and_true] at he
    obtain ⟨hn, rfl⟩ := he
    refine ⟨m' :: ms', ?_, .cons e5 i3⟩
    have hty : (messageSent m).type = m.type := by cases m <;> rfl
    simp only [elems]
    refine .cons ⟨?_, (e3.trans hty).trans htm, ?_⟩ i2
    · show m.name = _
      rw [← hn, e2]
    · show ReadsAs env m.name cs' m'
      rw [← hn]; exact e4

theorem signonSent_repr {env : Env} {s : SignonRequest} (h : ReprSignonRequest env s) : ReprSignonRequest env (signonSent s) := by
  have h : TyRepr env (OfxType.ty SignonRequest) "SONRQ".toList (OfxType.toDen s) := h
  refine ⟨h.1, h.2.1, h.2.2.1, h.2.2.2.1, h.2.2.2.2.1, h.2.2.2.2.2.1, ?_, h.2.2.2.2.2.2.2⟩
  show IsTrim (if s.Language = [] then "ENG".toList else s.Language)
  by_cases hl : s.Language = []
  · rw [if_pos hl]; exact isTrim_eng
  · rw [if_neg hl]; exact h.2.2.2.2.2.2.1

/-- C71: the bytes of a marshalled request say its version, its signon (in English unless a
language is given) and its messages, in the lists they are in and in their order (profiles
without client routing), whatever the texts in them. -/
theorem C71_request_says (env : Env) (r : Request Message) (d : Doc) (h : r.marshal.1 = .ok d)
    (hv : 1 ≤ r.version ∧ r.version ≤ 11) (hs : ReprSignonRequest env r.signon) (hc : CleanSignonRequest r.signon)
    (hm : ∀ s, s ≠ .signon → ∀ m ∈ r.sets s, ReprMessage env m ∧ CleanMessage m) :
    ∃ so sets, SaysRequest env d.bytes r.version so sets ∧ SameSignonRequest (signonSent r.signon) so ∧
      ∀ s, s ≠ .signon → List.Forall₂ SameMessage ((r.sets s).map messageSent) (sets s) := by
  have hall := (C26_request_marshal_iff r).mp ⟨d, h⟩
  obtain ⟨head, hh⟩ := header_some hv r.carriageReturn
  obtain ⟨t, ht, hl⟩ := C49_request_layout r d h hc (fun s hs m hmm => (hm s hs m hmm).2)
  obtain ⟨signon, content, hb, ⟨ch, hsn⟩, henc, hcont⟩ := C25_request_body r d h
  subst hsn
  have hhead : d.header = head := by
    obtain ⟨_, ns, rest, h1, h2, rfl⟩ := (request_marshal_ok r d).mp h
    show (writeHeader r.version r.carriageReturn).getD [] = head
    rw [hh]; rfl
  have hso : (r.signon.valid r.version).2 = signonSent r.signon :=
    C23_signon_language r.version r.signon ((C23_signon_valid_iff r.version _).mpr hall.1)
  rw [hso] at henc
  obtain ⟨ch', so, g1, g2, g3⟩ := C38_signon_request_roundtrip env (signonSent r.signon) (signonSent_repr hs)
  rw [henc] at g1
  cases g1
  have key : ∀ s, s ≠ .signon → ∃ ms', List.Forall₂ (fun (e : Str × List Node) (m : Message) =>
      e.1 = (elementName m).toList ∧ m.type = .rq s ∧ ReadsAs env e.1 e.2 m) (elems (content s)) ms' ∧
      List.Forall₂ SameMessage ((r.sets s).map messageSent) ms' :=
    fun s hs => elements_read (hcont s hs) (hall.2 s hs) (fun m hmm => (hm s hs m hmm).1)
  choose! ms' key using key
  have hel : ∀ l : List (MsgSet × String), elems (l.map (fun s => Node.elem s.2.toList (content s.1))) =
      l.map (fun s => (s.2.toList, content s.1)) := by
    intro l
    induction l with
    | nil => rfl
    | cons a l ih => simp only [List.map_cons, elems, ih]
  refine ⟨so, ms', ⟨head, t, _, [.elem "SONRQ".toList ch], ch,
    elems ((requestOrder.filter (fun s => decide ((r.sets s.1).length > 0))).map (fun s => Node.elem s.2.toList (content s.1))), ?_, header_states hh, hb ▸ hl, ?_, rfl,
    signonRequestIs_iff.mpr ((decodeNew_says env _ _ _ (by decide +kernel)).mp g2), ?_, ?_⟩, g3,
    fun s hs => (key s hs).2⟩
  · show toBytes d.text = _
    rw [ht, hhead]
  · simp only [elems]
  · intro e he
    rw [hel] at he
    obtain ⟨s, hs, rfl⟩ := List.mem_map.mp he
    exact ⟨s, List.mem_of_mem_filter hs, rfl⟩
  · rintro ⟨s, n⟩ hs
    have hne := requestOrder_mem hs
    have hsig : ¬ "SIGNONMSGSRQV1".toList = n.toList := by
      intro e
      have : "SIGNONMSGSRQV1".toList ∉ requestOrder.map (·.2.toList) := by decide +kernel
      exact this (List.mem_map.mpr ⟨(s, n), hs, e.symm⟩)
    simp only
    rw [inside_cons, if_neg hsig, List.nil_append,
      inside_order requestOrder (by decide +kernel) _ content (s, n) hs]
    · exact (key s hne).1.imp (fun _ _ h => ⟨h.1, h.2.1, (message_says ..).mp h.2.2⟩)
    · intro hp
      have h0 : r.sets s = [] := by simpa using hp
      have := hcont s hne
      rw [h0] at this
      rw [List.forall₂_nil_left_iff.mp this]
      rfl

/-- C71: so requests sent as the same bytes have the same version and mean the same. -/
theorem C71_same_bytes (env : Env) (r r' : Request Message) (d d' : Doc) (h : r.marshal.1 = .ok d) (h' : r'.marshal.1 = .ok d')
    (hv : 1 ≤ r.version ∧ r.version ≤ 11) (hv' : 1 ≤ r'.version ∧ r'.version ≤ 11)
    (hs : ReprSignonRequest env r.signon ∧ CleanSignonRequest r.signon)
    (hs' : ReprSignonRequest env r'.signon ∧ CleanSignonRequest r'.signon)
    (hm : ∀ s, s ≠ .signon → ∀ m ∈ r.sets s, ReprMessage env m ∧ CleanMessage m)
    (hm' : ∀ s, s ≠ .signon → ∀ m ∈ r'.sets s, ReprMessage env m ∧ CleanMessage m) (he : d.bytes = d'.bytes) :
    r.version = r'.version ∧ ∃ so, ∃ sets : MsgSet → List Message, SameSignonRequest (signonSent r.signon) so ∧
      SameSignonRequest (signonSent r'.signon) so ∧
      ∀ s, s ≠ .signon → List.Forall₂ SameMessage ((r.sets s).map messageSent) (sets s) ∧
        List.Forall₂ SameMessage ((r'.sets s).map messageSent) (sets s) := by
  obtain ⟨so, sets, h1, h2, h3⟩ := C71_request_says env r d h hv hs.1 hs.2 hm
  obtain ⟨so', sets', h1', h2', h3'⟩ := C71_request_says env r' d' h' hv' hs'.1 hs'.2 hm'
  rw [he] at h1
  obtain ⟨e1, rfl, e3⟩ := says_unique h1 h1'
  exact ⟨e1, so, sets, h2, h2', fun s hs => ⟨h3 s hs, e3 s hs ▸ h3' s hs⟩⟩

/-! A password that looks like markup. -/

def trickySignon : SignonRequest :=
  { DtClient := sampleDate, UserID := "myusername".toList, UserPass := "x</USERPASS><GENUSERKEY>Y&lt;".toList, UserKey := [],
    GenUserKey := false, Language := [], Org := "BNK".toList, Fid := "1987".toList, AppID := "OFXGO".toList,
    AppVer := "0001".toList, ClientUID := [] }

def trickyRequest : Request Message :=
  { url := "https://example.com".toList, version := 1, signon := trickySignon,
    sets := fun s => if s = .prof then [.profileRequest ⟨"1".toList, [], [], [], sampleDate⟩] else [],
    indent := false, carriageReturn := false }

theorem trickyRequest_ok : ∃ d, trickyRequest.marshal.1 = .ok d := by
  rw [C26_request_marshal_iff]
  refine ⟨(C23_signon_valid_iff 1 _).mp (by decide +kernel), ?_⟩
  intro s _ m hm
  have hm : m ∈ (if s = .prof then [Message.profileRequest ⟨"1".toList, [], [], [], sampleDate⟩] else []) := hm
  by_cases hb : s = .prof
  · subst hb
    simp only [if_true, List.mem_singleton] at hm
    subst hm
    exact ⟨rfl, by decide +kernel⟩
  · rw [if_neg hb] at hm; cases hm

theorem trickyRequest_repr (env : Env) : ReprSignonRequest env trickyRequest.signon ∧ CleanSignonRequest trickyRequest.signon ∧
    ∀ s, s ≠ .signon → ∀ m ∈ trickyRequest.sets s, ReprMessage env m ∧ CleanMessage m := by
  have trim : ∀ s : Str, trimB s = true → IsTrim s := fun s h => trimB_sound h
  have date : LeafExact env .date sampleDate := leafB_sound sampleEnv .date sampleDate (by decide +kernel)
  refine ⟨⟨trivial, date, trim _ (by decide), trim _ (by decide), trim _ (by decide), trivial, trim _ (by decide), trim _ (by decide),
    trim _ (by decide), trim _ (by decide), trim _ (by decide), trim _ (by decide), trivial⟩, textB_sound _ _ (by decide +kernel), ?_⟩
  intro s _ m hm
  have hm : m ∈ (if s = .prof then [Message.profileRequest ⟨"1".toList, [], [], [], sampleDate⟩] else []) := hm
  by_cases hb : s = .prof
  · subst hb
    simp only [if_true, List.mem_singleton] at hm
    subst hm
    exact ⟨⟨trivial, trim _ (by decide), trim _ (by decide), trim _ (by decide), trim _ (by decide), date, trivial⟩,
      textB_sound (OfxType.ty ProfileRequest) _ (by decide +kernel)⟩
  · rw [if_neg hb] at hm; cases hm

/-- The hypotheses are met by a request whose password looks like markup; what it says is that
password, and no more. -/
example (env : Env) : ∃ d so sets, trickyRequest.marshal.1 = .ok d ∧ SaysRequest env d.bytes 1 so sets ∧
    so.UserPass = "x</USERPASS><GENUSERKEY>Y&lt;".toList ∧ so.GenUserKey = false ∧ so.Language = "ENG".toList ∧
    (sets .prof).length = 1 ∧ sets .bank = [] := by
  obtain ⟨d, hd⟩ := trickyRequest_ok
  obtain ⟨h1, h2, h3⟩ := trickyRequest_repr env
  obtain ⟨so, sets, g1, g2, g3⟩ := C71_request_says env trickyRequest d hd (by decide) h1 h2 h3
  obtain ⟨-, -, -, k1, -, k2, k3, -⟩ := g2
  have hp := (g3 .prof (by decide)).length_eq
  have hb := (g3 .bank (by decide)).length_eq
  have k1 : so.UserPass = trickySignon.UserPass := k1
  have k2 : so.GenUserKey = trickySignon.GenUserKey := k2
  have k3 : so.Language = "ENG".toList := k3
  exact ⟨d, so, sets, hd, g1, k1, k2, k3, hp.symm, List.eq_nil_of_length_eq_zero hb.symm⟩

end Ofx.Props
