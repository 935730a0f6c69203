import Verif.Props.Marshal
import Verif.Lemmas.DecodeDoc
import Verif.Lemmas.ExactCheck
/-
Properties C33 and C37 (element trees): decoding responses.
-/
namespace Ofx.Props
open Ofx Ofx.Spec

theorem responseOrder_mem (s : MsgSet) (n : String) :
    (s, n) ∈ responseOrder ↔ s ≠ .signon ∧ n.toList = (MsgType.rs s).string := by
  rw [responseOrder_eq]
  simp only [List.mem_map, Prod.mk.injEq]
  constructor
  · rintro ⟨a, ha, rfl, rfl⟩
    exact ⟨(MsgSet.mem_lists _).mp ha, by simp⟩
  · rintro ⟨h1, h2⟩
    exact ⟨s, (MsgSet.mem_lists _).mpr h1, rfl, by rw [← h2]; simp⟩

theorem firstElem_some {cs : List Node} {n : Str} {ch rest : List Node} (h : firstElem cs = some (n, ch, rest)) :
    elems cs = (n, ch) :: elems rest := by
  induction cs with
  | nil => cases h
  | cons c cs ih =>
    cases c with
    | elem a b => simp only [firstElem, Option.some.injEq, Prod.mk.injEq] at h; obtain ⟨rfl, rfl, rfl⟩ := h; rfl
    | text t => simp only [firstElem] at h; simp only [elems]; exact ih h
    | misc => simp only [firstElem] at h; simp only [elems]; exact ih h

theorem elems_blank {cs : List Node} (h : cs.all isBlank = true) : elems cs = [] := by
  induction cs with
  | nil => rfl
  | cons c cs ih =>
    rw [List.all_cons, Bool.and_eq_true] at h
    cases c with
    | elem a b => cases h.1
    | text t => simp only [elems]; exact ih h.2
    | misc => cases h.1

/-- C33: in a successfully decoded response the messages of each set are, one by one and
in document order, the elements inside the message set elements of that set (however many
of these there are): each has the type of the element's name, is filed in the list of its
own set, and holds what reading that element alone gives.  Nothing else is in the document
besides the signon, which is read from the only element in SIGNONMSGSRSV1. -/
theorem C33_decoded_messages (env : Env) (version : Nat) (node : Node) (r : Response Message)
    (h : decodeOfx env version node = .ok r) :
    r.version = version ∧
    ∃ cs, node = .elem "OFX".toList cs ∧
      (∃ first rest name ch, elems cs = ("SIGNONMSGSRSV1".toList, first) :: rest ∧ elems first = [(name, ch)] ∧
        decodeNew env name ch = .ok r.signon ∧ ∀ e ∈ rest, ∃ s ∈ responseOrder, e.1 = s.2.toList) ∧
      ∀ s ∈ responseOrder, List.Forall₂
        (fun e m => e.1 = (elementName m).toList ∧ m.type = .rs s.1 ∧ ReadsAs env e.1 e.2 m)
        (inside s.2.toList cs) (r.sets s.1) := by
  cases node with
  | text t => cases h
  | misc => cases h
  | elem n cs =>
    unfold decodeOfx at h
    simp only at h
    by_cases hn : n = "OFX".toList
    swap
    · rw [if_neg hn] at h; cases h
    rw [if_pos hn] at h
    cases hf : cs.filter (fun c => !isBlank c) with
    | nil => rw [hf] at h; cases h
    | cons c0 rest =>
    rw [hf] at h
    cases c0 with
    | text t => cases h
    | misc => cases h
    | elem sn sc =>
    unfold decodeOfxChildren at h
    simp only at h
    by_cases hsn : sn = (MsgType.rs .signon).string
    swap
    · rw [if_neg hsn] at h; cases h
    rw [if_pos hsn] at h
    cases h1 : decodeSignon env sc with
    | error e => rw [h1] at h; cases h
    | ok so =>
    rw [h1] at h
    simp only at h
    cases h2 : decodeSets env (fun _ => []) rest with
    | error e => rw [h2] at h; cases h
    | ok f =>
    rw [h2] at h
    cases h
    obtain ⟨k1, k2⟩ := (decodeSets_ok rest _ f).mp h2
    have hel : elems cs = (sn, sc) :: elems rest := by rw [← elems_filter, hf]; rfl
    refine ⟨rfl, cs, by rw [hn], ?_, ?_⟩
    · unfold decodeSignon at h1
      cases h3 : firstElem sc with
      | none => rw [h3] at h1; cases h1
      | some x =>
        obtain ⟨name, ch, rest'⟩ := x
        rw [h3] at h1
        simp only at h1
        cases h4 : decodeNew (α := SignonResponse) env name ch with
        | error e => rw [h4] at h1; cases h1
        | ok so' =>
          rw [h4] at h1
          simp only at h1
          by_cases hb : rest'.all isBlank = true
          · rw [if_pos hb] at h1
            cases h1
            refine ⟨sc, elems rest, name, ch, by rw [hel, hsn]; rfl, by rw [firstElem_some h3, elems_blank hb], h4, ?_⟩
            intro e he
            have key : ∀ l : List Node, e ∈ elems l → ∃ c ∈ l, c = .elem e.1 e.2 := by
              intro l
              induction l with
              | nil => intro h; cases h
              | cons c l ih =>
                cases c with
                | elem a b =>
                  intro h
                  rcases List.mem_cons.mp h with rfl | h
                  · exact ⟨_, List.mem_cons_self .., rfl⟩
                  · obtain ⟨c, hc, h⟩ := ih h; exact ⟨c, List.mem_cons_of_mem _ hc, h⟩
                | text t => intro h; obtain ⟨c, hc, h⟩ := ih h; exact ⟨c, List.mem_cons_of_mem _ hc, h⟩
                | misc => intro h; obtain ⟨c, hc, h⟩ := ih h; exact ⟨c, List.mem_cons_of_mem _ hc, h⟩
            obtain ⟨c, hc, rfl⟩ := key rest he
            obtain ⟨s, ch', he', hs, _⟩ := k1 _ hc
            have he1 := (Node.elem.inj he').1
            exact ⟨(s, String.ofList (MsgType.rs s).string), (responseOrder_mem s _).mpr ⟨hs, by simp⟩, by simp [he1]⟩
          · rw [if_neg hb] at h1; cases h1
    · rintro ⟨s, n⟩ hs
      obtain ⟨hs1, hs2⟩ := (responseOrder_mem s n).mp hs
      obtain ⟨ms, q1, q2⟩ := k2 s
      rw [if_neg hs1] at q2
      simp only [List.nil_append] at q1
      simp only
      rw [hs2, q1]
      have hin : inside (MsgType.rs s).string cs = inside (MsgType.rs s).string rest := by
        unfold inside
        rw [hel, List.filter_cons_of_neg]
        simp only [decide_eq_true_eq]
        rw [hsn]
        intro hh
        exact hs1 (rs_string_inj (s := s) (t := .signon) hs1 hh.symm)
      rw [hin]
      exact q2

/-! ### C37 round trip of element trees -/

theorem forall₂_inside {M : Type} {R : M → Message → Prop} {env : Env} (sets : MsgSet → List M)
    (content : MsgSet → List Node) (s0 : MsgSet) (ms : List Message) (ss : List MsgSet) (hn : ss.Nodup)
    (hss : ∀ s ∈ ss, s ≠ .signon) (hs0 : s0 ≠ .signon)
    (h : List.Forall₂ (Filed env s0) (elems (content s0)) ms) (hR : List.Forall₂ R (sets s0) ms) (hmem : s0 ∈ ss) :
    List.Forall₂ (Filed env s0) (inside (MsgType.rs s0).string
      ((ss.filter (fun s => !(sets s).isEmpty)).map (fun s => Node.elem (MsgType.rs s).string (content s)))) ms := by
  induction ss with
  | nil => cases hmem
  | cons s ss ih =>
    rw [List.nodup_cons] at hn
    have hnone : ∀ l : List MsgSet, s0 ∉ l → (∀ s ∈ l, s ≠ .signon) → inside (MsgType.rs s0).string
        ((l.filter (fun s => !(sets s).isEmpty)).map (fun s => Node.elem (MsgType.rs s).string (content s))) = [] := by
      intro l
      induction l with
      | nil => intros; rfl
      | cons a l ihl =>
        intro hna hl
        have hne : ¬ (MsgType.rs a).string = (MsgType.rs s0).string := fun hh =>
          hna (rs_string_inj (hl a (List.mem_cons_self ..)) hh ▸ List.mem_cons_self ..)
        have := ihl (fun hh => hna (List.mem_cons_of_mem _ hh)) (fun s hs => hl s (List.mem_cons_of_mem _ hs))
        by_cases he : (sets a).isEmpty = true
        · rw [List.filter_cons_of_neg (by simp [he])]; exact this
        · rw [List.filter_cons_of_pos (by simp [he]), List.map_cons, inside_cons, if_neg hne, this]; rfl
    by_cases he : s = s0
    · subst he
      have h0 := hnone ss hn.1 (fun s hs => hss s (List.mem_cons_of_mem _ hs))
      by_cases hemp : (sets s).isEmpty = true
      · rw [List.filter_cons_of_neg (by simp [hemp]), h0]
        have : sets s = [] := List.isEmpty_iff.mp hemp
        rw [this] at hR
        cases hR; exact .nil
      · rw [List.filter_cons_of_pos (by simp [hemp]), List.map_cons, inside_cons, if_pos rfl, h0, List.append_nil]
        exact h
    · have hmem : s0 ∈ ss := by
        rcases List.mem_cons.mp hmem with h | h
        · exact absurd h.symm he
        · exact h
      have := ih hn.2 (fun s hs => hss s (List.mem_cons_of_mem _ hs)) hmem
      by_cases hemp : (sets s).isEmpty = true
      · rw [List.filter_cons_of_neg (by simp [hemp])]; exact this
      · rw [List.filter_cons_of_pos (by simp [hemp]), List.map_cons, inside_cons, if_neg, List.nil_append]
        · exact this
        · intro hh
          exact he (rs_string_inj (hss s (List.mem_cons_self ..)) hh)

theorem elems_of_elements {ms : List Message} {ns : List Node} {env : Env} {s : MsgSet} {version : Nat}
    (h : List.Forall₂ (fun (m : Message) n => ∃ cs, n = .elem m.name cs ∧ (m.valid version).2.encode = .ok [n]) ms ns)
    (ht : ∀ m ∈ ms, m.type = .rs s) (hx : ∀ m ∈ ms, ExactMessage env m) :
    (∀ c ∈ ns, ∃ n ch, c = .elem n ch) ∧
    ∃ ms', List.Forall₂ (Filed env s) (elems ns) ms' ∧ List.Forall₂ SameMessage ms ms' := by
  induction h with
  | nil => exact ⟨fun c hc => by (cases hc), [], .nil, .nil⟩
  | @cons m n ms ns h1 h2 ih =>
    obtain ⟨i1, ms', i2, i3⟩ := ih (fun m hm => ht m (List.mem_cons_of_mem _ hm)) (fun m hm => hx m (List.mem_cons_of_mem _ hm))
    obtain ⟨cs, rfl, he⟩ := h1
    have htm := ht m (List.mem_cons_self ..)
    have hv : (m.valid version).2 = m := by
      cases m <;> first | rfl | (cases htm)
    rw [hv] at he
    obtain ⟨cs', m', e1, e2, e3, e4, e5⟩ := message_roundtrip (hx m (List.mem_cons_self ..))
    rw [e1] at he
    simp only [Except.ok.injEq, List.cons.injEq, Node.elem.injEq, and_true] at he
    obtain ⟨hn, rfl⟩ := he
    refine ⟨?_, m' :: ms', ?_, .cons e5 i3⟩
    · intro c hc
      rcases List.mem_cons.mp hc with rfl | hc
      · exact ⟨_, _, rfl⟩
      · exact i1 c hc
    · simp only [elems]
      refine .cons ⟨?_, e3.trans htm, ?_⟩ i2
      · show m.name = _
        rw [← hn, e2]
      · show ReadsAs env m.name cs' m'
        rw [← hn]; exact e4

/-- C37 for element trees: decoding the body of a marshalled response gives the response
back: same version, same signon, and the same messages in the same lists in the same
order, provided every value can be carried exactly.  (`Same`: dates keep instant and
offset, and their zone name if they have one.) -/
theorem C37_tree_roundtrip (env : Env) (r : Response Message) (d : Doc) (h : r.marshal.1 = .ok d)
    (hs : ExactSignon env r.signon) (hm : ∀ s, s ≠ .signon → ∀ m ∈ r.sets s, ExactMessage env m) :
    ∃ r', decodeOfx env r.version d.body = .ok r' ∧ r'.version = r.version ∧ SameSignon r.signon r'.signon ∧
      ∀ s, s ≠ .signon → List.Forall₂ SameMessage (r.sets s) (r'.sets s) := by
  have hall := (C26_response_marshal_iff r).mp ⟨d, h⟩
  obtain ⟨signon, content, hb, ⟨ch, hsn⟩, henc, hc⟩ := C25_response_body r d h
  subst hsn
  obtain ⟨ch', so', g1, g2, g3⟩ := roundtrip_same env "SONRS".toList (by intro l hl; cases hl) r.signon hs
  rw [henc] at g1
  cases g1
  have key : ∀ s, s ≠ .signon → ∃ ms', (∀ c ∈ content s, ∃ n ch, c = .elem n ch) ∧
      List.Forall₂ (Filed env s) (elems (content s)) ms' ∧ List.Forall₂ SameMessage (r.sets s) ms' := by
    intro s hs
    obtain ⟨a, b, c, d⟩ := elems_of_elements (env := env) (s := s) (hc s hs) (fun m hm => (hall.2 s hs m hm).1) (hm s hs)
    exact ⟨b, a, c, d⟩
  choose! ms' key using key
  let f : MsgSet → List Message := fun s => if s = .signon then [] else ms' s
  refine ⟨⟨r.version, so', f⟩, ?_, rfl, g3, ?_⟩
  · rw [hb]
    unfold bodyOf
    rw [← order_map r.sets content responseOrder .rs MsgSet.lists responseOrder_eq]
    have hdec : decodeSets env (fun _ => []) ((MsgSet.lists.filter (fun s => !(r.sets s).isEmpty)).map
        (fun s => Node.elem (MsgType.rs s).string (content s))) = .ok f := by
      rw [decodeSets_ok]
      refine ⟨?_, ?_⟩
      · intro c hc
        obtain ⟨s, hs, rfl⟩ := List.mem_map.mp hc
        have hs := (MsgSet.mem_lists s).mp (List.mem_of_mem_filter hs)
        exact ⟨s, content s, rfl, hs, fun c hc _ => (key s hs).1 c hc⟩
      · intro s
        refine ⟨f s, rfl, ?_⟩
        by_cases hs : s = .signon
        · rw [if_pos hs]; show f s = []; simp only [f]; rw [if_pos hs]
        · rw [if_neg hs]
          have : f s = ms' s := by simp only [f]; rw [if_neg hs]
          rw [this]
          exact forall₂_inside r.sets content s (ms' s) MsgSet.lists MsgSet.lists_nodup
            (fun s hs => (MsgSet.mem_lists s).mp hs) hs (key s hs).2.1 (key s hs).2.2 ((MsgSet.mem_lists s).mpr hs)
    have hnb : ∀ l : List MsgSet, (l.map (fun s => Node.elem (MsgType.rs s).string (content s))).filter
        (fun c => !isBlank c) = l.map (fun s => Node.elem (MsgType.rs s).string (content s)) := by
      intro l
      rw [List.filter_eq_self]
      intro c hc
      obtain ⟨s, _, rfl⟩ := List.mem_map.mp hc
      rfl
    unfold decodeOfx
    simp only
    rw [if_pos True.intro, List.filter_cons_of_pos (by rfl), hnb]
    unfold decodeOfxChildren
    simp only
    rw [if_pos (by decide), hdec]
    have hds : decodeSignon env [Node.elem "SONRS".toList ch] = .ok so' := by
      unfold decodeSignon
      simp only [firstElem]
      rw [g2]; rfl
    rw [hds]
  · intro s hs
    show List.Forall₂ SameMessage (r.sets s) (f s)
    have : f s = ms' s := by simp only [f]; rw [if_neg hs]
    rw [this]
    exact (key s hs).2.2

/-- C37 for element trees, exactly: a response as decoding produces it (every date with a
zone name, XMLName fields set) is read back identically. -/
theorem C37_tree_roundtrip_eq (env : Env) (r : Response Message) (d : Doc) (h : r.marshal.1 = .ok d)
    (hs : ExactSignon env r.signon) (hm : ∀ s, s ≠ .signon → ∀ m ∈ r.sets s, ExactMessage env m)
    (hs' : SettledSignon r.signon) (hm' : ∀ s, s ≠ .signon → ∀ m ∈ r.sets s, SettledMessage m) :
    ∃ r', decodeOfx env r.version d.body = .ok r' ∧ r'.version = r.version ∧ r'.signon = r.signon ∧
      ∀ s, s ≠ .signon → r'.sets s = r.sets s := by
  obtain ⟨r', h1, h2, h3, h4⟩ := C37_tree_roundtrip env r d h hs hm
  refine ⟨r', h1, h2, toDen_inj (ty_settled _ _ _ _ h3 hs'), ?_⟩
  intro s hs
  have g1 := h4 s hs
  have g2 := hm' s hs
  generalize r.sets s = a at g1 g2
  generalize r'.sets s = b at g1
  induction g1 with
  | nil => rfl
  | cons p q ih =>
    rw [same_settled_eq p (g2 _ (List.mem_cons_self ..)), ih (fun m hm => g2 m (List.mem_cons_of_mem _ hm))]

/-- An environment: local time is UTC, and three currencies are known. -/
def sampleEnv : Env :=
  ⟨utcLocal, ⟨fun c => c == "XXX".toList || c == "USD".toList || c == "EUR".toList, by decide⟩⟩

def sampleDate : GoTime := ⟨63800000000123000000, "EST".toList, -18000⟩

def sampleSignonResponse : SignonResponse :=
  { Status := ⟨0, "INFO".toList, []⟩, DtServer := sampleDate, UserKey := [], TsKeyExpire := none,
    Language := "ENG".toList, DtProfUp := some sampleDate, DtAcctUp := none, Org := "B1".toList, Fid := "10898".toList,
    SessCookie := [], AccessKey := [] }

/-- A bank statement as read from a bank. -/
def sampleBankStatement : StatementResponse :=
  { sampleStatement with
    BankTranList := some ⟨sampleDate, sampleDate, [{ sampleTransaction with DtPosted := sampleDate }]⟩
    DtAsOf := sampleDate }

/-- A response with a bank statement and an (empty) security list. -/
def sampleResponse : Response Message :=
  { version := 7, signon := sampleSignonResponse,
    sets := fun s => if s = .bank then [.statementResponse sampleBankStatement]
      else if s = .secList then [.securityList ⟨[]⟩] else [] }

theorem sampleResponse_exact : ExactSignon sampleEnv sampleResponse.signon ∧
    SettledSignon sampleResponse.signon ∧
    ∀ s, s ≠ .signon → ∀ m ∈ sampleResponse.sets s, ExactMessage sampleEnv m ∧ SettledMessage m := by
  refine ⟨exact_of_check _ _ _ (by decide +kernel), settledB_sound _ _ _ (by decide +kernel), ?_⟩
  intro s _ m hm
  have hm : m ∈ (if s = .bank then [Message.statementResponse sampleBankStatement]
      else if s = .secList then [.securityList ⟨[]⟩] else []) := hm
  split_ifs at hm
  · simp only [List.mem_singleton] at hm
    subst hm
    exact ⟨exact_of_check _ _ _ (by decide +kernel), settledB_sound _ _ _ (by decide +kernel)⟩
  · simp only [List.mem_singleton] at hm
    subst hm
    exact ⟨exact_of_check _ _ _ (by decide +kernel), settledB_sound _ "SECLIST".toList _ (by decide +kernel)⟩
  · cases hm

theorem sampleResponse_ok : ∃ d, sampleResponse.marshal.1 = .ok d := by
  rw [C26_response_marshal_iff]
  refine ⟨(C23_signon_response_valid_iff 7 _).mp (by decide +kernel), ?_⟩
  intro s _ m hm
  have hm : m ∈ (if s = .bank then [Message.statementResponse sampleBankStatement]
      else if s = .secList then [.securityList ⟨[]⟩] else []) := hm
  split_ifs at hm with h1 h2
  · simp only [List.mem_singleton] at hm
    subst hm; subst h1
    exact ⟨rfl, by decide +kernel, fun p hp => by cases hp⟩
  · simp only [List.mem_singleton] at hm
    subst hm; subst h2
    exact ⟨rfl, by decide +kernel, fun p hp => by cases hp⟩
  · cases hm

/-- The hypotheses of C37 and C33 are met by `sampleResponse`. -/
example : ∃ d r', sampleResponse.marshal.1 = .ok d ∧ decodeOfx sampleEnv 7 d.body = .ok r' ∧
    r'.sets .bank = [.statementResponse sampleBankStatement] := by
  obtain ⟨d, hd⟩ := sampleResponse_ok
  obtain ⟨r', h1, _, _, h4⟩ := C37_tree_roundtrip_eq sampleEnv sampleResponse d hd sampleResponse_exact.1
    (fun s hs m hm => (sampleResponse_exact.2.2 s hs m hm).1) sampleResponse_exact.2.1
    (fun s hs m hm => (sampleResponse_exact.2.2 s hs m hm).2)
  exact ⟨d, r', hd, h1, h4 .bank (by decide)⟩

end Ofx.Props
