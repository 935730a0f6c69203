import Verif.Lemmas.ReadDoc
import Verif.Lemmas.SameValid
import Verif.Props.Text
/-
Property C70: a response that was read can be saved and read again.
-/
namespace Ofx.Props
open Ofx Spec

/-- The parts of a response that was read and accepted. -/
theorem read_saves {env : Env} {nt : NameTable} {bs : List UInt8} {r : Response Message} {D : GoTime → Prop} (hD : ∀ t, D t → ExactDate t)
    (h : parseResponse env nt bs = (some r, none)) (hk : Kept D r) :
    (1 ≤ r.version ∧ r.version ≤ 11) ∧ ExactSignon env r.signon ∧ CleanSignonResponse r.signon ∧
      (∀ s, s ≠ .signon → ∀ m ∈ r.sets s, m.type = .rs s ∧ ExactMessage env m ∧ CleanMessage m) ∧
      r.valid = none ∧ ∃ d, r.marshal.1 = .ok d := by
  unfold parseResponse at h
  cases hd : decodeResponse env nt bs with
  | error e => rw [hd] at h; cases h
  | ok r0 =>
    rw [hd] at h
    injection h with h1 h2
    cases h1
    obtain ⟨hs, hc, hm⟩ := decoded_exact hD hd hk
    refine ⟨decoded_version hd, hs, hc, hm, h2, ?_⟩
    obtain ⟨hv1, hv2⟩ := (C36_valid_iff r).mp h2
    rw [C26_response_marshal_iff]
    refine ⟨(C23_signon_response_valid_iff r.version _).mp hv1, fun s hs m hmm => ⟨(hm s hs m hmm).1, hv2 s hs m hmm, ?_⟩⟩
    rintro p rfl set hset
    have hkm : TyKept D (OfxType.ty ProfileResponse) (OfxType.toDen p) := hk.2 s hs _ hmm
    obtain ⟨-, -, -, hl, -⟩ := hkm
    obtain ⟨⟨short, h1, h2, -⟩, -⟩ := hl (MessageSet.toDen set) (List.mem_map_of_mem hset)
    refine ⟨short, ?_, h1⟩
    rintro rfl
    obtain ⟨⟨⟨c, cs, e, -⟩, -⟩, -⟩ := h2
    cases e

/-- C70: a response that was read without error, and holds no amounts of more than 100 decimals,
dates that OFX cannot express or message sets of unknown versions, can be written; and the
document written reads, without error, as the same response. -/
theorem C70_saved_and_read (env : Env) (nt : NameTable) (bs tail : List UInt8) (r : Response Message)
    (h : parseResponse env nt bs = (some r, none)) (hk : Savable r) :
    ∃ d r', r.marshal.1 = .ok d ∧ parseResponse env nt (d.bytes ++ tail) = (some r', none) ∧ r'.version = r.version ∧
      SameSignon r.signon r'.signon ∧ ∀ s, s ≠ .signon → List.Forall₂ SameMessage (r.sets s) (r'.sets s) := by
  obtain ⟨hv, hs, hc, hm, hval, d, hd⟩ := read_saves (fun _ h => h) h hk
  obtain ⟨r', h1, h2, h3, h4⟩ := C37_text_roundtrip_partial env nt r d hd hv hs hc (fun s hs m hmm => (hm s hs m hmm).2) tail
  refine ⟨d, r', hd, ?_, h2, h3, h4⟩
  unfold parseResponse
  rw [h1]
  have : r'.valid = none := by
    obtain ⟨v1, v2⟩ := (C36_valid_iff r).mp hval
    rw [C36_valid_iff, h2]
    refine ⟨(signonRs_same h3).trans v1, fun s hs m' hm' => ?_⟩
    obtain ⟨m, hmm, hsame⟩ := forall₂_right (h4 s hs) hm'
    exact (message_same_valid (hm s hs m hmm).1 hsame).trans (v2 s hs m hmm)
  simp only [this]

/-- The encodings of the same message are the same. -/
theorem message_enc_same {env : Env} {D : GoTime → Prop} (hD : ∀ t, D t → t.zone ≠ []) {s : MsgSet} {m m' : Message} (ht : m.type = .rs s)
    (he : ExactMessage env m) (hk : KeptMessage D m) (h : SameMessage m m') : m'.encode = m.encode := by
  cases m with
  | statementRequest m => cases ht
  | ccStatementRequest m => cases ht
  | invStatementRequest m => cases ht
  | profileRequest m => cases ht
  | secListRequest m => cases ht
  | acctInfoRequest m => cases ht
  | statementResponse m =>
    cases m' <;> first | exact absurd h id | skip
    exact ty_enc_same env hD _ _ _ _ _ (type_fits (by simp only [responseTypes]; simp)).2 he hk h
  | ccStatementResponse m =>
    cases m' <;> first | exact absurd h id | skip
    exact ty_enc_same env hD _ _ _ _ _ (type_fits (by simp only [responseTypes]; simp)).2 he hk h
  | invStatementResponse m =>
    cases m' <;> first | exact absurd h id | skip
    exact ty_enc_same env hD _ _ _ _ _ (type_fits (by simp only [responseTypes]; simp)).2 he hk h
  | profileResponse m =>
    cases m' <;> first | exact absurd h id | skip
    exact ty_enc_same env hD _ _ _ _ _ (type_fits (by simp only [responseTypes]; simp)).2 he hk h
  | secListResponse m =>
    cases m' <;> first | exact absurd h id | skip
    exact ty_enc_same env hD _ _ _ _ _ (type_fits (by simp only [responseTypes]; simp)).2 he hk h
  | securityList m =>
    cases m' <;> first | exact absurd h id | skip
    exact ty_enc_same env hD _ _ _ _ _ (type_fits (by simp only [responseTypes]; simp)).2 he hk h
  | acctInfoResponse m =>
    cases m' <;> first | exact absurd h id | skip
    exact ty_enc_same env hD _ _ _ _ _ (type_fits (by simp only [responseTypes]; simp)).2 he hk h

theorem message_kept_weaken {D E : GoTime → Prop} (h : ∀ t, D t → E t) {m : Message} (hk : KeptMessage D m) : KeptMessage E m := by
  cases m <;> exact ty_kept_weaken h _ _ hk

theorem message_exact_kept {env : Env} {m : Message} (h : ExactMessage env m) (ht : CleanMessage m) (hz : SettledMessage m) :
    KeptMessage NamedDate m := by
  cases m <;> first | exact ty_exact_kept env _ _ _ h ht hz | exact ty_exact_kept env _ "SECLIST".toList _ h ht hz

theorem same_type {m m' : Message} (h : SameMessage m m') : m'.type = m.type := by
  cases m <;> cases m' <;> first | exact absurd h id | rfl

theorem valid_keeps {v : Nat} {s : MsgSet} {m : Message} (h : m.type = .rs s) : (m.valid v).2 = m := by
  cases m <;> cases h
  all_goals rfl

theorem forall₂_step {α β : Type} {R : α → β → Prop} {S : α → α → Prop} {R' : α → β → Prop} {l l' : List α} {c : List β}
    (h : List.Forall₂ R l c) (hs : List.Forall₂ S l l') (hx : ∀ m ∈ l, ∀ m', S m m' → ∀ n, R m n → R' m' n) : List.Forall₂ R' l' c := by
  induction h generalizing l' with
  | nil => cases hs; exact .nil
  | cons hr _ ih =>
    cases hs with
    | cons h1 h2 =>
      exact .cons (hx _ (List.mem_cons_self ..) _ h1 _ hr) (ih h2 (fun m hm => hx m (List.mem_cons_of_mem _ hm)))

/-- C70: when moreover every date names its zone, saving what was read from the saved document
writes that very document again. -/
theorem C70_saved_again (env : Env) (nt : NameTable) (bs tail : List UInt8) (r : Response Message)
    (h : parseResponse env nt bs = (some r, none)) (hk : SavableNamed r) :
    ∃ d r', r.marshal.1 = .ok d ∧ parseResponse env nt (d.bytes ++ tail) = (some r', none) ∧ r'.marshal.1 = .ok d := by
  obtain ⟨hv, hs, hc, hm, hval, d, hd⟩ := read_saves (fun _ h => h.1) h hk
  have hk' : Savable r := by
    refine ⟨ty_kept_weaken (fun _ h => h.1) _ _ hk.1, fun s hs m hmm => ?_⟩
    exact message_kept_weaken (fun _ h => h.1) (hk.2 s hs m hmm)
  obtain ⟨d', r', hd', h1, h2, h3, h4⟩ := C70_saved_and_read env nt bs tail r h hk'
  rw [hd] at hd'
  cases hd'
  refine ⟨d, r', hd, h1, ?_⟩
  obtain ⟨hval1, ns, rest, e1, e2, e3⟩ := (response_marshal_ok r d).mp hd
  refine (response_marshal_ok r' d).mpr ⟨?_, ns, rest, ?_, ?_, ?_⟩
  · rw [h2]; exact (signonRs_same h3).trans hval1
  · rw [← e1]
    exact ty_enc_same env (D := fun t => ExactDate t ∧ t.zone ≠ []) (fun _ h => h.2) _ _ _ _ _
      (type_fits (by simp only [responseTypes]; simp)).2 hs hk.1 h3
  · obtain ⟨content, c1, c2⟩ := (encodeSets_ok _ _ _ MsgSet.lists_nodup _ _).mp e2
    refine (encodeSets_ok _ _ _ MsgSet.lists_nodup _ _).mpr ⟨content, fun s hss => ?_, ?_⟩
    · have hs' := (MsgSet.mem_lists s).mp hss
      have hx : ∀ m ∈ r.sets s, ∀ m', SameMessage m m' → ∀ n, EncOk r.version (.rs s) m n → EncOk r'.version (.rs s) m' n := by
        intro m hmm m' hsame n hn
        obtain ⟨n1, n2, n3⟩ := hn
        have ht : m.type = .rs s := (hm s hs' m hmm).1
        have n2 : (m.valid r.version).1.map Err.plain = none := n2
        have n3 : (m.valid r.version).2.encode = .ok n := n3
        have g1 : m'.type = .rs s := (same_type hsame).trans ht
        have g2 : (m'.valid r'.version).1.map Err.plain = none := by rw [h2, message_same_valid ht hsame]; exact n2
        have g3 : (m'.valid r'.version).2.encode = .ok n := by
          rw [valid_keeps g1, message_enc_same (fun _ h => h.2) ht (hm s hs' m hmm).2.1 (hk.2 s hs' m hmm) hsame]
          rw [valid_keeps ht] at n3
          exact n3
        exact ⟨g1, g2, g3⟩
      exact forall₂_step (c1 s hss) (h4 s hs') hx
    · rw [c2]
      congr 1
      apply List.filter_congr
      intro s hss
      rw [isEmpty_same (h4 s ((MsgSet.mem_lists s).mp hss))]
  · rw [h2]; exact e3

/-- A bank statement read from a document meets all hypotheses. -/
example (nt : NameTable) : ∃ bs r, parseResponse sampleEnv nt bs = (some r, none) ∧ SavableNamed r ∧ Savable r ∧
    r.sets .bank = [.statementResponse sampleBankStatement] := by
  obtain ⟨d, hd⟩ := sampleResponse_ok
  obtain ⟨h1, h2, h3⟩ := sampleResponse_exact
  obtain ⟨r', g1, g2, g3, g4⟩ := C37_text_roundtrip_eq_partial sampleEnv nt sampleResponse d hd (by decide)
    ⟨h1, sampleResponse_clean.1, h2⟩ (fun s hs m hm => ⟨(h3 s hs m hm).1, sampleResponse_clean.2 s hs m hm, (h3 s hs m hm).2⟩) []
  have hk : SavableNamed r' := by
    refine ⟨?_, fun s hs m hm => ?_⟩
    · rw [g3]; exact ty_exact_kept sampleEnv _ _ _ h1 sampleResponse_clean.1 h2
    · rw [g4 s hs] at hm
      exact message_exact_kept (h3 s hs m hm).1 (sampleResponse_clean.2 s hs m hm) (h3 s hs m hm).2
  refine ⟨d.bytes ++ [], r', ?_, hk, ?_, g4 .bank (by decide)⟩
  · unfold parseResponse
    rw [g1]
    have : r'.valid = none := by
      obtain ⟨⟨a1, a2⟩, a3⟩ := (C26_response_marshal_iff sampleResponse).mp ⟨d, hd⟩
      refine (C36_valid_iff r').mpr ⟨(C23_signon_response_valid_iff _ _).mpr (by rw [g3]; exact ⟨a1, a2⟩), fun s hs m hm => ?_⟩
      rw [g4 s hs] at hm
      rw [g2]
      exact (a3 s hs m hm).2.1
    simp only [this]
  · exact ⟨ty_kept_weaken (fun _ h => h.1) _ _ hk.1, fun s hs m hmm => message_kept_weaken (fun _ h => h.1) (hk.2 s hs m hmm)⟩

end Ofx.Props
