import Verif.Lemmas.Marshal
import Verif.Lemmas.CodecType
import Verif.Spec.Document
/-
Decoding of message sets and of the OFX element.
-/
namespace Ofx
open Spec

theorem setOfName_some {n : Str} {s : MsgSet} (h : setOfName n = some s) : (MsgType.rs s).string = n ∧ s ≠ .signon := by
  unfold setOfName at h
  have h1 := List.find?_some h
  have h2 := List.mem_of_find?_eq_some h
  exact ⟨by simpa using h1, (MsgSet.mem_lists s).mp h2⟩

theorem setOfName_string {s : MsgSet} (hs : s ≠ .signon) : setOfName (MsgType.rs s).string = some s := by
  cases s <;> first | (exact absurd rfl hs) | decide +kernel

theorem rs_string_inj {s t : MsgSet} (hs : s ≠ .signon) (h : (MsgType.rs s).string = (MsgType.rs t).string) : s = t := by
  have h1 := setOfName_string hs
  by_cases ht : t = .signon
  · subst ht
    rw [h] at h1
    have : setOfName (MsgType.rs .signon).string = none := by decide +kernel
    rw [this] at h1; cases h1
  · rw [h, setOfName_string ht] at h1
    exact (Option.some.inj h1).symm

/-- What decodeMessageSet appends for one element. -/
def Filed (env : Env) (s : MsgSet) (e : Str × List Node) (m : Message) : Prop :=
  e.1 = (elementName m).toList ∧ m.type = .rs s ∧ ReadsAs env e.1 e.2 m

theorem map_ok {α β : Type} {f : α → β} {x : Except String α} {b : β} (h : x.map f = .ok b) :
    ∃ a, x = .ok a ∧ f a = b := by
  cases x with
  | error e => cases h
  | ok a => exact ⟨a, rfl, by cases h; rfl⟩

theorem decodeMessage_ok {env : Env} {s : MsgSet} {n : Str} {cs : List Node} {m : Message}
    (h : decodeMessage env s n cs = .ok m) : Filed env s (n, cs) m := by
  unfold decodeMessage at h
  cases s <;> simp only [reduceCtorEq] at h
  case signup | bank | creditCard | invStmt | prof =>
    split at h
    · next hn =>
      obtain ⟨a, ha, rfl⟩ := map_ok h
      exact ⟨hn, rfl, ha⟩
    · cases h
  case secList =>
    split at h
    · next hn =>
      obtain ⟨a, ha, rfl⟩ := map_ok h
      exact ⟨hn, rfl, ha⟩
    · split at h
      · next hn =>
        obtain ⟨a, ha, rfl⟩ := map_ok h
        exact ⟨hn, rfl, ha⟩
      · cases h

theorem decodeMessage_of_filed {env : Env} {s : MsgSet} {n : Str} {cs : List Node} {m : Message}
    (h : Filed env s (n, cs) m) : decodeMessage env s n cs = .ok m := by
  obtain ⟨h1, h2, h3⟩ := h
  have e1 : ¬ "SECLIST".toList = "SECLISTTRNRS".toList := by decide
  cases m with
  | statementRequest m => cases h2
  | ccStatementRequest m => cases h2
  | invStatementRequest m => cases h2
  | profileRequest m => cases h2
  | secListRequest m => cases h2
  | acctInfoRequest m => cases h2
  | securityList m =>
    cases h2
    change n = "SECLIST".toList at h1
    have h3 : decodeNew env n cs = .ok m := h3
    unfold decodeMessage
    simp only
    rw [if_neg (by rw [h1]; exact e1), if_pos h1, h3]; rfl
  | statementResponse m | ccStatementResponse m | invStatementResponse m | profileResponse m | secListResponse m
  | acctInfoResponse m =>
    cases h2
    have h3 : decodeNew env n cs = .ok m := h3
    unfold decodeMessage
    simp only [elementName] at h1 ⊢
    rw [if_pos h1, h3]; rfl

theorem forall₂_append_left {α β : Type} {R : α → β → Prop} {a b : List α} {l : List β}
    (h : List.Forall₂ R (a ++ b) l) : ∃ x y, List.Forall₂ R a x ∧ List.Forall₂ R b y ∧ l = x ++ y := by
  induction a generalizing l with
  | nil => exact ⟨[], l, .nil, h, rfl⟩
  | cons p a ih =>
    cases h with
    | cons h1 h2 =>
      obtain ⟨x, y, hx, hy, rfl⟩ := ih h2
      exact ⟨_ :: x, y, .cons h1 hx, hy, rfl⟩

theorem decodeMessageSet_ok {env : Env} {s : MsgSet} (cs : List Node) (ms : List Message) :
    decodeMessageSet env s cs = .ok ms ↔
    (∀ c ∈ cs, isBlank c = false → ∃ n ch, c = .elem n ch) ∧ List.Forall₂ (Filed env s) (elems cs) ms := by
  unfold decodeMessageSet
  induction cs generalizing ms with
  | nil =>
    simp only [List.filter_nil, mapE, elems]
    constructor
    · intro h; cases h; exact ⟨fun c hc => by (cases hc), .nil⟩
    · rintro ⟨_, h⟩; cases h; rfl
  | cons c cs ih =>
    cases c with
    | elem n ch =>
      rw [List.filter_cons_of_pos (by simp [isBlank])]
      simp only [mapE, decodeMessageNode, elems]
      constructor
      · intro h
        cases h1 : decodeMessage env s n ch with
        | error e => rw [h1] at h; cases h
        | ok m =>
          rw [h1] at h
          simp only at h
          cases h2 : mapE (decodeMessageNode env s) (cs.filter (fun c => !isBlank c)) with
          | error e => rw [h2] at h; cases h
          | ok ms' =>
            rw [h2] at h; cases h
            obtain ⟨g1, g2⟩ := (ih ms').mp h2
            refine ⟨?_, .cons (decodeMessage_ok h1) g2⟩
            intro c hc hb
            rcases List.mem_cons.mp hc with rfl | hc
            · exact ⟨n, ch, rfl⟩
            · exact g1 c hc hb
      · rintro ⟨g1, g2⟩
        cases g2 with
        | cons a b =>
          rw [decodeMessage_of_filed a]
          simp only
          rw [(ih _).mpr ⟨fun c hc => g1 c (List.mem_cons_of_mem _ hc), b⟩]
    | text t =>
      simp only [elems]
      by_cases hb : isBlank (.text t) = true
      · rw [List.filter_cons_of_neg (by simp [hb]), ih]
        constructor
        · rintro ⟨g1, g2⟩
          refine ⟨?_, g2⟩
          intro c hc hb'
          rcases List.mem_cons.mp hc with rfl | hc
          · rw [hb] at hb'; cases hb'
          · exact g1 c hc hb'
        · rintro ⟨g1, g2⟩
          exact ⟨fun c hc => g1 c (List.mem_cons_of_mem _ hc), g2⟩
      · rw [List.filter_cons_of_pos (by simp [hb])]
        simp only [mapE, decodeMessageNode]
        constructor
        · intro h; cases h
        · rintro ⟨g1, _⟩
          obtain ⟨n, ch, h⟩ := g1 _ (List.mem_cons_self ..) (by simpa using hb)
          cases h
    | misc =>
      simp only [elems]
      rw [List.filter_cons_of_pos (by simp [isBlank])]
      simp only [mapE, decodeMessageNode]
      constructor
      · intro h; cases h
      · rintro ⟨g1, _⟩
        obtain ⟨n, ch, h⟩ := g1 _ (List.mem_cons_self ..) rfl
        cases h

theorem inside_cons (name n : Str) (cs rest : List Node) :
    inside name (.elem n cs :: rest) = (if n = name then elems cs else []) ++ inside name rest := by
  unfold inside
  simp only [elems]
  by_cases h : n = name
  · rw [List.filter_cons_of_pos (by simp [h]), if_pos h, List.flatMap_cons]
  · rw [List.filter_cons_of_neg (by simp [h]), if_neg h, List.nil_append]

/-- The messages added to each list, and what the set elements must be. -/
theorem decodeSets_ok {env : Env} (ns : List Node) (f g : MsgSet → List Message) :
    decodeSets env f ns = .ok g ↔
    (∀ c ∈ ns, ∃ s ch, c = .elem (MsgType.rs s).string ch ∧ s ≠ .signon ∧
      ∀ c' ∈ ch, isBlank c' = false → ∃ n ch', c' = .elem n ch') ∧
    ∀ s, ∃ ms, g s = f s ++ ms ∧
      if s = .signon then ms = [] else List.Forall₂ (Filed env s) (inside (MsgType.rs s).string ns) ms := by
  induction ns generalizing f with
  | nil =>
    simp only [decodeSets, Except.ok.injEq]
    constructor
    · rintro rfl
      refine ⟨fun c hc => by (cases hc), fun s => ⟨[], by simp, ?_⟩⟩
      by_cases hs : s = .signon
      · rw [if_pos hs]
      · rw [if_neg hs]; exact .nil
    · rintro ⟨_, h⟩
      funext s
      obtain ⟨ms, h1, h2⟩ := h s
      have : ms = [] := by
        by_cases hs : s = .signon
        · rwa [if_pos hs] at h2
        · rw [if_neg hs] at h2
          have h2 : List.Forall₂ (Filed env s) [] ms := h2
          cases h2; rfl
      subst this
      rw [h1, List.append_nil]
  | cons c ns ih =>
    cases c with
    | text t =>
      simp only [decodeSets]
      constructor
      · intro h; cases h
      · rintro ⟨h, _⟩
        obtain ⟨s, ch, h, _⟩ := h _ (List.mem_cons_self ..); cases h
    | misc =>
      simp only [decodeSets]
      constructor
      · intro h; cases h
      · rintro ⟨h, _⟩
        obtain ⟨s, ch, h, _⟩ := h _ (List.mem_cons_self ..); cases h
    | elem n cs =>
      simp only [decodeSets]
      constructor
      · intro h
        cases h1 : setOfName n with
        | none => rw [h1] at h; cases h
        | some s0 =>
          rw [h1] at h
          simp only at h
          obtain ⟨hn, hs0⟩ := setOfName_some h1
          cases h2 : decodeMessageSet env s0 cs with
          | error e => rw [h2] at h; cases h
          | ok ms0 =>
            rw [h2] at h
            simp only at h
            obtain ⟨g1, g2⟩ := (ih _).mp h
            obtain ⟨k1, k2⟩ := (decodeMessageSet_ok cs ms0).mp h2
            refine ⟨?_, ?_⟩
            · intro c hc
              rcases List.mem_cons.mp hc with rfl | hc
              · exact ⟨s0, cs, by rw [hn], hs0, k1⟩
              · exact g1 c hc
            · intro s
              obtain ⟨ms, q1, q2⟩ := g2 s
              by_cases hs : s = .signon
              · subst hs
                rw [if_pos rfl] at q2
                refine ⟨[], ?_, by rw [if_pos rfl]⟩
                rw [q1, q2, Function.update_of_ne (fun h => hs0 h.symm)]
              · rw [if_neg hs] at q2
                by_cases he : s = s0
                · subst he
                  refine ⟨ms0 ++ ms, ?_, ?_⟩
                  · rw [q1, Function.update_self, List.append_assoc]
                  · rw [if_neg hs, inside_cons, if_pos hn.symm]
                    exact List.rel_append k2 q2
                · refine ⟨ms, ?_, ?_⟩
                  · rw [q1, Function.update_of_ne he]
                  · rw [if_neg hs, inside_cons, if_neg, List.nil_append]
                    · exact q2
                    · intro hh; exact he (rs_string_inj hs (hh ▸ hn ▸ rfl))
      · rintro ⟨h1, h2⟩
        obtain ⟨s0, ch, he, hs0, hch⟩ := h1 _ (List.mem_cons_self ..)
        cases he
        rw [setOfName_string hs0]
        simp only
        obtain ⟨ms, q1, q2⟩ := h2 s0
        rw [if_neg hs0, inside_cons, if_pos rfl] at q2
        obtain ⟨m1, m2, r1, r2, rfl⟩ := forall₂_append_left q2
        rw [(decodeMessageSet_ok cs m1).mpr ⟨hch, r1⟩]
        simp only
        rw [ih]
        refine ⟨fun c hc => h1 c (List.mem_cons_of_mem _ hc), ?_⟩
        intro s
        by_cases he : s = s0
        · subst he
          refine ⟨m2, by rw [q1, Function.update_self, List.append_assoc], ?_⟩
          rw [if_neg hs0]; exact r2
        · rw [Function.update_of_ne he]
          obtain ⟨ms', w1, w2⟩ := h2 s
          refine ⟨ms', w1, ?_⟩
          by_cases hs : s = .signon
          · rw [if_pos hs] at w2 ⊢; exact w2
          · rw [if_neg hs] at w2 ⊢
            rw [inside_cons, if_neg, List.nil_append] at w2
            · exact w2
            · intro hh; exact he (rs_string_inj hs hh.symm)

theorem elems_filter (cs : List Node) : elems (cs.filter (fun c => !isBlank c)) = elems cs := by
  induction cs with
  | nil => rfl
  | cons c cs ih =>
    cases c with
    | elem n ch => rw [List.filter_cons_of_pos (by simp [isBlank])]; simp [elems, ih]
    | misc => rw [List.filter_cons_of_pos (by simp [isBlank])]; simp [elems, ih]
    | text t =>
      by_cases h : isBlank (.text t) = true
      · rw [List.filter_cons_of_neg (by simp [h])]; simp [elems, ih]
      · rw [List.filter_cons_of_pos (by simp [h])]; simp [elems, ih]

/-- A message read back from what it was written as. -/
theorem message_roundtrip {env : Env} {m : Message} (h : ExactMessage env m) :
    ∃ cs m', m.encode = .ok [.elem (elementName m).toList cs] ∧ elementName m' = elementName m ∧ m'.type = m.type ∧
      ReadsAs env (elementName m).toList cs m' ∧ SameMessage m m' := by
  cases m with
  | statementRequest m =>
    obtain ⟨cs, x, h1, h2, h3⟩ := roundtrip_same env _ (by intro l hl; cases hl) m h
    exact ⟨cs, .statementRequest x, h1, rfl, rfl, h2, h3⟩
  | statementResponse m =>
    obtain ⟨cs, x, h1, h2, h3⟩ := roundtrip_same env _ (by intro l hl; cases hl) m h
    exact ⟨cs, .statementResponse x, h1, rfl, rfl, h2, h3⟩
  | ccStatementRequest m =>
    obtain ⟨cs, x, h1, h2, h3⟩ := roundtrip_same env _ (by intro l hl; cases hl) m h
    exact ⟨cs, .ccStatementRequest x, h1, rfl, rfl, h2, h3⟩
  | ccStatementResponse m =>
    obtain ⟨cs, x, h1, h2, h3⟩ := roundtrip_same env _ (by intro l hl; cases hl) m h
    exact ⟨cs, .ccStatementResponse x, h1, rfl, rfl, h2, h3⟩
  | invStatementRequest m =>
    obtain ⟨cs, x, h1, h2, h3⟩ := roundtrip_same env _ (by intro l hl; cases hl) m h
    exact ⟨cs, .invStatementRequest x, h1, rfl, rfl, h2, h3⟩
  | invStatementResponse m =>
    obtain ⟨cs, x, h1, h2, h3⟩ := roundtrip_same env _ (by intro l hl; cases hl) m h
    exact ⟨cs, .invStatementResponse x, h1, rfl, rfl, h2, h3⟩
  | profileRequest m =>
    obtain ⟨cs, x, h1, h2, h3⟩ := roundtrip_same env _ (by intro l hl; cases hl) m h
    exact ⟨cs, .profileRequest x, h1, rfl, rfl, h2, h3⟩
  | profileResponse m =>
    obtain ⟨cs, x, h1, h2, h3⟩ := roundtrip_same env _ (by intro l hl; cases hl) m h
    exact ⟨cs, .profileResponse x, h1, rfl, rfl, h2, h3⟩
  | secListRequest m =>
    obtain ⟨cs, x, h1, h2, h3⟩ := roundtrip_same env _ (by intro l hl; cases hl) m h
    exact ⟨cs, .secListRequest x, h1, rfl, rfl, h2, h3⟩
  | secListResponse m =>
    obtain ⟨cs, x, h1, h2, h3⟩ := roundtrip_same env _ (by intro l hl; cases hl) m h
    exact ⟨cs, .secListResponse x, h1, rfl, rfl, h2, h3⟩
  | securityList m =>
    obtain ⟨cs, x, h1, h2, h3⟩ := roundtrip_same env "SECLIST".toList (by intro l hl; cases hl; rfl) m h
    exact ⟨cs, .securityList x, h1, rfl, rfl, h2, h3⟩
  | acctInfoRequest m =>
    obtain ⟨cs, x, h1, h2, h3⟩ := roundtrip_same env _ (by intro l hl; cases hl) m h
    exact ⟨cs, .acctInfoRequest x, h1, rfl, rfl, h2, h3⟩
  | acctInfoResponse m =>
    obtain ⟨cs, x, h1, h2, h3⟩ := roundtrip_same env _ (by intro l hl; cases hl) m h
    exact ⟨cs, .acctInfoResponse x, h1, rfl, rfl, h2, h3⟩

theorem toDen_inj {α : Type} [OfxType α] {x y : α} (h : OfxType.toDen x = OfxType.toDen y) : x = y := by
  rw [← OfxType.ofDen_toDen x, h, OfxType.ofDen_toDen]

theorem same_settled_eq {m m' : Message} (h : SameMessage m m') (hs : SettledMessage m) : m' = m := by
  cases m <;> cases m' <;> first | (exact h.elim) | (exact congrArg _ (toDen_inj (ty_settled _ _ _ _ h hs))) |
    (exact congrArg _ (toDen_inj (ty_settled _ "SECLIST".toList _ _ h hs)))

end Ofx
