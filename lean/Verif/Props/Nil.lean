import Verif.Spec.Nil
import Verif.Props.Marshal
/-
C100: lists of messages with entries that are nil.
-/
namespace Ofx.Props
open Ofx Ofx.Spec

/-! ### Lists of messages -/

theorem encodeEntries_msgs (v : Nat) (set : MsgType) (ms : List Message) :
    encodeEntries v set (ms.map .msg) = .ret (encodeMessages v set ms).1 := by
  induction ms with
  | nil => rfl
  | cons m ms ih =>
    simp only [List.map_cons, encodeEntries, Entry.type, Outcome.bind, encodeMessages, show MessageImpl.type m = m.type from rfl]
    by_cases ht : m.type = set
    · rw [if_neg (not_not.mpr ht), if_neg (not_not.mpr ht)]
      simp only [Entry.valid, MessageImpl.valid]
      cases (m.valid v).1 with
      | some e => rfl
      | none =>
        simp only [Option.map_none, Entry.encode]
        have : MessageImpl.encode (m.valid v).2 = (m.valid v).2.encode := rfl
        rw [this]
        cases (m.valid v).2.encode with
        | error e => rfl
        | ok ns =>
          simp only
          rw [ih]
          rcases encodeMessages v set ms with ⟨r, ms'⟩
          cases r <;> rfl
    · rw [if_pos ht, if_pos ht]

theorem encodeEntrySet_msgs (v : Nat) (set : MsgType) (ms : List Message) :
    encodeEntrySet v set (ms.map .msg) = .ret (encodeMessageSet v set ms).1 := by
  unfold encodeEntrySet encodeMessageSet
  rw [List.length_map, encodeEntries_msgs]
  by_cases h : ms.length > 0
  · rw [if_pos h, if_pos h]
    rcases encodeMessages v set ms with ⟨r, ms'⟩
    cases r <;> rfl
  · rw [if_neg h, if_neg h]

theorem encodeSets_ext (v : Nat) (type : MsgSet → MsgType) (ss : List MsgSet) (f g : MsgSet → List Message)
    (h : ∀ s ∈ ss, f s = g s) (hn : ss.Nodup) : (encodeSets v type ss f).1 = (encodeSets v type ss g).1 := by
  induction ss generalizing f g with
  | nil => rfl
  | cons s ss ih =>
    rw [List.nodup_cons] at hn
    simp only [encodeSets, h s List.mem_cons_self]
    rcases encodeMessageSet v (type s) (g s) with ⟨r, ms⟩
    cases r with
    | error e => rfl
    | ok ns =>
      simp only
      have := ih (Function.update f s ms) (Function.update g s ms) (by
        intro t ht
        have : t ≠ s := by rintro rfl; exact hn.1 ht
        rw [Function.update_of_ne this, Function.update_of_ne this, h t (List.mem_cons_of_mem _ ht)]) hn.2
      rcases h1 : encodeSets v type ss (Function.update f s ms) with ⟨a, b⟩
      rcases h2 : encodeSets v type ss (Function.update g s ms) with ⟨c, d⟩
      rw [h1, h2] at this
      simp only at this
      subst this
      cases a <;> rfl

theorem encodeEntrySets_msgs (v : Nat) (type : MsgSet → MsgType) (ss : List MsgSet) (f : MsgSet → List Message) (hn : ss.Nodup) :
    encodeEntrySets v type (fun s => (f s).map .msg) ss = .ret (encodeSets v type ss f).1 := by
  induction ss with
  | nil => rfl
  | cons s ss ih =>
    rw [List.nodup_cons] at hn
    simp only [encodeEntrySets, encodeSets, encodeEntrySet_msgs, Outcome.bind]
    rcases h0 : encodeMessageSet v (type s) (f s) with ⟨r, ms⟩
    cases r with
    | error e => rfl
    | ok ns =>
      simp only
      rw [ih hn.2]
      simp only
      rw [encodeSets_ext v type ss f (Function.update f s ms) (fun t ht => by
        rw [Function.update_of_ne]; rintro rfl; exact hn.1 ht) hn.2]
      rcases encodeSets v type ss (Function.update f s ms) with ⟨a, b⟩
      cases a <;> rfl

/-- C100 (partial): if the lists of a request hold messages only, Marshal returns, with the document or an error. -/
theorem C100_request_partial (r : Request Message) : r.entries.marshalEntries = .ret r.marshal.1 := by
  unfold Request.marshalEntries Request.marshal
  simp only [Request.entries]
  rcases r.signon.valid r.version with ⟨e, so⟩
  cases e with
  | some e => rfl
  | none =>
    simp only
    cases encodeAs "SONRQ".toList so with
    | error e => rfl
    | ok ns =>
      simp only [encodeEntrySets_msgs _ _ _ _ MsgSet.lists_nodup, Outcome.bind]
      rcases encodeSets r.version .rq MsgSet.lists r.sets with ⟨a, b⟩
      cases a <;> rfl

/-- C100 (partial): likewise for responses. -/
theorem C100_response_partial (r : Response Message) : r.entries.marshalEntries = .ret r.marshal.1 := by
  unfold Response.marshalEntries Response.marshal
  simp only [Response.entries]
  cases r.signon.valid r.version with
  | some e => rfl
  | none =>
    simp only
    cases encodeAs "SONRS".toList r.signon with
    | error e => rfl
    | ok ns =>
      simp only [encodeEntrySets_msgs _ _ _ _ MsgSet.lists_nodup, Outcome.bind]
      rcases encodeSets r.version .rs MsgSet.lists r.sets with ⟨a, b⟩
      cases a <;> rfl

/-! ### When Marshal panics -/

theorem fine_encodable {m : Message} : Encodable m ↔
    ∀ p, m = .profileResponse p → ∀ set ∈ p.MessageSetList, ∃ short, short ≠ [] ∧ set.Name = short ++ "V1".toList := by
  cases m <;> simp [Encodable, AllV1]

theorem encodeEntries_cases (v : Nat) (s : MsgType) (l : List Entry) :
    ((∃ ns, encodeEntries v s l = .ret (.ok ns)) ∧ ∀ e ∈ l, FineEntry v s e) ∨
    (∃ pre e post, l = pre ++ e :: post ∧ (∀ e ∈ pre, FineEntry v s e) ∧ ¬ FineEntry v s e ∧
      ((Hole s e ∧ encodeEntries v s l = .panic) ∨ (¬ Hole s e ∧ ∃ err, encodeEntries v s l = .ret (.error err)))) := by
  induction l with
  | nil => exact .inl ⟨⟨[], rfl⟩, fun e h => absurd h List.not_mem_nil⟩
  | cons e l ih =>
    have hgo : ∀ (e : Entry) (ns : List Node), FineEntry v s e → (encodeEntries v s (e :: l) =
        (encodeEntries v s l).bind fun r => .ret (r.map (ns ++ ·))) →
        ((∃ ns, encodeEntries v s (e :: l) = .ret (.ok ns)) ∧ ∀ d ∈ e :: l, FineEntry v s d) ∨
        (∃ pre e' post, e :: l = pre ++ e' :: post ∧ (∀ e ∈ pre, FineEntry v s e) ∧ ¬ FineEntry v s e' ∧
        ((Hole s e' ∧ encodeEntries v s (e :: l) = .panic) ∨
          (¬ Hole s e' ∧ ∃ err, encodeEntries v s (e :: l) = .ret (.error err)))) := by
      intro d ns hfine hstep
      rcases ih with ⟨⟨rest, h1⟩, h2⟩ | ⟨pre, e, post, h1, h2, h3, h4⟩
      · refine .inl ⟨⟨ns ++ rest, by rw [hstep, h1]; rfl⟩, ?_⟩
        intro e he
        rcases List.mem_cons.mp he with rfl | he
        · exact hfine
        · exact h2 e he
      · refine .inr ⟨d :: pre, e, post, by rw [h1]; rfl, ?_, h3, ?_⟩
        · intro e he
          rcases List.mem_cons.mp he with rfl | he
          · exact hfine
          · exact h2 e he
        · rcases h4 with ⟨h4, h5⟩ | ⟨h4, err, h5⟩
          · exact .inl ⟨h4, by rw [hstep, h5]; rfl⟩
          · exact .inr ⟨h4, err, by rw [hstep, h5]; rfl⟩
    cases e with
    | nil =>
      refine .inr ⟨[], .nil, l, rfl, fun e h => absurd h List.not_mem_nil, ?_, .inl ⟨.inl rfl, rfl⟩⟩
      rintro (⟨m, h, -⟩ | ⟨h, -⟩) <;> cases h
    | nilPtr k =>
      by_cases hk : k.type = s
      · by_cases hs : k = .securityList
        · subst hs
          refine hgo _ [] (.inr ⟨rfl, hk.symm⟩) ?_
          conv_lhs => rw [encodeEntries]
          simp only [Entry.type, Outcome.bind]
          rw [if_neg (not_not.mpr hk)]
          simp only [Entry.valid, if_pos, Entry.encode]
        · refine .inr ⟨[], .nilPtr k, l, rfl, fun e h => absurd h List.not_mem_nil, ?_, .inl ⟨.inr ⟨k, rfl, hk, hs⟩, ?_⟩⟩
          · rintro (⟨m, h, -⟩ | ⟨h, -⟩)
            · cases h
            · cases h; exact hs rfl
          · simp only [encodeEntries, Entry.type, Outcome.bind]
            rw [if_neg (not_not.mpr hk)]
            simp only [Entry.valid, if_neg hs]
      · refine .inr ⟨[], .nilPtr k, l, rfl, fun e h => absurd h List.not_mem_nil, ?_, .inr ⟨?_,
          .plain ("Expected " ++ String.ofList s.string ++ " message , found " ++ String.ofList k.type.string), ?_⟩⟩
        · rintro (⟨m, h, -⟩ | ⟨h, h'⟩)
          · cases h
          · cases h; exact hk h'.symm
        · rintro (h | ⟨k', h, h', -⟩)
          · cases h
          · cases h; exact hk h'
        · simp only [encodeEntries, Entry.type, Outcome.bind]
          rw [if_pos hk]
    | msg m =>
      have hnot : ¬ Hole s (.msg m) := by
        rintro (h | ⟨k, h, -⟩) <;> cases h
      by_cases ht : m.type = s
      · cases hv : (m.valid v).1 with
        | some err =>
          refine .inr ⟨[], .msg m, l, rfl, fun e h => absurd h List.not_mem_nil, ?_, .inr ⟨hnot, .plain err, ?_⟩⟩
          · rintro (⟨m', h, -, h', -⟩ | ⟨h, -⟩)
            · cases h
              rw [hv] at h'
              cases h'
            · cases h
          · simp only [encodeEntries, Entry.type, Outcome.bind]
            rw [if_neg (not_not.mpr ht)]
            simp only [Entry.valid, hv, Option.map_some]
        | none =>
          have hV : Encodable (m.valid v).2 ↔ Encodable m := by cases m <;> exact Iff.rfl
          by_cases henc : Encodable m
          · obtain ⟨ns, hns⟩ := (Message.encode_ok_iff _).mpr (hV.mpr henc)
            refine hgo _ ns (.inl ⟨m, rfl, ht, hv, fine_encodable.mp henc⟩) ?_
            conv_lhs => rw [encodeEntries]
            simp only [Entry.type, Outcome.bind]
            rw [if_neg (not_not.mpr ht)]
            simp only [Entry.valid, hv, Option.map_none, Entry.encode, hns]
          · cases hns : (m.valid v).2.encode with
            | ok ns => exact absurd (hV.mp ((Message.encode_ok_iff _).mp ⟨ns, hns⟩)) henc
            | error err =>
              refine .inr ⟨[], .msg m, l, rfl, fun e h => absurd h List.not_mem_nil, ?_, .inr ⟨hnot, .plain err, ?_⟩⟩
              · rintro (⟨m', h, -, -, h'⟩ | ⟨h, -⟩)
                · cases h
                  exact henc (fine_encodable.mpr h')
                · cases h
              · simp only [encodeEntries, Entry.type, Outcome.bind]
                rw [if_neg (not_not.mpr ht)]
                simp only [Entry.valid, hv, Option.map_none, Entry.encode, hns]
      · refine .inr ⟨[], .msg m, l, rfl, fun e h => absurd h List.not_mem_nil, ?_, .inr ⟨hnot,
          .plain ("Expected " ++ String.ofList s.string ++ " message , found " ++ String.ofList m.type.string), ?_⟩⟩
        · rintro (⟨m', h, h', -⟩ | ⟨h, -⟩)
          · cases h
            exact ht h'
          · cases h
        · simp only [encodeEntries, Entry.type, Outcome.bind]
          rw [if_pos ht]

theorem encodeEntrySets_cases (v : Nat) (type : MsgSet → MsgType) (f : MsgSet → List Entry) (ss : List MsgSet) :
    ((∃ ns, encodeEntrySets v type f ss = .ret (.ok ns)) ∧ ∀ s ∈ ss, ∀ e ∈ f s, FineEntry v (type s) e) ∨
    (∃ s e, FirstTrouble v type f ss s e ∧
      ((Hole (type s) e ∧ encodeEntrySets v type f ss = .panic) ∨ (¬ Hole (type s) e ∧ ∃ err, encodeEntrySets v type f ss = .ret (.error err)))) := by
  induction ss with
  | nil => exact .inl ⟨⟨[], rfl⟩, fun s h => absurd h List.not_mem_nil⟩
  | cons s ss ih =>
    have hset : (∃ ns, encodeEntrySet v (type s) (f s) = .ret (.ok ns)) ∧ (∀ e ∈ f s, FineEntry v (type s) e) ∨
        (∃ pre e post, f s = pre ++ e :: post ∧ (∀ e ∈ pre, FineEntry v (type s) e) ∧ ¬ FineEntry v (type s) e ∧
          ((Hole (type s) e ∧ encodeEntrySet v (type s) (f s) = .panic) ∨
            (¬ Hole (type s) e ∧ ∃ err, encodeEntrySet v (type s) (f s) = .ret (.error err)))) := by
      unfold encodeEntrySet
      by_cases hl : (f s).length > 0
      · rw [if_pos hl]
        rcases encodeEntries_cases v (type s) (f s) with ⟨⟨ns, h1⟩, h2⟩ | ⟨pre, e, post, h1, h2, h3, h4⟩
        · exact .inl ⟨⟨_, by rw [h1]; rfl⟩, h2⟩
        · refine .inr ⟨pre, e, post, h1, h2, h3, ?_⟩
          rcases h4 with ⟨h4, h5⟩ | ⟨h4, err, h5⟩
          · exact .inl ⟨h4, by rw [h5]; rfl⟩
          · exact .inr ⟨h4, err, by rw [h5]; rfl⟩
      · rw [if_neg hl]
        have : f s = [] := List.eq_nil_of_length_eq_zero (by omega)
        exact .inl ⟨⟨_, rfl⟩, by rw [this]; exact fun e h => absurd h List.not_mem_nil⟩
    rcases hset with ⟨⟨ns, h1⟩, h2⟩ | ⟨pre, e, post, h1, h2, h3, h4⟩
    · have hstep : encodeEntrySets v type f (s :: ss) =
          (encodeEntrySets v type f ss).bind fun r => .ret (r.map (ns ++ ·)) := by
        conv_lhs => rw [encodeEntrySets]
        rw [h1]
        rfl
      rcases ih with ⟨⟨rest, h3⟩, h4⟩ | ⟨t, e, ⟨before, after, pre, post, g1, g2, g3, g4, g5⟩, h4⟩
      · refine .inl ⟨⟨_, by rw [hstep, h3]; rfl⟩, ?_⟩
        intro t ht
        rcases List.mem_cons.mp ht with rfl | ht
        · exact h2
        · exact h4 t ht
      · refine .inr ⟨t, e, ⟨s :: before, after, pre, post, by rw [g1]; rfl, ?_, g3, g4, g5⟩, ?_⟩
        · intro t ht
          rcases List.mem_cons.mp ht with rfl | ht
          · exact h2
          · exact g2 t ht
        · rcases h4 with ⟨h4, h5⟩ | ⟨h4, err, h5⟩
          · exact .inl ⟨h4, by rw [hstep, h5]; rfl⟩
          · exact .inr ⟨h4, err, by rw [hstep, h5]; rfl⟩
    · refine .inr ⟨s, e, ⟨[], ss, pre, post, rfl, fun t h => absurd h List.not_mem_nil, h1, h2, h3⟩, ?_⟩
      rcases h4 with ⟨h4, h5⟩ | ⟨h4, err, h5⟩
      · exact .inl ⟨h4, by rw [encodeEntrySets, h5]; rfl⟩
      · exact .inr ⟨h4, err, by rw [encodeEntrySets, h5]; rfl⟩

theorem firstNot_unique {α : Type} {P : α → Prop} {a b c d : List α} {x y : α} (h : a ++ x :: b = c ++ y :: d)
    (ha : ∀ z ∈ a, P z) (hc : ∀ z ∈ c, P z) (hx : ¬ P x) (hy : ¬ P y) : a = c ∧ x = y := by
  induction a generalizing c with
  | nil =>
    cases c with
    | nil => exact ⟨rfl, (List.cons.inj h).1⟩
    | cons z c => exact absurd (hc z List.mem_cons_self) (by rw [← (List.cons.inj h).1]; exact hx)
  | cons z a ih =>
    cases c with
    | nil => exact absurd (ha z List.mem_cons_self) (by rw [(List.cons.inj h).1]; exact hy)
    | cons w c =>
      obtain ⟨h1, h2⟩ := List.cons.inj h
      obtain ⟨h3, h4⟩ := ih h2 (fun z hz => ha z (List.mem_cons_of_mem _ hz)) (fun z hz => hc z (List.mem_cons_of_mem _ hz))
      exact ⟨by rw [h1, h3], h4⟩

theorem firstTrouble_unique {v : Nat} {type : MsgSet → MsgType} {f : MsgSet → List Entry} {ss : List MsgSet} {s t : MsgSet} {e d : Entry}
    (h1 : FirstTrouble v type f ss s e) (h2 : FirstTrouble v type f ss t d) : s = t ∧ e = d := by
  obtain ⟨b1, a1, p1, q1, h1, i1, j1, k1, l1⟩ := h1
  obtain ⟨b2, a2, p2, q2, h2, i2, j2, k2, l2⟩ := h2
  have hst := firstNot_unique (P := fun t => ∀ e ∈ f t, FineEntry v (type t) e) (h1.symm.trans h2) i1 i2
    (fun h => l1 (h e (by rw [j1]; simp))) (fun h => l2 (h d (by rw [j2]; simp)))
  obtain ⟨-, rfl⟩ := hst
  exact ⟨rfl, (firstNot_unique (j1.symm.trans j2) k1 k2 l1 l2).2⟩

/-- C100 fails: Marshal panics exactly if the signon is good and the first entry that is not a valid message of its
set is nil (or a nil pointer to a request of that set); whatever comes after it does not matter. -/
theorem C100_panics (r : Request Entry) : r.marshalEntries = .panic ↔
    GoodSignon r.signon ∧ ∃ s e, FirstTrouble r.version .rq r.sets MsgSet.lists s e ∧ Hole (.rq s) e := by
  rw [← C23_signon_valid_iff r.version]
  unfold Request.marshalEntries
  rcases r.signon.valid r.version with ⟨err, so⟩
  cases err with
  | some err =>
    refine ⟨fun h => (by cases h), fun h => (by cases h.1)⟩
  | none =>
    obtain ⟨cs, hcs⟩ := signonRq_encode so
    simp only [hcs, true_and]
    rcases encodeEntrySets_cases r.version .rq r.sets MsgSet.lists with ⟨⟨ns, h1⟩, h2⟩ | ⟨s, e, h1, h2⟩
    · rw [h1]
      refine ⟨fun h => (by cases h), ?_⟩
      rintro ⟨s, e, ⟨before, after, pre, post, g1, -, g3, -, g5⟩, -⟩
      exact absurd (h2 s (by rw [g1]; simp) e (by rw [g3]; simp)) g5
    · rcases h2 with ⟨h2, h3⟩ | ⟨h2, err, h3⟩
      · rw [h3]
        exact ⟨fun _ => ⟨s, e, h1, h2⟩, fun _ => rfl⟩
      · rw [h3]
        refine ⟨fun h => (by cases h), ?_⟩
        rintro ⟨t, d, h4, h5⟩
        obtain ⟨rfl, rfl⟩ := firstTrouble_unique h1 h4
        exact absurd h5 h2

/-- C100 fails: likewise for responses, except that a nil pointer to a list of securities is written as nothing. -/
theorem C100_response_panics (r : Response Entry) : r.marshalEntries = .panic ↔
    (bytes r.signon.Language = 3 ∧ GoodStatus r.signon.Status) ∧ ∃ s e, FirstTrouble r.version .rs r.sets MsgSet.lists s e ∧ Hole (.rs s) e := by
  rw [← C23_signon_response_valid_iff r.version]
  unfold Response.marshalEntries
  cases r.signon.valid r.version with
  | some err =>
    refine ⟨fun h => (by cases h), fun h => (by cases h.1)⟩
  | none =>
    obtain ⟨cs, hcs⟩ := signonRs_encode r.signon
    simp only [hcs, true_and]
    rcases encodeEntrySets_cases r.version .rs r.sets MsgSet.lists with ⟨⟨ns, h1⟩, h2⟩ | ⟨s, e, h1, h2⟩
    · rw [h1]
      refine ⟨fun h => (by cases h), ?_⟩
      rintro ⟨s, e, ⟨before, after, pre, post, g1, -, g3, -, g5⟩, -⟩
      exact absurd (h2 s (by rw [g1]; simp) e (by rw [g3]; simp)) g5
    · rcases h2 with ⟨h2, h3⟩ | ⟨h2, err, h3⟩
      · rw [h3]
        exact ⟨fun _ => ⟨s, e, h1, h2⟩, fun _ => rfl⟩
      · rw [h3]
        refine ⟨fun h => (by cases h), ?_⟩
        rintro ⟨t, d, h4, h5⟩
        obtain ⟨rfl, rfl⟩ := firstTrouble_unique h1 h4
        exact absurd h5 h2

/-- C100: a document is never made of a request with an entry that is nil: nothing is left out. -/
theorem C100_never_skipped (r : Request Entry) (d : Doc) (h : r.marshalEntries = .ret (.ok d)) :
    ∃ r' : Request Message, (∀ s ∈ MsgSet.lists, r.sets s = (r'.sets s).map .msg) ∧ r'.marshal.1 = .ok d := by
  have hall : ∀ s ∈ MsgSet.lists, ∀ e ∈ r.sets s, FineEntry r.version (.rq s) e := by
    unfold Request.marshalEntries at h
    rcases hs : r.signon.valid r.version with ⟨err, so⟩
    rw [hs] at h
    cases err with
    | some err => cases h
    | none =>
      obtain ⟨cs, hcs⟩ := signonRq_encode so
      simp only [hcs] at h
      rcases encodeEntrySets_cases r.version .rq r.sets MsgSet.lists with ⟨-, h2⟩ | ⟨s, e, h1, h2⟩
      · exact h2
      · rcases h2 with ⟨h2, h3⟩ | ⟨h2, err, h3⟩ <;> (rw [h3] at h; cases h)
  have hmap : ∀ l : List Entry, ∃ ms : List Message, (∀ e ∈ l, ∃ m, e = .msg m) → l = ms.map .msg := by
    intro l
    induction l with
    | nil => exact ⟨[], fun _ => rfl⟩
    | cons e l ih =>
      obtain ⟨ms, hms⟩ := ih
      cases e with
      | msg m =>
        exact ⟨m :: ms, fun h => by rw [List.map_cons, ← hms fun e he => h e (List.mem_cons_of_mem _ he)]⟩
      | nil => exact ⟨[], fun h => by obtain ⟨m, hm⟩ := h _ List.mem_cons_self; cases hm⟩
      | nilPtr k => exact ⟨[], fun h => by obtain ⟨m, hm⟩ := h _ List.mem_cons_self; cases hm⟩
  choose g hg using hmap
  let r' : Request Message := { r with sets := fun s => g (r.sets s) }
  have hsets : ∀ s ∈ MsgSet.lists, r.sets s = (r'.sets s).map .msg := fun s hs =>
    hg (r.sets s) fun e he => by
      rcases hall s hs e he with ⟨m, hm, -⟩ | ⟨-, h⟩
      · exact ⟨m, hm⟩
      · cases h
  refine ⟨r', hsets, ?_⟩
  have hcongr : ∀ ss : List MsgSet, (∀ s ∈ ss, s ∈ MsgSet.lists) →
      encodeEntrySets r.version .rq r.sets ss = encodeEntrySets r.version .rq r'.entries.sets ss := by
    intro ss
    induction ss with
    | nil => exact fun _ => rfl
    | cons s ss ih =>
      intro h
      simp only [encodeEntrySets]
      rw [ih fun t ht => h t (List.mem_cons_of_mem _ ht), hsets s (h s List.mem_cons_self)]
      rfl
  have heq : r.marshalEntries = r'.entries.marshalEntries := by
    unfold Request.marshalEntries
    rw [hcongr _ fun s h => h]
    rfl
  rw [heq, C100_request_partial] at h
  injection h

/-! ### Response.Valid -/

theorem addEntryErrs_panic (v : Nat) (errs : List Err) (l : List Entry) :
    addEntryErrs v errs l = .panic ↔ ∃ e ∈ l, e = .nil ∨ ∃ k, e = .nilPtr k ∧ k ≠ .securityList := by
  induction l generalizing errs with
  | nil => simp [addEntryErrs]
  | cons e l ih =>
    simp only [addEntryErrs, List.mem_cons, or_and_right, exists_or, exists_eq_left]
    cases e with
    | nil => simp [Entry.valid, Outcome.bind]
    | nilPtr k =>
      by_cases hk : k = .securityList
      · simp [Entry.valid, Outcome.bind, hk, ih]
      · simp [Entry.valid, Outcome.bind, hk]
    | msg m => simp [Entry.valid, Outcome.bind, ih]

theorem addEntryErrs_msgs (v : Nat) (errs : List Err) (ms : List Message) :
    addEntryErrs v errs (ms.map .msg) = .ret (addMessageErrs v errs ms) := by
  induction ms generalizing errs with
  | nil => rfl
  | cons m ms ih =>
    simp only [List.map_cons, addEntryErrs, Entry.valid, Outcome.bind, ih]
    rfl

/-- C100 (partial): if the lists of a response hold messages only, Valid returns. -/
theorem C100_valid_partial (r : Response Message) : r.entries.validEntries = .ret r.valid := by
  have : ∀ (ss : List MsgSet) (errs : List Err),
      addEntrySetErrs r.version r.entries.sets errs ss = .ret (addSetErrs r.version r.sets errs ss) := by
    intro ss
    induction ss with
    | nil => exact fun _ => rfl
    | cons s ss ih =>
      intro errs
      simp only [addEntrySetErrs, addSetErrs, Response.entries, addEntryErrs_msgs, Outcome.bind]
      exact ih _
  unfold Response.validEntries
  rw [show r.entries.version = r.version from rfl, this]
  rfl

/-- C100 fails: Valid panics exactly if one of the lists has an entry that is nil, or a nil pointer to anything but a
list of securities. -/
theorem C100_valid_panics (r : Response Entry) : r.validEntries = .panic ↔
    ∃ s, s ≠ .signon ∧ ∃ e ∈ r.sets s, e = .nil ∨ ∃ k, e = .nilPtr k ∧ k ≠ .securityList := by
  have : ∀ (ss : List MsgSet) (errs : List Err), addEntrySetErrs r.version r.sets errs ss = .panic ↔
      ∃ s ∈ ss, ∃ e ∈ r.sets s, e = .nil ∨ ∃ k, e = .nilPtr k ∧ k ≠ .securityList := by
    intro ss
    induction ss with
    | nil => simp [addEntrySetErrs]
    | cons s ss ih =>
      intro errs
      simp only [addEntrySetErrs, List.mem_cons, or_and_right, exists_or, exists_eq_left]
      rw [← ih errs, ← addEntryErrs_panic r.version errs]
      cases addEntryErrs r.version errs (r.sets s) with
      | panic => simp [Outcome.bind]
      | ret x =>
        simp only [Outcome.bind, reduceCtorEq, false_or]
        rw [ih, ih]
  unfold Response.validEntries
  simp only [← MsgSet.mem_lists]
  rw [← this MsgSet.lists (addErr [] ((r.signon.valid r.version).map Err.plain))]
  cases addEntrySetErrs r.version r.sets (addErr [] ((r.signon.valid r.version).map Err.plain)) MsgSet.lists with
  | panic => simp [Outcome.bind]
  | ret x => simp [Outcome.bind]

/-! Requests of each kind. -/

/-- C100 example: the bank messages of the sample are followed by nil; nothing is wrong before it. -/
example : ({ sampleRequest.entries with sets := fun s => if s = .bank then (sampleRequest.sets .bank).map .msg ++ [.nil] else [] }
    : Request Entry).marshalEntries = .panic := by
  obtain ⟨h1, h2⟩ := (C26_request_marshal_iff sampleRequest).mp sampleRequest_ok
  refine (C100_panics _).mpr ⟨h1, .bank, .nil, ⟨[.signup], _, (sampleRequest.sets .bank).map .msg, [], rfl, ?_, rfl, ?_, ?_⟩, .inl rfl⟩
  · intro t ht e he
    rw [List.mem_singleton] at ht
    subst ht
    cases he
  · intro e he
    obtain ⟨m, hm, rfl⟩ := List.mem_map.mp he
    obtain ⟨h3, h4⟩ := h2 .bank (by decide) m hm
    exact .inl ⟨m, rfl, h3, h4, fun p hp => by rw [hp] at h3; cases h3⟩
  · rintro (⟨m, h, -⟩ | ⟨h, -⟩) <;> cases h

/-- C100 example: a nil pointer in a list of another set is refused, not called. -/
example : encodeEntries 10 (.rq .bank) [.nilPtr .ccStatementRequest] ≠ .panic := by
  simp only [encodeEntries, Entry.type, Outcome.bind]
  rw [if_pos (by decide)]
  exact fun h => (by cases h)

/-- C100 example: a nil pointer to a list of securities is written as nothing. -/
example : encodeEntries 10 (.rs .secList) [.nilPtr .securityList] = .ret (.ok []) := by
  simp only [encodeEntries, Entry.type, Outcome.bind]
  rw [if_neg (by decide)]
  rfl

/-- C100 example: Valid of a response with a nil entry. -/
example (so : SignonResponse) : (⟨10, so, fun s => if s = .bank then [.nil] else []⟩ : Response Entry).validEntries = .panic :=
  (C100_valid_panics _).mpr ⟨.bank, by decide, .nil, List.mem_singleton.mpr rfl, .inl rfl⟩

example : sampleRequest.entries.marshalEntries = .ret sampleRequest.marshal.1 ∧ ∃ d, sampleRequest.marshal.1 = .ok d :=
  ⟨C100_request_partial _, sampleRequest_ok⟩

end Ofx.Props
