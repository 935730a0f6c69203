import Verif.Lemmas.ListKinds
/-
Reading a MessageSetList.
-/
namespace Ofx
open Spec

theorem isBlank_text (s : Str) : isBlank (.text s) = true ↔ IsPadding s := by
  rw [isPadding_iff]
  simp only [isBlank, List.isEmpty_iff]
  constructor
  · intro h
    obtain ⟨w, w', h1, h2, h3⟩ := trimSpace_decomp s
    rw [h, List.append_nil] at h3
    rw [h3]; exact h1.append h2
  · intro h
    have := trimSpace_pad (w := s) (w' := []) (s := []) h (by intro c hc; cases hc) ⟨by simp, by simp⟩
    simpa using this

theorem onlyElements_iff (cs : List Node) : NonBlankElems cs ↔ OnlyElements cs := by
  constructor
  · intro h c hc
    cases c with
    | elem n ch => exact .inl ⟨n, ch, rfl⟩
    | text s =>
      right
      refine ⟨s, rfl, (isBlank_text s).mp ?_⟩
      by_cases hb : isBlank (.text s) = true
      · exact hb
      · obtain ⟨n, ch, hh⟩ := h _ hc (by simpa using hb)
        cases hh
    | misc => obtain ⟨n, ch, hh⟩ := h _ hc rfl; cases hh
  · intro h c hc hb
    rcases h c hc with ⟨n, ch, rfl⟩ | ⟨s, rfl, hs⟩
    · exact ⟨n, ch, rfl⟩
    · rw [(isBlank_text s).mpr hs] at hb; cases hb

theorem onlyElements_filter (cs : List Node) (h : OnlyElements cs) :
    cs.filter (fun c => !isBlank c) = (elems cs).map (fun e => Node.elem e.1 e.2) := by
  induction cs with
  | nil => rfl
  | cons c cs ih =>
    have ih := ih (fun c hc => h c (List.mem_cons_of_mem _ hc))
    rcases h c (List.mem_cons_self ..) with ⟨n, ch, rfl⟩ | ⟨s, rfl, hs⟩
    · rw [List.filter_cons_of_pos (by rfl)]
      simp only [elems, List.map_cons]; rw [ih]
    · rw [List.filter_cons_of_neg (by rw [(isBlank_text s).mpr hs]; simp)]
      simp only [elems]; exact ih

theorem mem_nonblank {cs : List Node} {l : List (Str × List Node)}
    (h : cs.filter (fun c => !isBlank c) = l.map (fun e => Node.elem e.1 e.2)) : OnlyElements cs ∧ elems cs = l := by
  have h1 : OnlyElements cs := by
    rw [← onlyElements_iff]
    intro c hc hb
    have : c ∈ cs.filter (fun c => !isBlank c) := List.mem_filter.mpr ⟨hc, by simp [hb]⟩
    rw [h] at this
    obtain ⟨e, _, rfl⟩ := List.mem_map.mp this
    exact ⟨_, _, rfl⟩
  refine ⟨h1, ?_⟩
  rw [onlyElements_filter cs h1] at h
  exact List.map_injective_iff.mpr (fun a b hab => by
    obtain ⟨a1, a2⟩ := a; obtain ⟨b1, b2⟩ := b
    simp only [Node.elem.injEq] at hab
    exact Prod.ext hab.1 hab.2) h

theorem onlyChild_iff (cs : List Node) (n : Str) (ch : List Node) :
    onlyChild cs = some (n, ch) ↔ OnlyElements cs ∧ elems cs = [(n, ch)] := by
  unfold onlyChild
  constructor
  · intro h
    split at h
    · next n' ch' hf =>
      cases h
      exact mem_nonblank (l := [(n, ch)]) hf
    · cases h
  · rintro ⟨h1, h2⟩
    rw [onlyElements_filter cs h1, h2]
    rfl

theorem mapE_iff {α β : Type} (f : α → Except String β) (l : List α) (ys : List β) :
    mapE f l = .ok ys ↔ List.Forall₂ (fun x y => f x = .ok y) l ys := by
  induction l generalizing ys with
  | nil =>
    simp only [mapE, Except.ok.injEq, List.forall₂_nil_left_iff]
    exact eq_comm
  | cons x xs ih =>
    rw [mapE]
    cases hx : f x with
    | error e =>
      simp only [reduceCtorEq, false_iff]
      intro h; cases h with
      | cons a b => rw [hx] at a; cases a
    | ok y =>
      cases hm : mapE f xs with
      | error e =>
        simp only [reduceCtorEq, false_iff]
        intro h; cases h with
        | cons a b => rw [(ih _).mpr b] at hm; cases hm
      | ok zs =>
        simp only [Except.ok.injEq]
        constructor
        · rintro rfl; exact .cons hx ((ih zs).mp hm)
        · intro h
          cases h with
          | cons a b =>
            rw [hx] at a; cases a
            rw [(ih _).mpr b] at hm; cases hm; rfl

theorem decMsgSet_iff (env : Env) (c : Node) (m : MessageSet) :
    decMsgSet (fun x => runEvents false (fun v p n c => MessageSet.tagged.dec env v p n c) MessageSet.tagged.zero
      (MessageSet.tagged.eventsL [] x)) c = .ok (MessageSet.toDen m) ↔
    ∃ e : Str × List Node, c = .elem e.1 e.2 ∧ MessageSetReads env e m := by
  have hty : ∀ inner, (Ty.struct .none MessageSet.tagged).dec env (Ty.struct .none MessageSet.tagged).zero m.Name inner =
      .ok ((), (MessageSet.toDen m).2.2) ↔
      runEvents false (fun v p n c => MessageSet.tagged.dec env v p n c) MessageSet.tagged.zero
        (MessageSet.tagged.eventsL [] inner) = .ok (MessageSet.toDen m).2.2 := by
    intro inner
    rw [Ty.dec, if_pos (by rfl)]
    have hz : (Ty.struct .none MessageSet.tagged).zero.2 = MessageSet.tagged.zero := by rw [Ty.zero]
    rw [hz]
    cases hr : runEvents false (fun v p n c => MessageSet.tagged.dec env v p n c) MessageSet.tagged.zero
        (MessageSet.tagged.eventsL [] inner) with
    | error e => exact ⟨fun h => (by cases h), fun h => (by cases h)⟩
    | ok v =>
      constructor
      · intro h
        exact congrArg Except.ok (congrArg Prod.snd (Except.ok.inj h))
      · intro h
        exact congrArg Except.ok (Prod.ext rfl (Except.ok.inj h))
  cases c with
  | text s => exact ⟨fun h => (by cases h), fun ⟨e, h, _⟩ => by cases h⟩
  | misc => exact ⟨fun h => (by cases h), fun ⟨e, h, _⟩ => by cases h⟩
  | elem n ch =>
    unfold decMsgSet
    simp only
    constructor
    · intro h
      refine ⟨(n, ch), rfl, ?_⟩
      cases ho : onlyChild ch with
      | none => rw [ho] at h; cases h
      | some x =>
        obtain ⟨nm, inner⟩ := x
        obtain ⟨h1, h2⟩ := (onlyChild_iff _ _ _).mp ho
        rw [ho] at h
        simp only at h
        cases hr : runEvents false (fun v p n c => MessageSet.tagged.dec env v p n c) MessageSet.tagged.zero
            (MessageSet.tagged.eventsL [] inner) with
        | error e => rw [hr] at h; cases h
        | ok d =>
          rw [hr] at h
          simp only [Except.ok.injEq] at h
          have a1 : nm = m.XMLName := congrArg Prod.fst h
          have a2 : nm = m.Name := congrArg (fun x : MessageSet.Den => x.2.1) h
          have a3 : d = (MessageSet.toDen m).2.2 := congrArg (fun x : MessageSet.Den => x.2.2) h
          refine ⟨h1, inner, by rw [h2, a2], by rw [← a1, ← a2], (hty inner).mpr ?_⟩
          rw [hr, a3]
    · rintro ⟨⟨n', ch'⟩, he, h1, inner, h2, h3, h4⟩
      cases he
      rw [(onlyChild_iff _ _ _).mpr ⟨h1, h2⟩]
      simp only
      rw [(hty inner).mp h4]
      simp only
      rw [show MessageSet.toDen m = (m.XMLName, m.Name, (MessageSet.toDen m).2.2) from rfl, h3]

theorem forall₂_elems {p : Node → MessageSet → Prop} {q : Str × List Node → MessageSet → Prop}
    (hpq : ∀ c m, p c m ↔ ∃ e : Str × List Node, c = .elem e.1 e.2 ∧ q e m) (cs : List Node) (l : List MessageSet) :
    List.Forall₂ p (cs.filter (fun c => !isBlank c)) l ↔ OnlyElements cs ∧ List.Forall₂ q (elems cs) l := by
  constructor
  · intro h
    have : ∃ es : List (Str × List Node), cs.filter (fun c => !isBlank c) = es.map (fun e => Node.elem e.1 e.2) ∧
        List.Forall₂ q es l := by
      generalize cs.filter (fun c => !isBlank c) = ds at h
      induction h with
      | nil => exact ⟨[], rfl, .nil⟩
      | cons a b ih =>
        obtain ⟨e, rfl, h2⟩ := (hpq _ _).mp a
        obtain ⟨es, i1, i2⟩ := ih
        exact ⟨e :: es, by rw [i1]; rfl, .cons h2 i2⟩
    obtain ⟨es, h1, h2⟩ := this
    obtain ⟨g1, g2⟩ := mem_nonblank h1
    exact ⟨g1, g2 ▸ h2⟩
  · rintro ⟨h1, h2⟩
    rw [onlyElements_filter cs h1, List.forall₂_map_left_iff]
    exact h2.imp (fun e m h => (hpq _ _).mpr ⟨e, rfl, h⟩)

theorem messageSets_dec (env : Env) (name : Str) (cs : List Node) (l : MessageSetList) :
    decodeNew env name cs = .ok l ↔ OnlyElements cs ∧ List.Forall₂ (MessageSetReads env) (elems cs) l := by
  rw [decodeNew_iff, ← forall₂_elems (decMsgSet_iff env) cs l]
  have hz : (Ty.msgSets MessageSet.tagged).zero = ([] : List MessageSet.Den) := by rw [Ty.zero]
  show (Ty.msgSets MessageSet.tagged).dec env (Ty.msgSets MessageSet.tagged).zero name cs =
    .ok (List.map MessageSet.toDen l) ↔ _
  rw [Ty.dec, hz]
  rw [show (List.Forall₂ (fun c m => decMsgSet (fun x => runEvents false (fun v p n c => MessageSet.tagged.dec env v p n c)
    MessageSet.tagged.zero (MessageSet.tagged.eventsL [] x)) c = .ok (MessageSet.toDen m)) (cs.filter (fun c => !isBlank c)) l) ↔
    List.Forall₂ (fun c m => decMsgSet (fun x => runEvents false (fun v p n c => MessageSet.tagged.dec env v p n c)
    MessageSet.tagged.zero (MessageSet.tagged.eventsL [] x)) c = .ok m) (cs.filter (fun c => !isBlank c)) (l.map MessageSet.toDen)
    from (List.forall₂_map_right_iff (f := MessageSet.toDen) (R := fun c (m : MessageSet.Den) => decMsgSet (fun x => runEvents false (fun v p n c => MessageSet.tagged.dec env v p n c)
      MessageSet.tagged.zero (MessageSet.tagged.eventsL [] x)) c = .ok m)).symm, ← mapE_iff]
  cases mapE (decMsgSet (fun x => runEvents false (fun v p n c => MessageSet.tagged.dec env v p n c)
    MessageSet.tagged.zero (MessageSet.tagged.eventsL [] x))) (cs.filter (fun c => !isBlank c)) with
  | error e => exact ⟨fun h => (by cases h), fun h => (by cases h)⟩
  | ok ys => exact Iff.rfl

/-! ### Lists of one interface type -/

theorem interface_dec {β : Type} (env : Env) (as : Alts) (toDen : β → as.Den) (cs : List Node) (l : List β)
    {q : Str × List Node → β → Prop} (hq : ∀ e x, as.dec env e.1 e.2 = .ok (toDen x) ↔ q e x) :
    runEvents true (fun v p n c => (Fields.alts as .nil).dec env v p n c) (Fields.alts as .nil).zero
      ((Fields.alts as .nil).eventsL [] cs) = .ok (show (Fields.alts as .nil).Den from (l.map toDen, ())) ↔
    OnlyElements cs ∧ List.Forall₂ q (elems cs) l := by
  rw [closed_dec env (.alts as .nil) rfl, onlyElements_iff, runElems_alts]
  refine and_congr_right fun _ => ?_
  constructor
  · rintro ⟨ds, h1, h2⟩
    have h1 : l.map toDen = ds := h1
    subst h1
    rw [List.forall₂_map_right_iff] at h2
    exact h2.imp (fun e x h => (hq e x).mp h)
  · intro h
    refine ⟨l.map toDen, rfl, ?_⟩
    rw [List.forall₂_map_right_iff]
    exact h.imp (fun e x h => (hq e x).mpr h)

end Ofx
