import Verif.Spec.Lists
import Verif.Lemmas.DecodeDoc
/-
Decoding of the hand-written list types.
-/
namespace Ofx
open Spec

/-- All tag paths are empty. -/
def Fields.flat : Fields → Bool
  | .nil => true
  | .field path _ _ _ rest => path.isEmpty && rest.flat
  | .alts _ rest => rest.flat

theorem flat_under : (fs : Fields) → fs.flat = true → ∀ n : Str, fs.under [n] = false
  | .nil, _, _ => rfl
  | .field path name o t rest, h, n => by
    simp only [Fields.flat, Bool.and_eq_true] at h
    have hp : path = [] := List.isEmpty_iff.mp h.1
    subst hp
    simp [Fields.under, flat_under rest h.2 n]
  | .alts as rest, h, n => by
    simp only [Fields.flat] at h
    simp [Fields.under, flat_under rest h n]

/-- Run a list of elements through the fields, rejecting unknown ones. -/
def runElems (env : Env) (fs : Fields) (v : fs.Den) : List (Str × List Node) → Except String fs.Den
  | [] => .ok v
  | e :: es =>
    if fs.hits [] e.1 then
      match fs.dec env v [] e.1 e.2 with
      | .ok v' => runElems env fs v' es
      | .error e => .error e
    else .error "Invalid child"

def NonBlankElems (cs : List Node) : Prop := ∀ c ∈ cs, isBlank c = false → ∃ n ch, c = .elem n ch

theorem closed_dec (env : Env) (fs : Fields) (hf : fs.flat = true) (cs : List Node) (v v' : fs.Den) :
    runEvents true (fun v p n c => fs.dec env v p n c) v (fs.eventsL [] cs) = .ok v' ↔
    NonBlankElems cs ∧ runElems env fs v (elems cs) = .ok v' := by
  induction cs generalizing v with
  | nil =>
    simp only [Fields.eventsL, runEvents, elems, runElems]
    exact ⟨fun h => ⟨fun c hc => by (cases hc), h⟩, fun h => h.2⟩
  | cons c cs ih =>
    have hcons : NonBlankElems (c :: cs) ↔ (isBlank c = false → ∃ n ch, c = .elem n ch) ∧ NonBlankElems cs := by
      unfold NonBlankElems
      constructor
      · intro h; exact ⟨h c (List.mem_cons_self ..), fun c' hc => h c' (List.mem_cons_of_mem _ hc)⟩
      · rintro ⟨h1, h2⟩ c' hc
        rcases List.mem_cons.mp hc with rfl | hc
        · exact h1
        · exact h2 c' hc
    rw [hcons]
    cases c with
    | elem n ch =>
      simp only [Fields.eventsL, Fields.events, elems, runElems]
      by_cases hh : fs.hits [] n = true
      · rw [if_pos hh, if_pos hh]
        simp only [List.cons_append, List.nil_append, runEvents]
        cases hd : fs.dec env v [] n ch with
        | error e => simp
        | ok w => rw [ih]; simp
      · rw [if_neg hh, if_neg hh, if_neg (by simp [flat_under fs hf n])]
        simp [runEvents]
    | text t =>
      simp only [Fields.eventsL, Fields.events, elems]
      by_cases hb : (trimSpace t).isEmpty = true
      · rw [if_pos hb, List.nil_append, ih]
        simp [isBlank, hb]
      · rw [if_neg hb]
        simp [runEvents, isBlank, hb]
    | misc =>
      simp only [Fields.eventsL, Fields.events, elems]
      simp [runEvents, isBlank]

theorem alts_has_iff : (as : Alts) → ∀ (env : Env) (n : Str) (cs : List Node) (d : as.Den),
    as.dec env n cs = .ok d → as.has n = true
  | .nil, env, n, cs, d, h => by cases h
  | .alt dec enc t rest, env, n, cs, d, h => by
    unfold Alts.dec at h
    simp only [Alts.has, Bool.or_eq_true]
    by_cases hn : (n == dec) = true
    · exact .inl hn
    · rw [if_neg hn] at h
      right
      cases h2 : rest.dec env n cs with
      | error e => rw [h2] at h; cases h
      | ok x => exact alts_has_iff rest env n cs x h2

theorem altsDec_hit (env : Env) (as : Alts) (v : (Fields.alts as .nil).Den) (n : Str) (cs : List Node)
    (h : as.has n = true) (d : as.Den) (hd : as.dec env n cs = .ok d) :
    (Fields.alts as .nil).dec env v [] n cs = .ok (List.append v.1 [d], v.2) := by
  rw [Fields.dec, if_pos (by simp [h]), hd]

theorem altsDec_err (env : Env) (as : Alts) (v : (Fields.alts as .nil).Den) (n : Str) (cs : List Node)
    (h : as.has n = true) (e : String) (hd : as.dec env n cs = .error e) :
    (Fields.alts as .nil).dec env v [] n cs = .error e := by
  rw [Fields.dec, if_pos (by simp [h]), hd]

/-- A list made of one interface slice only. -/
theorem runElems_alts (env : Env) (as : Alts) (es : List (Str × List Node)) (v w : (Fields.alts as .nil).Den) :
    runElems env (.alts as .nil) v es = .ok w ↔
    ∃ ds : List as.Den, w.1 = List.append v.1 ds ∧ List.Forall₂ (fun e d => as.dec env e.1 e.2 = .ok d) es ds := by
  induction es generalizing v with
  | nil =>
    simp only [runElems]
    constructor
    · intro h; cases h; exact ⟨[], (List.append_nil (show List as.Den from w.1)).symm, .nil⟩
    · rintro ⟨ds, h1, h2⟩
      cases h2
      have h1 : w.1 = v.1 := h1.trans (List.append_nil (show List as.Den from v.1))
      exact congrArg Except.ok (Prod.ext h1.symm rfl)
  | cons e es ih =>
    simp only [runElems]
    have hhit : (Fields.alts as .nil).hits [] e.1 = as.has e.1 := by simp [Fields.hits]
    rw [hhit]
    by_cases hh : as.has e.1 = true
    · rw [if_pos hh]
      cases hd : as.dec env e.1 e.2 with
      | error er =>
        rw [altsDec_err env as v e.1 e.2 hh er hd]
        simp only [reduceCtorEq, false_iff]
        rintro ⟨ds, h1, h2⟩
        cases h2 with
        | cons a b => rw [hd] at a; cases a
      | ok x =>
        rw [altsDec_hit env as v e.1 e.2 hh x hd]
        refine (ih (show (Fields.alts as .nil).Den from (List.append v.1 [x], v.2))).trans ?_
        constructor
        · rintro ⟨ds, h1, h2⟩
          refine ⟨x :: ds, ?_, .cons hd h2⟩
          rw [h1]
          exact List.append_assoc (show List as.Den from v.1) [x] ds
        · rintro ⟨ds, h1, h2⟩
          cases h2 with
          | @cons _ y _ l a b =>
            rw [hd] at a; cases a
            refine ⟨l, ?_, b⟩
            rw [h1]
            exact (List.append_assoc (show List as.Den from v.1) [x] l).symm
    · rw [if_neg hh]
      simp only [reduceCtorEq, false_iff]
      rintro ⟨ds, h1, h2⟩
      cases h2 with
      | cons a b => exact hh (alts_has_iff as env _ _ _ a)

theorem altDec_inl {env : Env} {dec enc : Str} {t : Ty} {rest : Alts} {n : Str} {cs : List Node} {x : t.Den} :
    (Alts.alt dec enc t rest).dec env n cs = .ok (.inl x) ↔ n = dec ∧ t.dec env t.zero n cs = .ok x := by
  rw [Alts.dec]
  by_cases h : n = dec
  · rw [if_pos (by simpa using h)]
    cases h1 : t.dec env t.zero n cs with
    | error e => exact ⟨fun h => (by cases h), fun h => by cases h.2⟩
    | ok y => exact ⟨fun hh => ⟨h, congrArg _ (Sum.inl.inj (Except.ok.inj hh))⟩, fun hh => by cases hh.2; rfl⟩
  · rw [if_neg (by simpa using h)]
    cases h1 : rest.dec env n cs with
    | error e => exact ⟨fun h => (by cases h), fun hh => absurd hh.1 h⟩
    | ok y => exact ⟨fun hh => absurd (Except.ok.inj hh) Sum.inr_ne_inl, fun hh => absurd hh.1 h⟩

theorem altDec_inr {env : Env} {dec enc : Str} {t : Ty} {rest : Alts} {n : Str} {cs : List Node} {y : rest.Den} :
    (Alts.alt dec enc t rest).dec env n cs = .ok (.inr y) ↔ n ≠ dec ∧ rest.dec env n cs = .ok y := by
  rw [Alts.dec]
  by_cases h : n = dec
  · rw [if_pos (by simpa using h)]
    cases h1 : t.dec env t.zero n cs with
    | error e => exact ⟨fun h => (by cases h), fun hh => absurd h hh.1⟩
    | ok z => exact ⟨fun hh => absurd (Except.ok.inj hh) Sum.inl_ne_inr, fun hh => absurd h hh.1⟩
  · rw [if_neg (by simpa using h)]
    cases h1 : rest.dec env n cs with
    | error e => exact ⟨fun h => (by cases h), fun hh => by cases hh.2⟩
    | ok z => exact ⟨fun hh => ⟨h, congrArg _ (Sum.inr.inj (Except.ok.inj hh))⟩, fun hh => by cases hh.2; rfl⟩

theorem decodeNew_iff {α : Type} [OfxType α] {env : Env} {n : Str} {cs : List Node} {x : α} :
    decodeNew env n cs = .ok x ↔ (OfxType.ty α).dec env (OfxType.ty α).zero n cs = .ok (OfxType.toDen x) := by
  unfold decodeNew
  cases h : (OfxType.ty α).dec env (OfxType.ty α).zero n cs with
  | error e => simp
  | ok d =>
    simp only [Except.ok.injEq]
    constructor
    · rintro rfl; rw [OfxType.toDen_ofDen]
    · rintro rfl; rw [OfxType.ofDen_toDen]

end Ofx
