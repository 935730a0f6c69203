import Verif.Spec.Says
import Verif.Lemmas.Elements
import Verif.Lemmas.Alike
import Verif.Lemmas.LeafSays
/-
Decoding gives exactly what the elements say.
-/
namespace Ofx
open Spec

/-! ### Events and elements -/

/-- The elements that go to the field with this path and name. -/
def goesTo (path : List Str) (name : Str) : List Ev → List (Str × List Node)
  | [] => []
  | .hit p n c :: es => if p = path ∧ n = name then (n, c) :: goesTo path name es else goesTo path name es
  | .junk :: es => goesTo path name es

theorem goesTo_append (path : List Str) (name : Str) (a b : List Ev) :
    goesTo path name (a ++ b) = goesTo path name a ++ goesTo path name b := by
  induction a with
  | nil => rfl
  | cons e a ih =>
    cases e with
    | junk => exact ih
    | hit p n c =>
      simp only [List.cons_append, goesTo]
      split
      · rw [ih]; rfl
      · exact ih

theorem goesTo_none {path : List Str} {name : Str} {es : List Ev} (h : ∀ c, .hit path name c ∉ es) : goesTo path name es = [] := by
  induction es with
  | nil => rfl
  | cons e es ih =>
    have ih := ih (fun c hc => h c (List.mem_cons_of_mem _ hc))
    cases e with
    | junk => exact ih
    | hit p n c =>
      simp only [goesTo]
      rw [if_neg]
      · exact ih
      · rintro ⟨rfl, rfl⟩; exact h c (List.mem_cons_self ..)

theorem elementsAt_append (path : List Str) (name : Str) (a b : List Node) :
    elementsAt path name (a ++ b) = elementsAt path name a ++ elementsAt path name b := by
  have he : ∀ a b : List Node, elems (a ++ b) = elems a ++ elems b := by
    intro a b
    induction a with
    | nil => rfl
    | cons c a ih => cases c <;> simp [elems, ih]
  induction path generalizing a b with
  | nil => simp [elementsAt, he]
  | cons p ps ih => simp [elementsAt, he, ih]

theorem prefix_snoc_ne {pre : List Str} {x : Str} (h : pre ++ [x] <+: pre) : False := by
  have := h.length_le
  simp at this

theorem goesTo_events {full : Fields} {name : Str} : ∀ (suf pre : List Str), pathOk full pre suf = true →
    full.hits (pre ++ suf) name = true → ∀ cs : List Node,
    goesTo (pre ++ suf) name (full.eventsL pre cs) = elementsAt suf name cs := by
  intro suf
  induction suf with
  | nil =>
    intro pre _ hh cs
    rw [List.append_nil] at *
    induction cs with
    | nil => simp [Fields.eventsL, goesTo, elementsAt, elems]
    | cons c cs ih =>
      have e : (c :: cs) = [c] ++ cs := rfl
      rw [e, elementsAt_append, eventsL_append, goesTo_append, ih]
      congr 1
      cases c with
      | misc => simp [Fields.eventsL, Fields.events, goesTo, elementsAt, elems]
      | text s =>
        simp only [Fields.eventsL, Fields.events, elementsAt, elems]
        split <;> simp [goesTo]
      | elem n ch =>
        simp only [Fields.eventsL, List.append_nil, elementsAt, elems]
        by_cases hn : n = name
        · subst hn
          unfold Fields.events
          rw [if_pos hh]
          simp [goesTo]
        · rw [List.filter_cons_of_neg (by simpa using hn), List.filter_nil]
          refine goesTo_none ?_
          intro c hc
          rcases events_elem full pre n ch pre name c hc with ⟨-, h⟩ | h
          · exact hn h.symm
          · exact prefix_snoc_ne h
  | cons h t ih =>
    intro pre hp hh cs
    rw [pathOk, Bool.and_eq_true, Bool.and_eq_true] at hp
    obtain ⟨⟨h1, h2⟩, h3⟩ := hp
    have hpre : pre ++ h :: t = (pre ++ [h]) ++ t := by simp
    induction cs with
    | nil =>
      have := ih (pre ++ [h]) h3 (by rw [← hpre]; exact hh) []
      simpa [Fields.eventsL, goesTo, elementsAt, elems] using this
    | cons c cs ihc =>
      have e : (c :: cs) = [c] ++ cs := rfl
      rw [e, elementsAt_append, eventsL_append, goesTo_append, ihc]
      congr 1
      have hnil : elementsAt t name [] = [] := by
        have := ih (pre ++ [h]) h3 (by rw [← hpre]; exact hh) []
        simpa [Fields.eventsL, goesTo] using this.symm
      cases c with
      | misc => simp [Fields.eventsL, Fields.events, goesTo, elementsAt, elems, hnil]
      | text s =>
        simp only [Fields.eventsL, Fields.events, elementsAt, elems]
        split <;> simp [goesTo, hnil]
      | elem n ch =>
        simp only [Fields.eventsL, List.append_nil, elementsAt, elems]
        by_cases hn : n = h
        · subst hn
          unfold Fields.events
          rw [if_neg (by simpa using h1), if_pos h2, hpre, ih (pre ++ [n]) h3 (by rw [← hpre]; exact hh)]
          simp
        · rw [List.filter_cons_of_neg (by simpa using hn), List.filter_nil, List.flatMap_nil, hnil]
          refine goesTo_none ?_
          intro c hc
          rcases events_elem full pre n ch _ name c hc with ⟨h', -⟩ | h'
          · have := congrArg List.length h'
            simp at this
          · rw [hpre] at h'
            have : pre ++ [n] = pre ++ [h] := by
              have a := List.prefix_of_prefix_length_le h' (List.prefix_append (pre ++ [h]) t) (by simp)
              exact List.IsPrefix.eq_of_length a (by simp)
            simp at this
            exact hn this

/-- The elements of an interface list. -/
def goesToAlts (as : Alts) : List Ev → List (Str × List Node)
  | [] => []
  | .hit p n c :: es => if p = [] ∧ as.has n = true then (n, c) :: goesToAlts as es else goesToAlts as es
  | .junk :: es => goesToAlts as es

theorem goesToAlts_append (as : Alts) (a b : List Ev) : goesToAlts as (a ++ b) = goesToAlts as a ++ goesToAlts as b := by
  induction a with
  | nil => rfl
  | cons e a ih =>
    cases e with
    | junk => exact ih
    | hit p n c =>
      simp only [List.cons_append, goesToAlts]
      split
      · rw [ih]; rfl
      · exact ih

theorem goesToAlts_none {as : Alts} {es : List Ev} (h : ∀ n c, as.has n = true → .hit [] n c ∉ es) : goesToAlts as es = [] := by
  induction es with
  | nil => rfl
  | cons e es ih =>
    have ih := ih (fun n c hn hc => h n c hn (List.mem_cons_of_mem _ hc))
    cases e with
    | junk => exact ih
    | hit p n c =>
      simp only [goesToAlts]
      rw [if_neg]
      · exact ih
      · rintro ⟨rfl, hn⟩; exact h n c hn (List.mem_cons_self ..)

theorem goesToAlts_events {full : Fields} {as : Alts} (hh : ∀ n, as.has n = true → full.hits [] n = true) (cs : List Node) :
    goesToAlts as (full.eventsL [] cs) = (elems cs).filter (fun e => e.1 ∈ altNames as) := by
  induction cs with
  | nil => simp [Fields.eventsL, goesToAlts, elems]
  | cons c cs ih =>
    have e : full.eventsL [] (c :: cs) = full.events [] c ++ full.eventsL [] cs := by rw [Fields.eventsL]
    rw [e, goesToAlts_append, ih]
    cases c with
    | misc => simp [Fields.events, goesToAlts, elems]
    | text s =>
      simp only [Fields.events, elems]
      split <;> simp [goesToAlts]
    | elem n ch =>
      simp only [elems]
      by_cases hn : as.has n = true
      · rw [List.filter_cons_of_pos (by simpa using (has_altNames as n).mp hn)]
        unfold Fields.events
        rw [if_pos (hh n hn)]
        simp [goesToAlts, hn]
      · rw [List.filter_cons_of_neg (by simpa using fun h => hn ((has_altNames as n).mpr h)), goesToAlts_none]
        · rfl
        · intro m c hm hc
          rcases events_elem full [] n ch [] m c hc with ⟨-, h⟩ | h
          · subst h; exact hn hm
          · exact prefix_snoc_ne h

/-! ### Reading all elements of one field -/

/-- Decode elements one after the other into the same variable. -/
def readAll (env : Env) (t : Ty) : t.Den → List (Str × List Node) → Except String t.Den
  | v, [] => .ok v
  | v, e :: es =>
    match t.dec env v e.1 e.2 with
    | .ok v' => readAll env t v' es
    | .error e => .error e

theorem readAll_cons (env : Env) (t : Ty) (v w : t.Den) (e : Str × List Node) (es : List (Str × List Node)) :
    readAll env t v (e :: es) = .ok w ↔ ∃ u, t.dec env v e.1 e.2 = .ok u ∧ readAll env t u es = .ok w := by
  rw [readAll]
  cases t.dec env v e.1 e.2 <;> simp

theorem dec_unhit (env : Env) : (fs : Fields) → ∀ (v : fs.Den) (p : List Str) (n : Str) (cs : List Node), fs.hits p n = false →
    fs.dec env v p n cs = .ok v
  | .nil, v, p, n, cs, _ => by simp [Fields.dec]
  | .field path name om t rest, v, p, n, cs, h => by
    simp only [Fields.hits, Bool.or_eq_false_iff] at h
    simp only [Fields.dec]
    rw [if_neg (by rw [h.1]; simp), dec_unhit env rest _ p n cs h.2]
    rfl
  | .alts as rest, v, p, n, cs, h => by
    simp only [Fields.hits, Bool.or_eq_false_iff] at h
    simp only [Fields.dec]
    rw [if_neg (by rw [h.1]; simp), dec_unhit env rest _ p n cs h.2]
    rfl

theorem run_field (env : Env) (path : List Str) (name : Str) (om : Bool) (t : Ty) (rest : Fields)
    (hr : rest.hits path name = false) (es : List Ev) :
    ∀ (v w : (Fields.field path name om t rest).Den),
    runEvents false (fun v p n c => (Fields.field path name om t rest).dec env v p n c) v es = .ok w ↔
      readAll env t v.1 (goesTo path name es) = .ok w.1 ∧ runEvents false (fun v p n c => rest.dec env v p n c) v.2 es = .ok w.2 := by
  induction es with
  | nil =>
    rintro ⟨v1, v2⟩ ⟨w1, w2⟩
    simp only [runEvents, goesTo, readAll]
    constructor
    · intro h
      have h : (v1, v2) = (w1, w2) := Except.ok.inj h
      cases h; exact ⟨rfl, rfl⟩
    · rintro ⟨h1, h2⟩
      have h1 : v1 = w1 := Except.ok.inj h1
      have h2 : v2 = w2 := Except.ok.inj h2
      rw [h1, h2]
  | cons e es ih =>
    intro v w
    cases e with
    | junk => simpa [runEvents, goesTo] using ih v w
    | hit p n c =>
      simp only [runEvents, goesTo]
      by_cases h : p = path ∧ n = name
      · obtain ⟨rfl, rfl⟩ := h
        rw [if_pos ⟨rfl, rfl⟩, readAll_cons, dec_unhit env rest v.2 p n c hr]
        simp only [Fields.dec]
        rw [if_pos (by simp)]
        cases hd : t.dec env v.1 n c with
        | error e => simp
        | ok x =>
          simp only [Except.ok.injEq, exists_eq_left']
          exact ih (x, v.2) w
      · rw [if_neg h]
        simp only [Fields.dec]
        rw [if_neg (by simpa using fun a b => h ⟨a.symm, b.symm⟩)]
        cases hd : rest.dec env v.2 p n c with
        | error e => simp
        | ok y => exact ih (v.1, y) w

/-- Read the elements of an interface list. -/
theorem run_alts (env : Env) (as : Alts) (rest : Fields) (hr : ∀ n, as.has n = true → rest.hits [] n = false) (es : List Ev) :
    ∀ (v w : (Fields.alts as rest).Den),
    runEvents false (fun v p n c => (Fields.alts as rest).dec env v p n c) v es = .ok w ↔
      (∃ xs, mapE (fun e => as.dec env e.1 e.2) (goesToAlts as es) = .ok xs ∧ (show List as.Den from w.1) = (show List as.Den from v.1) ++ xs) ∧
      runEvents false (fun v p n c => rest.dec env v p n c) v.2 es = .ok w.2 := by
  induction es with
  | nil =>
    rintro ⟨v1, v2⟩ ⟨w1, w2⟩
    simp only [runEvents, goesToAlts, mapE]
    constructor
    · intro h
      have h : (v1, v2) = (w1, w2) := Except.ok.inj h
      cases h; exact ⟨⟨[], rfl, (List.append_nil _).symm⟩, rfl⟩
    · rintro ⟨⟨xs, hx, h1⟩, h2⟩
      cases hx
      have h1 : w1 = v1 := h1.trans (List.append_nil _)
      have h2 : v2 = w2 := Except.ok.inj h2
      rw [h1, h2]
  | cons e es ih =>
    intro v w
    cases e with
    | junk => simpa [runEvents, goesToAlts] using ih v w
    | hit p n c =>
      simp only [runEvents, goesToAlts]
      by_cases h : p = [] ∧ as.has n = true
      · obtain ⟨rfl, hn⟩ := h
        rw [if_pos ⟨rfl, hn⟩, dec_unhit env rest v.2 [] n c (hr n hn)]
        simp only [Fields.dec, mapE]
        rw [if_pos (by simp [hn])]
        cases hd : as.dec env n c with
        | error e => simp
        | ok x =>
          simp only
          refine (ih (List.append v.1 [x], v.2) w).trans (and_congr ?_ Iff.rfl)
          cases hm : mapE (fun e => as.dec env e.1 e.2) (goesToAlts as es) with
          | error e => simp
          | ok xs =>
            simp only [Except.ok.injEq, exists_eq_left']
            have : (List.append (show List as.Den from v.1) [x]) ++ xs = (show List as.Den from v.1) ++ (x :: xs) := by
              show (_ ++ [x]) ++ xs = _
              simp
            exact ⟨fun h => h.trans this, fun h => h.trans this.symm⟩
      · rw [if_neg h]
        simp only [Fields.dec]
        rw [if_neg (by simpa using fun a b => h ⟨a, b⟩)]
        cases hd : rest.dec env v.2 p n c with
        | error e => simp
        | ok y => exact ih (v.1, y) w

end Ofx
