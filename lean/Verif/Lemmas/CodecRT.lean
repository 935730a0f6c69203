import Verif.Lemmas.CodecEmit
/-
Decoding what was encoded.
-/
namespace Ofx

/-- Decode successive elements into one value. -/
def foldE {α β : Type} (f : α → β → Except String α) : α → List β → Except String α
  | v, [] => .ok v
  | v, x :: xs =>
    match f v x with
    | .ok v' => foldE f v' xs
    | .error e => .error e

theorem runEvents_append {α : Type} (strict : Bool)
    (step : α → List Str → Str → List Node → Except String α) (v : α) (a b : List Ev) :
    runEvents strict step v (a ++ b) =
      match runEvents strict step v a with
      | .ok v' => runEvents strict step v' b
      | .error e => .error e := by
  induction a generalizing v with
  | nil => simp [runEvents]
  | cons e es ih =>
    cases e with
    | hit p n cs =>
      simp only [List.cons_append, runEvents]
      cases step v p n cs with
      | ok v' => simp [ih]
      | error e => simp
    | junk =>
      simp only [List.cons_append, runEvents]
      cases strict <;> simp [ih]

/-- All events are hits on fields. -/
def AllHit (fs : Fields) (es : List Ev) : Prop :=
  ∀ e ∈ es, ∃ p n cs, e = Ev.hit p n cs ∧ fs.hits p n = true

/-- Events of elements `name` at one path. -/
def hitsOf (path : List Str) (name : Str) (css : List (List Node)) : List Ev :=
  css.map (fun cs => Ev.hit path name cs)

theorem evs_of_map (path : List Str) (o : Bool) (name : Str) (css : List (List Node)) :
    Item.evs [] ⟨path, o, css.map (fun cs => Node.elem name cs)⟩ = hitsOf path name css := by
  simp [Item.evs, hitsOf, toEv, Function.comp_def]

/-- Elements of the first field only touch the first component. -/
theorem run_field_hits (env : Env) (strict : Bool) (path : List Str) (name : Str) (om : Bool)
    (t : Ty) (rest : Fields) (v : t.Den) (y : rest.Den) (css : List (List Node)) :
    runEvents strict (fun v p n c => (Fields.field path name om t rest).dec env v p n c)
      ((v, y) : (Fields.field path name om t rest).Den) (hitsOf path name css) =
      match foldE (fun x cs => t.dec env x name cs) v css with
      | .ok v' => .ok ((v', y) : (Fields.field path name om t rest).Den)
      | .error e => .error e := by
  induction css generalizing v with
  | nil => simp [hitsOf, runEvents, foldE]
  | cons cs css ih =>
    simp only [hitsOf, List.map_cons, runEvents, foldE, Fields.dec, beq_self_eq_true,
      Bool.and_self, if_true]
    cases h : t.dec env v name cs with
    | error e => simp
    | ok v' =>
      simp only
      exact ih v'

/-- Elements of later fields do not touch the first component. -/
theorem run_field_rest (env : Env) (strict : Bool) (path : List Str) (name : Str) (om : Bool)
    (t : Ty) (rest : Fields) (hn : rest.hits path name = false) (v : t.Den) (y : rest.Den)
    (es : List Ev) (hes : AllHit rest es) :
    runEvents strict (fun v p n c => (Fields.field path name om t rest).dec env v p n c)
      ((v, y) : (Fields.field path name om t rest).Den) es =
      match runEvents strict (fun v p n c => rest.dec env v p n c) y es with
      | .ok y' => .ok ((v, y') : (Fields.field path name om t rest).Den)
      | .error e => .error e := by
  induction es generalizing y with
  | nil => simp [runEvents]
  | cons e es ih =>
    obtain ⟨p, n, cs, rfl, hh⟩ := hes e (by simp)
    have hne : (path == p && name == n) = false := by
      cases hb : (path == p && name == n)
      · rfl
      · simp only [Bool.and_eq_true, beq_iff_eq] at hb
        rw [← hb.1, ← hb.2, hn] at hh; cases hh
    simp only [runEvents, Fields.dec, hne]
    cases h : rest.dec env y p n cs with
    | error e => simp
    | ok y' =>
      simp only [Bool.false_eq_true, if_false]
      exact ih y' (fun e he => hes e (by simp [he]))

theorem run_alts_rest (env : Env) (strict : Bool) (as : Alts) (rest : Fields)
    (hn : ∀ n, as.has n = true → rest.hits [] n = false) (v : List as.Den) (y : rest.Den)
    (es : List Ev) (hes : AllHit rest es) :
    runEvents strict (fun v p n c => (Fields.alts as rest).dec env v p n c)
      ((v, y) : (Fields.alts as rest).Den) es =
      match runEvents strict (fun v p n c => rest.dec env v p n c) y es with
      | .ok y' => .ok ((v, y') : (Fields.alts as rest).Den)
      | .error e => .error e := by
  induction es generalizing y with
  | nil => simp [runEvents]
  | cons e es ih =>
    obtain ⟨p, n, cs, rfl, hh⟩ := hes e (by simp)
    have hne : (p == [] && as.has n) = false := by
      cases hb : (p == [] && as.has n)
      · rfl
      · simp only [Bool.and_eq_true, beq_iff_eq] at hb
        rw [hb.1, hn n hb.2] at hh; cases hh
    simp only [runEvents, Fields.dec, hne]
    cases h : rest.dec env y p n cs with
    | error e => simp
    | ok y' =>
      simp only [Bool.false_eq_true, if_false]
      exact ih y' (fun e he => hes e (by simp [he]))

theorem run_alts_hits (env : Env) (strict : Bool) (as : Alts) (rest : Fields) (y : rest.Den)
    (l : List (Str × List Node)) (vs : List as.Den)
    (h : ListRel (fun (p : Str × List Node) x => as.has p.1 = true ∧ as.dec env p.1 p.2 = .ok x) l vs)
    (v : List as.Den) :
    runEvents strict (fun v p n c => (Fields.alts as rest).dec env v p n c)
      ((v, y) : (Fields.alts as rest).Den) (l.map (fun p => Ev.hit [] p.1 p.2)) =
      .ok ((v ++ vs, y) : (Fields.alts as rest).Den) := by
  induction l generalizing vs v with
  | nil =>
    cases vs with
    | nil => simp [runEvents]
    | cons a b => exact h.elim
  | cons p l ih =>
    cases vs with
    | nil => exact h.elim
    | cons x vs =>
      obtain ⟨⟨h1, h2⟩, h3⟩ := h
      simp only [List.map_cons, runEvents, Fields.dec, h1, beq_self_eq_true, Bool.and_self, if_true, h2]
      have := ih vs h3 (v ++ [x])
      simp only [List.append_assoc, List.singleton_append] at this
      exact this

theorem leafText_single (s : Str) : leafText (if s = [] then [] else [.text s]) = s := by
  split
  · next h => simp [leafText, h]
  · simp [leafText]

end Ofx
