import Verif.Lemmas.Says
/-
Decoding gives exactly what the elements say: structs, lists and pointers.
-/
namespace Ofx
open Spec

/-! ### Schemas to which this applies -/

mutual
/-- Enumeration strings and tag paths are unambiguous, list types are flat. -/
def Ty.clear : Ty → Bool
  | .leaf l => leafOk l
  | .struct _ fs => fs.clear fs
  | .closed _ _ fs => fs.flat && fs.clear fs
  | .ptr t => t.clear
  | .slice t => t.clear
  | .msgSets fs => fs.clear fs
def Fields.clear : Fields → Fields → Bool
  | .nil, _ => true
  | .field path name _ t rest, full =>
    pathOk full [] path && full.hits path name && !rest.hits path name && t.clear && rest.clear full
  | .alts as rest, full =>
    as.all (fun n => full.hits [] n && !rest.hits [] n) && as.clear && rest.clear full
def Alts.clear : Alts → Bool
  | .nil => true
  | .alt _ _ t rest => t.clear && rest.clear
end

/-! ### One constructor at a time -/

theorem readAll_leaf (env : Env) (l : Leaf) : ∀ (es : List (Str × List Node)) (v w : l.Den),
    readAll env (.leaf l) v es = .ok w ↔ (∀ e ∈ es, ∃ x, l.parse env (leafText e.2) = .ok x) ∧
      match es.getLast? with
      | none => w = v
      | some e => l.parse env (leafText e.2) = .ok w
  | [], v, w => by
    simp only [readAll, List.getLast?_nil, List.not_mem_nil, false_implies, implies_true, true_and]
    exact ⟨fun h => (Except.ok.inj h).symm, fun h => by rw [h]⟩
  | e :: es, v, w => by
    refine (readAll_cons env (.leaf l) v w e es).trans ?_
    have ih := readAll_leaf env l es
    simp only [Ty.dec, List.mem_cons, forall_eq_or_imp]
    constructor
    · rintro ⟨u, hu, h⟩
      obtain ⟨h1, h2⟩ := (ih u w).mp h
      refine ⟨⟨⟨u, hu⟩, h1⟩, ?_⟩
      cases es with
      | nil => simp only [List.getLast?_nil] at h2; rw [h2]; exact hu
      | cons a es => rw [List.getLast?_cons_cons]; exact h2
    · rintro ⟨⟨⟨u, hu⟩, h1⟩, h2⟩
      refine ⟨u, hu, (ih u w).mpr ⟨h1, ?_⟩⟩
      cases es with
      | nil =>
        simp only [List.getLast?_singleton] at h2
        rw [h2] at hu; exact Except.ok.inj hu
      | cons a es => rw [List.getLast?_cons_cons] at h2; exact h2

theorem check_allowed (xn : XName) (n : Str) : xn.check n = true ↔ NameAllowed xn n := by
  cases xn with
  | none => simp [XName.check, NameAllowed]
  | tag t => simp only [XName.check, NameAllowed, beq_iff_eq]; exact eq_comm
  | free => simp [XName.check, NameAllowed]

theorem readAll_struct (env : Env) (xn : XName) (fs : Fields) : ∀ (es : List (Str × List Node)) (v w : (Ty.struct xn fs).Den),
    readAll env (.struct xn fs) v es = .ok w ↔ (∀ e ∈ es, NameAllowed xn e.1) ∧
      w.1 = (es.getLast?.map (fun e => xn.set e.1)).getD v.1 ∧
      runEvents false (fun v p n c => fs.dec env v p n c) v.2 (fs.eventsL [] (es.flatMap (fun e => e.2))) = .ok w.2
  | [], v, w => by
    simp only [readAll, List.getLast?_nil, List.not_mem_nil, false_implies, implies_true, true_and, Option.map_none, Option.getD_none,
      List.flatMap_nil, Fields.eventsL, runEvents]
    constructor
    · intro h
      have h : v = w := Except.ok.inj h
      subst h; exact ⟨rfl, rfl⟩
    · rintro ⟨h1, h2⟩
      have h2 : v.2 = w.2 := Except.ok.inj h2
      have : v = w := Prod.ext h1.symm h2
      rw [this]
  | e :: es, v, w => by
    refine (readAll_cons env _ v w e es).trans ?_
    simp only [readAll_struct env xn fs es, List.mem_cons, forall_eq_or_imp, List.flatMap_cons]
    rw [eventsL_append, runEvents_append_iff]
    have hdec : ∀ u : (Ty.struct xn fs).Den, (Ty.struct xn fs).dec env v e.1 e.2 = .ok u ↔
        NameAllowed xn e.1 ∧ u.1 = xn.set e.1 ∧ runEvents false (fun v p n c => fs.dec env v p n c) v.2 (fs.eventsL [] e.2) = .ok u.2 := by
      intro u
      simp only [Ty.dec]
      rw [← check_allowed]
      by_cases hc : xn.check e.1 = true
      · rw [if_pos hc]
        cases hr : runEvents false (fun v p n c => fs.dec env v p n c) v.2 (fs.eventsL [] e.2) with
        | error e => simp
        | ok v' =>
          simp only [hc, true_and]
          constructor
          · intro h
            have h : (xn.set e.1, v') = u := Except.ok.inj h
            rw [← h]; exact ⟨rfl, rfl⟩
          · rintro ⟨h1, h2⟩
            have h2 : v' = u.2 := Except.ok.inj h2
            have : u = (xn.set e.1, v') := Prod.ext h1 h2.symm
            rw [this]
      · rw [if_neg hc]
        simp [hc]
    have hlast : ∀ x : xn.Den, (es.getLast?.map (fun e => xn.set e.1)).getD (xn.set e.1) =
        ((e :: es).getLast?.map (fun e => xn.set e.1)).getD x := by
      intro x
      cases es with
      | nil => simp
      | cons a es =>
        rw [List.getLast?_cons_cons, List.getLast?_cons]
        simp
    constructor
    · rintro ⟨u, hu, h1, h2, h3⟩
      obtain ⟨a, b, c⟩ := (hdec u).mp hu
      refine ⟨⟨a, h1⟩, ?_, u.2, c, h3⟩
      rw [h2, b]; exact hlast _
    · rintro ⟨⟨a, h1⟩, h2, u2, c, h3⟩
      refine ⟨(xn.set e.1, u2), (hdec _).mpr ⟨a, rfl, c⟩, h1, ?_, h3⟩
      rw [h2]; exact (hlast _).symm

theorem readAll_closed (env : Env) (lit : Str) (b : Bool) (fs : Fields) : ∀ (es : List (Str × List Node)) (v w : (Ty.closed lit b fs).Den),
    readAll env (.closed lit b fs) v es = .ok w ↔
      runEvents true (fun v p n c => fs.dec env v p n c) v (fs.eventsL [] (es.flatMap (fun e => e.2))) = .ok w
  | [], v, w => by simp only [readAll, List.flatMap_nil, Fields.eventsL, runEvents]; exact Iff.rfl
  | e :: es, v, w => by
    refine (readAll_cons env _ v w e es).trans ?_
    simp only [readAll_closed env lit b fs es, List.flatMap_cons]
    rw [eventsL_append]
    refine Iff.trans ?_ (runEvents_append_iff true (fun v p n c => fs.dec env v p n c) _ _ (show fs.Den from v) (show fs.Den from w)).symm
    simp only [Ty.dec]
    rfl

theorem run_strict {α : Type} (step : α → List Str → Str → List Node → Except String α) (es : List Ev) : ∀ (v w : α),
    runEvents true step v es = .ok w ↔ runEvents false step v es = .ok w ∧ .junk ∉ es := by
  induction es with
  | nil => intro v w; simp [runEvents]
  | cons e es ih =>
    intro v w
    cases e with
    | junk => simp [runEvents]
    | hit p n c =>
      simp only [runEvents]
      cases step v p n c with
      | error e => simp
      | ok v' => simpa using ih v' w

theorem flat_names : (fs : Fields) → fs.flat = true → ∀ n, fs.hits [] n = true ↔ n ∈ childNames fs []
  | .nil, _, n => by simp [Fields.hits, childNames]
  | .field path name om t rest, h, n => by
    simp only [Fields.flat, Bool.and_eq_true, List.isEmpty_iff] at h
    have : name = n ↔ n = name := eq_comm
    simp [Fields.hits, childNames, flat_names rest h.2 n, h.1, this]
  | .alts as rest, h, n => by
    simp only [Fields.flat] at h
    simp [Fields.hits, childNames, flat_names rest h n, has_altNames]

theorem no_junk (fs : Fields) (hf : fs.flat = true) (cs : List Node) :
    .junk ∉ fs.eventsL [] cs ↔ ∀ c ∈ cs, (∃ n ch, c = .elem n ch ∧ n ∈ childNames fs []) ∨ ∃ s, c = .text s ∧ IsPadding s := by
  induction cs with
  | nil => simp [Fields.eventsL]
  | cons c cs ih =>
    rw [Fields.eventsL, List.mem_append, not_or, ih]
    simp only [List.mem_cons, forall_eq_or_imp]
    refine and_congr ?_ Iff.rfl
    cases c with
    | misc => simp [Fields.events]
    | text s =>
      have := isBlank_text s
      simp only [isBlank] at this
      simp only [Fields.events]
      by_cases hb : (trimSpace s).isEmpty = true
      · rw [if_pos hb]; simp [this.mp hb]
      · rw [if_neg hb]
        simp only [List.mem_singleton, not_true_eq_false, reduceCtorEq, false_and, exists_false, false_or, Node.text.injEq, false_iff]
        rintro ⟨s', rfl, h⟩
        exact hb (this.mpr h)
    | elem n ch =>
      simp only [Fields.events]
      by_cases hh : fs.hits [] n = true
      · rw [if_pos hh]
        simp only [List.mem_singleton, reduceCtorEq, not_false_eq_true, true_iff]
        exact .inl ⟨n, ch, rfl, (flat_names fs hf n).mp hh⟩
      · rw [if_neg hh, if_neg (by rw [show fs.under ([] ++ [n]) = false from flat_under fs hf n]; simp)]
        simp only [List.mem_singleton, not_true_eq_false, false_iff]
        rintro (⟨n', ch', e, h⟩ | ⟨s, e, -⟩)
        · cases e; exact hh ((flat_names fs hf n).mpr h)
        · cases e

theorem readAll_some (env : Env) (t : Ty) : ∀ (es : List (Str × List Node)) (v : t.Den) (w : Option t.Den),
    readAll env (.ptr t) (some v : Option t.Den) es = .ok w ↔ ∃ x, w = some x ∧ readAll env t v es = .ok x
  | [], v, w => by
    simp only [readAll]
    constructor
    · intro h
      have h : some v = w := Except.ok.inj h
      exact ⟨v, h.symm, rfl⟩
    · rintro ⟨x, rfl, h⟩
      rw [Except.ok.inj h]
  | e :: es, v, w => by
    refine (readAll_cons env (.ptr t) (some v : Option t.Den) w e es).trans ?_
    simp only [readAll_cons]
    have hdec : ∀ u : Option t.Den, (Ty.ptr t).dec env (some v : Option t.Den) e.1 e.2 = .ok u ↔ ∃ y, u = some y ∧ t.dec env v e.1 e.2 = .ok y := by
      intro u
      simp only [Ty.dec, Option.getD_some]
      cases t.dec env v e.1 e.2 with
      | error e => simp
      | ok y =>
        constructor
        · intro h
          have h : some y = u := Except.ok.inj h
          exact ⟨y, h.symm, rfl⟩
        · rintro ⟨x, rfl, h⟩
          rw [Except.ok.inj h]
    constructor
    · rintro ⟨u, hu, h⟩
      obtain ⟨y, rfl, hy⟩ := (hdec u).mp hu
      obtain ⟨x, rfl, hx⟩ := (readAll_some env t es y w).mp h
      exact ⟨x, rfl, y, hy, hx⟩
    · rintro ⟨x, rfl, y, hy, hx⟩
      exact ⟨some y, (hdec _).mpr ⟨y, rfl, hy⟩, (readAll_some env t es y _).mpr ⟨x, rfl, hx⟩⟩

theorem readAll_ptr (env : Env) (t : Ty) (es : List (Str × List Node)) (w : Option t.Den) :
    readAll env (.ptr t) (none : Option t.Den) es = .ok w ↔
      (es = [] ∧ w = none) ∨ (es ≠ [] ∧ ∃ x, w = some x ∧ readAll env t t.zero es = .ok x) := by
  cases es with
  | nil =>
    simp only [readAll, true_and, ne_eq, not_true_eq_false, false_and, or_false]
    exact ⟨fun h => (Except.ok.inj h).symm, fun h => by rw [h]⟩
  | cons e es =>
    have h1 : readAll env (.ptr t) (none : Option t.Den) (e :: es) = readAll env (.ptr t) (some t.zero : Option t.Den) (e :: es) := by
      simp only [readAll, Ty.dec, Option.getD_none, Option.getD_some]
    rw [h1, readAll_some]
    simp

theorem readAll_slice (env : Env) (t : Ty) : ∀ (es : List (Str × List Node)) (v w : List t.Den),
    readAll env (.slice t) v es = .ok w ↔ ∃ xs, List.Forall₂ (fun e x => t.dec env t.zero e.1 e.2 = .ok x) es xs ∧ w = v ++ xs
  | [], v, w => by
    simp only [readAll, List.forall₂_nil_left_iff, exists_eq_left, List.append_nil]
    exact ⟨fun h => (Except.ok.inj h).symm, fun h => by rw [h]⟩
  | e :: es, v, w => by
    refine (readAll_cons env (.slice t) v w e es).trans ?_
    simp only [List.forall₂_cons_left_iff]
    have hdec : ∀ u : List t.Den, (Ty.slice t).dec env v e.1 e.2 = .ok u ↔ ∃ y, u = v ++ [y] ∧ t.dec env t.zero e.1 e.2 = .ok y := by
      intro u
      simp only [Ty.dec]
      cases t.dec env t.zero e.1 e.2 with
      | error e => simp
      | ok y =>
        constructor
        · intro h
          have h : v ++ [y] = u := Except.ok.inj h
          exact ⟨y, h.symm, rfl⟩
        · rintro ⟨x, rfl, h⟩
          rw [Except.ok.inj h]
    constructor
    · rintro ⟨u, hu, h⟩
      obtain ⟨y, rfl, hy⟩ := (hdec u).mp hu
      obtain ⟨xs, hx, rfl⟩ := (readAll_slice env t es _ w).mp h
      exact ⟨y :: xs, ⟨y, xs, hy, hx, rfl⟩, by simp⟩
    · rintro ⟨xs, ⟨y, ys, hy, hx, rfl⟩, rfl⟩
      exact ⟨v ++ [y], (hdec _).mpr ⟨y, rfl, hy⟩, (readAll_slice env t es _ _).mpr ⟨ys, hx, by simp⟩⟩

theorem mapE_append {α β : Type} (f : α → Except String β) (a b : List α) (ys : List β) :
    mapE f (a ++ b) = .ok ys ↔ ∃ xs zs, mapE f a = .ok xs ∧ mapE f b = .ok zs ∧ ys = xs ++ zs := by
  simp only [mapE_iff]
  induction a generalizing ys with
  | nil => simp
  | cons x a ih =>
    simp only [List.cons_append, List.forall₂_cons_left_iff, ih]
    constructor
    · rintro ⟨y, zs', hy, ⟨l, r, h1, h2, rfl⟩, rfl⟩
      exact ⟨y :: l, r, ⟨y, l, hy, h1, rfl⟩, h2, rfl⟩
    · rintro ⟨_, r, ⟨y, l, hy, h1, rfl⟩, h2, rfl⟩
      exact ⟨y, l ++ r, hy, ⟨l, r, h1, h2, rfl⟩, rfl⟩

/-- One message set of a profile. -/
abbrev readSet (env : Env) (fs : Fields) (c : Node) : Except String (Str × Str × fs.Den) :=
  decMsgSet (fun x => runEvents false (fun v p n c => fs.dec env v p n c) fs.zero (fs.eventsL [] x)) c

theorem readAll_msgSets (env : Env) (fs : Fields) : ∀ (es : List (Str × List Node)) (v w : List (Str × Str × fs.Den)),
    readAll env (.msgSets fs) v es = .ok w ↔
      ∃ xs, mapE (readSet env fs) ((es.flatMap (fun e => e.2)).filter (fun c => !isBlank c)) = .ok xs ∧ w = v ++ xs
  | [], v, w => by
    simp only [readAll, List.flatMap_nil, List.filter_nil, mapE, Except.ok.injEq, exists_eq_left', List.append_nil]
    exact ⟨fun h => (Except.ok.inj h).symm, fun h => by rw [h]⟩
  | e :: es, v, w => by
    refine (readAll_cons env (.msgSets fs) v w e es).trans ?_
    simp only [List.flatMap_cons, List.filter_append, mapE_append]
    have hdec : ∀ u : List (Str × Str × fs.Den), (Ty.msgSets fs).dec env v e.1 e.2 = .ok u ↔
        ∃ y, u = v ++ y ∧ mapE (readSet env fs) (e.2.filter (fun c => !isBlank c)) = .ok y := by
      intro u
      simp only [Ty.dec]
      show (match mapE (readSet env fs) (e.2.filter (fun c => !isBlank c)) with | .ok xs => _ | .error e => _) = _ ↔ _
      cases mapE (readSet env fs) (e.2.filter (fun c => !isBlank c)) with
      | error e => simp
      | ok y =>
        constructor
        · intro h
          have h : v ++ y = u := Except.ok.inj h
          exact ⟨y, h.symm, rfl⟩
        · rintro ⟨x, rfl, h⟩
          rw [Except.ok.inj h]
    constructor
    · rintro ⟨u, hu, h⟩
      obtain ⟨y, rfl, hy⟩ := (hdec u).mp hu
      obtain ⟨xs, hx, rfl⟩ := (readAll_msgSets env fs es _ w).mp h
      exact ⟨y ++ xs, ⟨y, xs, hy, hx, rfl⟩, by simp⟩
    · rintro ⟨xs, ⟨y, ys, hy, hx, rfl⟩, rfl⟩
      exact ⟨v ++ y, (hdec _).mpr ⟨y, rfl, hy⟩, (readAll_msgSets env fs es _ _).mpr ⟨ys, hx, by simp⟩⟩

theorem readSet_iff (env : Env) (fs : Fields) (n : Str) (cs : List Node) (x : Str × Str × fs.Den) :
    readSet env fs (.elem n cs) = .ok x ↔ x.2.1 = x.1 ∧ ∃ ch, OnlyElements cs ∧ elems cs = [(x.1, ch)] ∧
      runEvents false (fun v p n c => fs.dec env v p n c) fs.zero (fs.eventsL [] ch) = .ok x.2.2 := by
  obtain ⟨x1, x2, x3⟩ := x
  unfold readSet decMsgSet
  simp only
  constructor
  · intro h
    cases ho : onlyChild cs with
    | none => rw [ho] at h; cases h
    | some p =>
      obtain ⟨m, ch⟩ := p
      rw [ho] at h
      simp only at h
      obtain ⟨h1, h2⟩ := (onlyChild_iff cs m ch).mp ho
      cases hr : runEvents false (fun v p n c => fs.dec env v p n c) fs.zero (fs.eventsL [] ch) with
      | error e => rw [hr] at h; cases h
      | ok y =>
        rw [hr] at h
        cases h
        exact ⟨rfl, ch, h1, h2, hr⟩
  · rintro ⟨rfl, ch, h1, h2, h3⟩
    rw [(onlyChild_iff cs x2 ch).mpr ⟨h1, h2⟩]
    simp only
    rw [h3]

theorem mapE_sets (env : Env) (fs : Fields) (cs : List Node) (xs : List (Str × Str × fs.Den)) :
    mapE (readSet env fs) (cs.filter (fun c => !isBlank c)) = .ok xs ↔
      OnlyElements cs ∧ List.Forall₂ (fun e x => readSet env fs (.elem e.1 e.2) = .ok x) (elems cs) xs := by
  constructor
  · intro h
    have h1 : OnlyElements cs := by
      rw [← onlyElements_iff]
      intro c hc hb
      have hm : c ∈ cs.filter (fun c => !isBlank c) := List.mem_filter.mpr ⟨hc, by simp [hb]⟩
      rw [mapE_iff] at h
      have hx : ∃ x, readSet env fs c = .ok x := by
        obtain ⟨hl, hg⟩ := List.forall₂_iff_get.mp h
        obtain ⟨i, hi, rfl⟩ := List.getElem_of_mem hm
        exact ⟨_, hg i hi (hl ▸ hi)⟩
      obtain ⟨x, hx⟩ := hx
      cases c with
      | elem n ch => exact ⟨n, ch, rfl⟩
      | text s => simp [readSet, decMsgSet] at hx
      | misc => simp [readSet, decMsgSet] at hx
    refine ⟨h1, ?_⟩
    rw [onlyElements_filter cs h1, mapE_iff, List.forall₂_map_left_iff] at h
    exact h
  · rintro ⟨h1, h2⟩
    rw [onlyElements_filter cs h1, mapE_iff, List.forall₂_map_left_iff]
    exact h2

/-! ### Everything -/

mutual
theorem readAll_iff (env : Env) : (t : Ty) → t.clear = true → ∀ (es : List (Str × List Node)) (w : t.Den),
    readAll env t t.zero es = .ok w ↔ TySays env t es w
  | .leaf l, h, es, w => by
    rw [Ty.clear] at h
    simp only [TySays]
    refine (readAll_leaf env l es _ w).trans ?_
    simp only [leaf_says env l h]
    cases es.getLast? with
    | none => exact Iff.rfl
    | some e => exact and_congr Iff.rfl (leaf_says env l h _ w)
  | .struct xn fs, h, es, w => by
    rw [Ty.clear] at h
    simp only [TySays]
    refine (readAll_struct env xn fs es _ w).trans (and_congr Iff.rfl (and_congr ?_ ?_))
    · cases xn with
      | none => exact ⟨fun _ => trivial, fun _ => rfl⟩
      | tag t => exact ⟨fun _ => trivial, fun _ => rfl⟩
      | free =>
        simp only [NameSays]
        rfl
    · exact runFields_iff env fs fs h _ w.2
  | .closed lit b fs, h, es, w => by
    rw [Ty.clear, Bool.and_eq_true] at h
    simp only [TySays]
    refine (readAll_closed env lit b fs es _ w).trans ((run_strict _ _ _ _).trans (and_congr ?_ (no_junk fs h.1 _)))
    exact runFields_iff env fs fs h.2 _ w
  | .ptr t, h, es, w => by
    rw [Ty.clear] at h
    simp only [TySays]
    refine (readAll_ptr env t es w).trans ?_
    simp only [readAll_iff env t h]
    rfl
  | .slice t, h, es, w => by
    rw [Ty.clear] at h
    simp only [TySays]
    refine (readAll_slice env t es [] w).trans ?_
    have : ∀ (e : Str × List Node) (x : t.Den), t.dec env t.zero e.1 e.2 = .ok x ↔ TySays env t [e] x := by
      intro e x
      rw [← readAll_iff env t h [e] x, readAll_cons]
      simp [readAll]
    simp only [this, List.nil_append]
    constructor
    · rintro ⟨xs, h1, rfl⟩; exact h1
    · intro h1; exact ⟨_, h1, rfl⟩
  | .msgSets fs, h, es, w => by
    rw [Ty.clear] at h
    simp only [TySays]
    refine (readAll_msgSets env fs es [] w).trans ?_
    simp only [mapE_sets, readSet_iff, runFields_iff env fs fs h, List.nil_append]
    constructor
    · rintro ⟨xs, h1, rfl⟩; exact h1
    · intro h1; exact ⟨_, h1, rfl⟩
theorem runFields_iff (env : Env) (full : Fields) : (fs : Fields) → fs.clear full = true → ∀ (cs : List Node) (w : fs.Den),
    runEvents false (fun v p n c => fs.dec env v p n c) fs.zero (full.eventsL [] cs) = .ok w ↔ FieldsSay env fs cs w
  | .nil, _, cs, w => by
    simp only [FieldsSay, iff_true]
    have : ∀ (es : List Ev) (v : Fields.nil.Den), runEvents false (fun v p n c => Fields.nil.dec env v p n c) v es = .ok v := by
      intro es
      induction es with
      | nil => intro v; rfl
      | cons e es ih =>
        intro v
        cases e with
        | junk => exact ih v
        | hit p n c => exact ih v
    exact this _ w
  | .field path name om t rest, h, cs, w => by
    simp only [Fields.clear, Bool.and_eq_true, Bool.not_eq_true'] at h
    obtain ⟨⟨⟨⟨h1, h2⟩, h3⟩, h4⟩, h5⟩ := h
    simp only [FieldsSay]
    refine (run_field env path name om t rest h3 _ _ w).trans (and_congr ?_ (runFields_iff env full rest h5 cs w.2))
    have := goesTo_events (full := full) (name := name) path [] h1 h2 cs
    rw [List.nil_append] at this
    rw [this]
    exact readAll_iff env t h4 _ w.1
  | .alts as rest, h, cs, w => by
    simp only [Fields.clear, Bool.and_eq_true] at h
    obtain ⟨⟨h1, h2⟩, h3⟩ := h
    have hall : ∀ n, as.has n = true → full.hits [] n = true ∧ rest.hits [] n = false := by
      intro n hn
      have := all_has as h1 hn
      simpa using this
    simp only [FieldsSay]
    refine (run_alts env as rest (fun n hn => (hall n hn).2) _ _ w).trans (and_congr ?_ (runFields_iff env full rest h3 cs w.2))
    rw [goesToAlts_events (fun n hn => (hall n hn).1)]
    simp only [mapE_iff]
    have : ∀ (e : Str × List Node) (x : as.Den), as.dec env e.1 e.2 = .ok x ↔ AltsSay env as e x := fun e x => altsDec_iff env as h2 e x
    simp only [this]
    constructor
    · rintro ⟨xs, g1, g2⟩
      have g2 : (show List as.Den from w.1) = xs := g2
      subst g2; exact g1
    · intro g; exact ⟨_, g, rfl⟩
theorem altsDec_iff (env : Env) : (as : Alts) → as.clear = true → ∀ (e : Str × List Node) (x : as.Den),
    as.dec env e.1 e.2 = .ok x ↔ AltsSay env as e x
  | .nil, _, e, x => x.elim
  | .alt dec enc t rest, h, e, x => by
    simp only [Alts.clear, Bool.and_eq_true] at h
    have ht : ∀ y : t.Den, t.dec env t.zero e.1 e.2 = .ok y ↔ TySays env t [e] y := by
      intro y
      rw [← readAll_iff env t h.1 [e] y, readAll_cons]
      simp [readAll]
    have hr := altsDec_iff env rest h.2 e
    simp only [Alts.dec]
    by_cases hn : e.1 = dec
    · rw [if_pos (by simpa using hn)]
      cases hd : t.dec env t.zero e.1 e.2 with
      | error er =>
        simp only [reduceCtorEq, false_iff]
        rcases x with x | y
        · simp only [AltsSay]
          rintro ⟨-, hx⟩
          rw [(ht x).mpr hx] at hd; cases hd
        · simp only [AltsSay]
          rintro ⟨h', -⟩; exact h' hn
      | ok z =>
        rcases x with x | y
        · simp only [AltsSay]
          rw [← ht x, hd]
          constructor
          · intro h
            have h : (Sum.inl z : t.Den ⊕ rest.Den) = Sum.inl x := Except.ok.inj h
            cases h; exact ⟨hn, rfl⟩
          · rintro ⟨-, h⟩
            cases h; rfl
        · simp only [AltsSay]
          constructor
          · intro h
            have h : (Sum.inl z : t.Den ⊕ rest.Den) = Sum.inr y := Except.ok.inj h
            cases h
          · rintro ⟨h', -⟩; exact absurd hn h'
    · rw [if_neg (by simpa using hn)]
      cases hd : rest.dec env e.1 e.2 with
      | error er =>
        simp only [reduceCtorEq, false_iff]
        rcases x with x | y
        · simp only [AltsSay]
          rintro ⟨h', -⟩; exact hn h'
        · simp only [AltsSay]
          rintro ⟨-, hx⟩
          rw [(hr y).mpr hx] at hd; cases hd
      | ok z =>
        rcases x with x | y
        · simp only [AltsSay]
          constructor
          · intro h
            have h : (Sum.inr z : t.Den ⊕ rest.Den) = Sum.inl x := Except.ok.inj h
            cases h
          · rintro ⟨h', -⟩; exact absurd h' hn
        · simp only [AltsSay]
          rw [← hr y, hd]
          constructor
          · intro h
            have h : (Sum.inr z : t.Den ⊕ rest.Den) = Sum.inr y := Except.ok.inj h
            cases h; exact ⟨hn, rfl⟩
          · rintro ⟨-, h⟩
            cases h; rfl
end

/-- Decoding one element into a fresh variable. -/
theorem decodeNew_says {α : Type} [OfxType α] (env : Env) (name : Str) (cs : List Node) (m : α)
    (hc : (OfxType.ty α).clear = true) :
    decodeNew env name cs = .ok m ↔ TySays env (OfxType.ty α) [(name, cs)] (OfxType.toDen m) := by
  rw [← readAll_iff env _ hc, readAll_cons, decodeNew_iff]
  constructor
  · intro h; exact ⟨_, h, rfl⟩
  · rintro ⟨u, h1, h2⟩
    rw [← Except.ok.inj h2]; exact h1

end Ofx
