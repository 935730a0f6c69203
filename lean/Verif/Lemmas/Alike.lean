import Verif.Spec.Alike
import Verif.Lemmas.MsgSets
import Verif.Lemmas.LeafSays
/-
Contents that are alike are read the same.
-/
namespace Ofx
open Spec

theorem runEvents_append_iff {α : Type} (strict : Bool) (step : α → List Str → Str → List Node → Except String α)
    (es fs : List Ev) (v w : α) :
    runEvents strict step v (es ++ fs) = .ok w ↔ ∃ u, runEvents strict step v es = .ok u ∧ runEvents strict step u fs = .ok w := by
  induction es generalizing v with
  | nil => simp [runEvents]
  | cons e es ih =>
    cases e with
    | junk =>
      simp only [List.cons_append, runEvents]
      cases strict with
      | true => simp
      | false => simpa using ih v
    | hit p n c =>
      simp only [List.cons_append, runEvents]
      cases step v p n c with
      | error e => simp
      | ok v' => simpa using ih v'

/-- Two lists of events have the same effect on the fields. -/
def RunEq (strict : Bool) (fs : Fields) (es es' : List Ev) : Prop :=
  ∀ (env : Env) (v w : fs.Den), runEvents strict (fun v p n c => fs.dec env v p n c) v es = .ok w ↔
    runEvents strict (fun v p n c => fs.dec env v p n c) v es' = .ok w

theorem RunEq.refl (s : Bool) (fs : Fields) (es : List Ev) : RunEq s fs es es := fun _ _ _ => Iff.rfl

theorem RunEq.symm {s : Bool} {fs : Fields} {es es' : List Ev} (h : RunEq s fs es es') : RunEq s fs es' es :=
  fun env v w => (h env v w).symm

theorem RunEq.trans {s : Bool} {fs : Fields} {a b c : List Ev} (h : RunEq s fs a b) (h' : RunEq s fs b c) : RunEq s fs a c :=
  fun env v w => (h env v w).trans (h' env v w)

theorem RunEq.append {s : Bool} {fs : Fields} {a a' b b' : List Ev} (h : RunEq s fs a a') (h' : RunEq s fs b b') :
    RunEq s fs (a ++ b) (a' ++ b') := by
  intro env v w
  rw [runEvents_append_iff, runEvents_append_iff]
  exact exists_congr fun u => and_congr (h env v u) (h' env u w)

/-- Reading the contents into the same variable gives the same result. -/
def DecEq (t : Ty) (cs cs' : List Node) : Prop :=
  ∀ (env : Env) (v w : t.Den) (name : Str), t.dec env v name cs = .ok w ↔ t.dec env v name cs' = .ok w

theorem has_altNames : (as : Alts) → ∀ n : Str, as.has n = true ↔ n ∈ altNames as
  | .nil, n => by simp [Alts.has, altNames]
  | .alt dec enc t rest, n => by simp [Alts.has, altNames, has_altNames rest n]

theorem has_altType : (as : Alts) → ∀ n : Str, as.has n = true ↔ (altType as n).isSome = true
  | .nil, n => by simp [Alts.has, altType]
  | .alt dec enc t rest, n => by
    simp only [Alts.has, altType, Bool.or_eq_true, beq_iff_eq]
    by_cases h : n = dec
    · simp [h]
    · simp [h, has_altType rest n]

theorem hits_iff : (fs : Fields) → ∀ (p : List Str) (n : Str), fs.hits p n = true ↔ (fieldType fs p n).isSome = true
  | .nil, p, n => by simp [Fields.hits, fieldType]
  | .field path name o t rest, p, n => by
    simp only [Fields.hits, fieldType, Bool.or_eq_true, Bool.and_eq_true, beq_iff_eq]
    by_cases h : path = p ∧ name = n
    · rw [if_pos h]; simp [h]
    · rw [if_neg h, hits_iff rest p n]; simp [h]
  | .alts as rest, p, n => by
    simp only [Fields.hits, fieldType, Bool.or_eq_true, Bool.and_eq_true, beq_iff_eq]
    by_cases h : p = []
    · rw [if_pos h]
      cases ha : altType as n with
      | none =>
        have : ¬ as.has n = true := by rw [has_altType, ha]; simp
        simp only [hits_iff rest p n]; simp [this]
      | some t =>
        have : as.has n = true := by rw [has_altType, ha]; simp
        simp [this, h]
    · rw [if_neg h, hits_iff rest p n]; simp [h]

/-- Names that a structure does not know produce a skipped event. -/
theorem not_child : (fs : Fields) → ∀ (p : List Str) (n : Str), n ∉ childNames fs p →
    fs.hits p n = false ∧ fs.under (p ++ [n]) = false
  | .nil, p, n, _ => ⟨rfl, rfl⟩
  | .field path name o t rest, p, n, h => by
    simp only [childNames, List.mem_append, not_or] at h
    obtain ⟨i1, i2⟩ := not_child rest p n h.2
    simp only [Fields.hits, Fields.under, i1, i2, Bool.or_false]
    by_cases hp : path = p
    · rw [if_pos hp] at h
      simp only [List.mem_singleton] at h
      refine ⟨by simp [Ne.symm h.1], ?_⟩
      subst hp
      rw [Bool.eq_false_iff]
      intro hh
      have := List.isPrefixOf_iff_prefix.mp hh
      have := this.length_le
      simp at this
    · rw [if_neg hp] at h
      refine ⟨by simp [hp], ?_⟩
      rw [Bool.eq_false_iff]
      intro hh
      obtain ⟨r, hr⟩ := List.isPrefixOf_iff_prefix.mp hh
      have hpre : p <+: path := ⟨n :: r, by rw [← hr]; simp⟩
      rw [if_pos hpre] at h
      apply h.1
      rw [← hr]
      simp
  | .alts as rest, p, n, h => by
    simp only [childNames, List.mem_append, not_or] at h
    obtain ⟨i1, i2⟩ := not_child rest p n h.2
    simp only [Fields.hits, Fields.under, i1, i2, Bool.or_false, and_true]
    by_cases hp : p = []
    · rw [if_pos hp] at h
      have : ¬ as.has n = true := by rw [has_altNames]; exact h.1
      simp [this]
    · simp [hp]

/-! ### Exchanging elements -/

theorem dec_comm (env : Env) : (fs : Fields) → plainFields fs = true → ∀ (v w : fs.Den) (p q : List Str) (a b : Str)
    (x y : List Node), (p, a) ≠ (q, b) →
    (∃ u, fs.dec env v p a x = .ok u ∧ fs.dec env u q b y = .ok w) →
    (∃ u, fs.dec env v q b y = .ok u ∧ fs.dec env u p a x = .ok w)
  | .nil, _, v, w, p, q, a, b, x, y, _, h => by
    obtain ⟨u, h1, h2⟩ := h
    rw [Fields.dec] at h1 h2
    exact ⟨v, by rw [Fields.dec], by rw [Fields.dec]; exact h1.trans h2⟩
  | .field path name o t rest, hf, v, w, p, q, a, b, x, y, hne, h => by
    obtain ⟨u, h1, h2⟩ := h
    rw [Fields.dec] at h1 h2
    by_cases hp : (path == p && name == a) = true
    · have hq : ¬ (path == q && name == b) = true := by
        intro hq
        simp only [Bool.and_eq_true, beq_iff_eq] at hp hq
        exact hne (by rw [← hp.1, ← hp.2, ← hq.1, ← hq.2])
      rw [if_pos hp] at h1
      rw [if_neg hq] at h2
      cases d1 : t.dec env v.1 a x with
      | error e => rw [d1] at h1; cases h1
      | ok x1 =>
      rw [d1] at h1
      cases h1
      cases d2 : rest.dec env (show (Fields.field path name o t rest).Den from (x1, v.2)).2 q b y with
      | error e => rw [d2] at h2; cases h2
      | ok y1 =>
      rw [d2] at h2
      cases h2
      refine ⟨(v.1, y1), ?_, ?_⟩
      · rw [Fields.dec, if_neg hq]
        rw [show rest.dec env v.2 q b y = .ok y1 from d2]
      · have key : ∀ z : (Fields.field path name o t rest).Den, z.1 = v.1 → z.2 = y1 →
            (Fields.field path name o t rest).dec env z p a x = .ok (x1, y1) := by
          intro z hz1 hz2
          rw [Fields.dec, if_pos hp, hz1, d1, hz2]
        exact key _ rfl rfl
    · rw [if_neg hp] at h1
      cases d1 : rest.dec env v.2 p a x with
      | error e => rw [d1] at h1; cases h1
      | ok y1 =>
      rw [d1] at h1
      cases h1
      by_cases hq : (path == q && name == b) = true
      · rw [if_pos hq] at h2
        cases d2 : t.dec env (show (Fields.field path name o t rest).Den from (v.1, y1)).1 b y with
        | error e => rw [d2] at h2; cases h2
        | ok x1 =>
        rw [d2] at h2
        cases h2
        refine ⟨(x1, v.2), ?_, ?_⟩
        · rw [Fields.dec, if_pos hq]
          rw [show t.dec env v.1 b y = .ok x1 from d2]
        · have key : ∀ z : (Fields.field path name o t rest).Den, z.1 = x1 → z.2 = v.2 →
              (Fields.field path name o t rest).dec env z p a x = .ok (x1, y1) := by
            intro z hz1 hz2
            rw [Fields.dec, if_neg hp, hz2, d1, hz1]
          exact key _ rfl rfl
      · rw [if_neg hq] at h2
        cases d2 : rest.dec env (show (Fields.field path name o t rest).Den from (v.1, y1)).2 q b y with
        | error e => rw [d2] at h2; cases h2
        | ok z1 =>
        rw [d2] at h2
        cases h2
        obtain ⟨u, g1, g2⟩ := dec_comm env rest hf v.2 z1 p q a b x y hne ⟨y1, d1, d2⟩
        refine ⟨(v.1, u), ?_, ?_⟩
        · rw [Fields.dec, if_neg hq, g1]
        · have key : ∀ z : (Fields.field path name o t rest).Den, z.1 = v.1 → z.2 = u →
              (Fields.field path name o t rest).dec env z p a x = .ok (v.1, z1) := by
            intro z hz1 hz2
            rw [Fields.dec, if_neg hp, hz2, g2, hz1]
          exact key _ rfl rfl
  | .alts as rest, hf, _, _, _, _, _, _, _, _, _, _ => by cases hf

/-- The fields an event is about. -/
def Ev.Off (k : List Str × Str) : Ev → Prop
  | .hit p n _ => (p, n) ≠ k
  | .junk => True

theorem run_hit_comm {fs : Fields} (hf : plainFields fs = true) (env : Env) (p : List Str) (a : Str) (x : List Node) :
    ∀ (es : List Ev), (∀ e ∈ es, e.Off (p, a)) → ∀ v w : fs.Den,
    (∃ u, fs.dec env v p a x = .ok u ∧ runEvents false (fun v p n c => fs.dec env v p n c) u es = .ok w) ↔
    (∃ u, runEvents false (fun v p n c => fs.dec env v p n c) v es = .ok u ∧ fs.dec env u p a x = .ok w)
  | [], _, v, w => by simp [runEvents]
  | .junk :: es, h, v, w => by
    simp only [runEvents]
    exact run_hit_comm hf env p a x es (fun e he => h e (List.mem_cons_of_mem _ he)) v w
  | .hit q b y :: es, h, v, w => by
    have hne : (q, b) ≠ (p, a) := h _ (List.mem_cons_self ..)
    have ih := run_hit_comm hf env p a x es (fun e he => h e (List.mem_cons_of_mem _ he))
    have hrun : ∀ (u : fs.Den) (w : fs.Den), runEvents false (fun v p n c => fs.dec env v p n c) u (.hit q b y :: es) = .ok w ↔
        ∃ u', fs.dec env u q b y = .ok u' ∧ runEvents false (fun v p n c => fs.dec env v p n c) u' es = .ok w := by
      intro u w
      simp only [runEvents]
      cases fs.dec env u q b y <;> simp
    constructor
    · rintro ⟨u, h1, h2⟩
      obtain ⟨u', h3, h4⟩ := (hrun u w).mp h2
      obtain ⟨s, g1, g2⟩ := dec_comm env fs hf v u' p q a b x y (Ne.symm hne) ⟨u, h1, h3⟩
      obtain ⟨r, g3, g4⟩ := (ih s w).mp ⟨u', g2, h4⟩
      exact ⟨r, (hrun v r).mpr ⟨s, g1, g3⟩, g4⟩
    · rintro ⟨r, h1, h2⟩
      obtain ⟨s, h3, h4⟩ := (hrun v r).mp h1
      obtain ⟨u', g1, g2⟩ := (ih s w).mpr ⟨r, h4, h2⟩
      obtain ⟨u, g3, g4⟩ := dec_comm env fs hf v u' q p b a y x hne ⟨s, h3, g1⟩
      exact ⟨u, g3, (hrun u w).mpr ⟨u', g4, g2⟩⟩

def Ev.Apart (d : Ev) (es : List Ev) : Prop :=
  match d with
  | .hit p n _ => ∀ e ∈ es, e.Off (p, n)
  | .junk => True

theorem run_comm {fs : Fields} (hf : plainFields fs = true) (es : List Ev) :
    ∀ ds : List Ev, (∀ d ∈ ds, d.Apart es) → RunEq false fs (ds ++ es) (es ++ ds)
  | [], _ => by simpa using RunEq.refl _ _ _
  | .junk :: ds, h => by
    have ih := run_comm hf es ds (fun d hd => h d (List.mem_cons_of_mem _ hd))
    intro env v w
    have h1 : runEvents false (fun v p n c => fs.dec env v p n c) v (.junk :: ds ++ es) =
        runEvents false (fun v p n c => fs.dec env v p n c) v (ds ++ es) := by simp [runEvents]
    have h2 : RunEq false fs (es ++ .junk :: ds) (es ++ ds) :=
      (RunEq.refl false fs es).append (fun env v w => by simp [runEvents])
    rw [h1, h2 env v w]
    exact ih env v w
  | .hit p n c :: ds, h => by
    have ih := run_comm hf es ds (fun d hd => h d (List.mem_cons_of_mem _ hd))
    have h0 : ∀ e ∈ es, e.Off (p, n) := h _ (List.mem_cons_self ..)
    intro env v w
    have hrun : ∀ (u w : fs.Den) (l : List Ev), runEvents false (fun v p n c => fs.dec env v p n c) u (.hit p n c :: l) = .ok w ↔
        ∃ u', fs.dec env u p n c = .ok u' ∧ runEvents false (fun v p n c => fs.dec env v p n c) u' l = .ok w := by
      intro u w l
      simp only [runEvents]
      cases fs.dec env u p n c <;> simp
    rw [List.cons_append, hrun]
    have : (∃ u', fs.dec env v p n c = .ok u' ∧ runEvents false (fun v p n c => fs.dec env v p n c) u' (ds ++ es) = .ok w) ↔
        ∃ u', fs.dec env v p n c = .ok u' ∧ runEvents false (fun v p n c => fs.dec env v p n c) u' (es ++ ds) = .ok w :=
      exists_congr fun u' => and_congr_right fun _ => ih env u' w
    rw [this]
    constructor
    · rintro ⟨u, h1, h2⟩
      obtain ⟨r, h3, h4⟩ := (runEvents_append_iff _ _ _ _ _ _).mp h2
      obtain ⟨s, g1, g2⟩ := (run_hit_comm hf env p n c es h0 v r).mp ⟨u, h1, h3⟩
      exact (runEvents_append_iff _ _ _ _ _ _).mpr ⟨s, g1, (hrun s w ds).mpr ⟨r, g2, h4⟩⟩
    · intro h1
      obtain ⟨s, g1, g2⟩ := (runEvents_append_iff _ _ _ _ _ _).mp h1
      obtain ⟨r, g3, g4⟩ := (hrun s w ds).mp g2
      obtain ⟨u, g5, g6⟩ := (run_hit_comm hf env p n c es h0 v r).mpr ⟨s, g1, g3⟩
      exact ⟨u, g5, (runEvents_append_iff _ _ _ _ _ _).mpr ⟨r, g6, g4⟩⟩

mutual
theorem events_under (fs : Fields) : (nd : Node) → ∀ (p : List Str), ∀ q n c, .hit q n c ∈ fs.events p nd → p <+: q
  | .elem m cs, p => by
    intro q n c h
    unfold Fields.events at h
    by_cases h1 : fs.hits p m = true
    · rw [if_pos h1] at h
      simp only [List.mem_singleton, Ev.hit.injEq] at h
      rw [h.1]
    · rw [if_neg h1] at h
      by_cases h2 : fs.under (p ++ [m]) = true
      · rw [if_pos h2] at h
        exact (List.prefix_append p [m]).trans (eventsL_under fs cs (p ++ [m]) q n c h)
      · rw [if_neg h2] at h
        simp at h
  | .text s, p => by
    intro q n c h
    unfold Fields.events at h
    split at h <;> simp at h
  | .misc, p => by
    intro q n c h
    unfold Fields.events at h
    simp at h
theorem eventsL_under (fs : Fields) : (nds : List Node) → ∀ (p : List Str), ∀ q n c, .hit q n c ∈ fs.eventsL p nds → p <+: q
  | [], p => by intro q n c h; unfold Fields.eventsL at h; cases h
  | nd :: nds, p => by
    intro q n c h
    unfold Fields.eventsL at h
    rcases List.mem_append.mp h with h | h
    · exact events_under fs nd p q n c h
    · exact eventsL_under fs nds p q n c h
end

/-- The events of an element concern the field of that name or fields below it. -/
theorem events_elem (fs : Fields) (p : List Str) (a : Str) (x : List Node) (q : List Str) (n : Str) (c : List Node)
    (h : .hit q n c ∈ fs.events p (.elem a x)) : (q = p ∧ n = a) ∨ p ++ [a] <+: q := by
  unfold Fields.events at h
  by_cases h1 : fs.hits p a = true
  · rw [if_pos h1] at h
    simp only [List.mem_singleton, Ev.hit.injEq] at h
    exact .inl ⟨h.1, h.2.1⟩
  · rw [if_neg h1] at h
    by_cases h2 : fs.under (p ++ [a]) = true
    · rw [if_pos h2] at h
      exact .inr (eventsL_under fs x (p ++ [a]) q n c h)
    · rw [if_neg h2] at h
      simp at h

theorem events_apart (fs : Fields) (p : List Str) (a b : Str) (x y : List Node) (hab : a ≠ b) :
    ∀ d ∈ fs.events p (.elem a x), d.Apart (fs.events p (.elem b y)) := by
  intro d hd
  cases d with
  | junk => trivial
  | hit q n c =>
    intro e he
    cases e with
    | junk => trivial
    | hit q' n' c' =>
      show (q', n') ≠ (q, n)
      intro heq
      simp only [Prod.mk.injEq] at heq
      obtain ⟨rfl, rfl⟩ := heq
      rcases events_elem fs p a x _ _ c hd with ⟨h1, h2⟩ | h1 <;>
        rcases events_elem fs p b y _ _ c' he with ⟨h3, h4⟩ | h3
      · exact hab (h2.symm.trans h4)
      · have := h3.length_le; rw [h1] at this; simp at this
      · have := h1.length_le; rw [h3] at this; simp at this
      · obtain ⟨r, hr⟩ := h1
        obtain ⟨s, hs⟩ := h3
        rw [← hs] at hr
        simp only [List.append_assoc, List.append_cancel_left_eq, List.cons_append, List.nil_append, List.cons.injEq] at hr
        exact hab hr.1

/-! ### Replacing contents -/

theorem altDec_eq (env : Env) : (as : Alts) → ∀ (n : Str) (t : Ty) (c c' : List Node), altType as n = some t →
    (∀ v w name, t.dec env v name c = .ok w ↔ t.dec env v name c' = .ok w) → ∀ w, as.dec env n c = .ok w ↔ as.dec env n c' = .ok w
  | .nil, n, t, c, c', h, _, w => by cases h
  | .alt dec enc t' rest, n, t, c, c', h, hd, w => by
    unfold altType at h
    change t'.Den ⊕ rest.Den at w
    by_cases hn : n = dec
    · rw [if_pos hn] at h
      cases h
      cases w with
      | inl x => rw [altDec_inl, altDec_inl]; exact and_congr_right fun _ => hd _ _ _
      | inr y => rw [altDec_inr, altDec_inr]; exact and_congr_right fun hh => absurd hn hh
    · rw [if_neg hn] at h
      cases w with
      | inl x => rw [altDec_inl, altDec_inl]; exact and_congr_right fun hh => absurd hh hn
      | inr y => rw [altDec_inr, altDec_inr]; exact and_congr_right fun _ => altDec_eq env rest n t c c' h hd y

theorem ok_cases {α : Type} {e e' : Except String α} (h : ∀ w, e = .ok w ↔ e' = .ok w) :
    (∃ x, e = .ok x ∧ e' = .ok x) ∨ ∃ a b, e = .error a ∧ e' = .error b := by
  cases e with
  | error e1 =>
    cases e' with
    | error e2 => exact .inr ⟨e1, e2, rfl, rfl⟩
    | ok x => have := (h x).mpr rfl; cases this
  | ok x => exact .inl ⟨x, rfl, (h x).mp rfl⟩

theorem fieldDec_eq (env : Env) : (fs : Fields) → ∀ (p : List Str) (n : Str) (t : Ty) (c c' : List Node),
    fieldType fs p n = some t → (∀ v w name, t.dec env v name c = .ok w ↔ t.dec env v name c' = .ok w) →
    ∀ v w, fs.dec env v p n c = .ok w ↔ fs.dec env v p n c' = .ok w
  | .nil, p, n, t, c, c', h, _, v, w => by cases h
  | .field path name o t' rest, p, n, t, c, c', h, hd, v, w => by
    unfold fieldType at h
    rw [Fields.dec, Fields.dec]
    by_cases hp : path = p ∧ name = n
    · rw [if_pos hp] at h
      cases h
      rw [if_pos (by simp [hp]), if_pos (by simp [hp])]
      rcases ok_cases (fun w => hd _ w _) with ⟨x, h1, h2⟩ | ⟨a, b, h1, h2⟩
      · rw [h1, h2]
      · rw [h1, h2]; exact ⟨(by intro hx; cases hx), (by intro hx; cases hx)⟩
    · rw [if_neg hp] at h
      have hp' : ¬ (path == p && name == n) = true := by simpa using hp
      rw [if_neg hp', if_neg hp']
      rcases ok_cases (fun w => fieldDec_eq env rest p n t c c' h hd v.2 w) with ⟨x, h1, h2⟩ | ⟨a, b, h1, h2⟩
      · rw [h1, h2]
      · rw [h1, h2]; exact ⟨(by intro hx; cases hx), (by intro hx; cases hx)⟩
  | .alts as rest, p, n, t, c, c', h, hd, v, w => by
    unfold fieldType at h
    rw [Fields.dec, Fields.dec]
    by_cases hp : p = []
    · rw [if_pos hp] at h
      by_cases ha : as.has n = true
      · obtain ⟨t', ht'⟩ := Option.isSome_iff_exists.mp ((has_altType as n).mp ha)
        rw [ht'] at h
        cases h
        rw [if_pos (by simp [hp, ha]), if_pos (by simp [hp, ha])]
        rcases ok_cases (fun w => altDec_eq env as n t c c' ht' hd w) with ⟨x, h1, h2⟩ | ⟨a, b, h1, h2⟩
        · rw [h1, h2]
        · rw [h1, h2]; exact ⟨(by intro hx; cases hx), (by intro hx; cases hx)⟩
      · have : altType as n = none := by
          cases hh : altType as n with
          | none => rfl
          | some x => exact absurd ((has_altType as n).mpr (by rw [hh]; rfl)) ha
        rw [this] at h
        rw [if_neg (by simp [ha]), if_neg (by simp [ha])]
        rcases ok_cases (fun w => fieldDec_eq env rest p n t c c' h hd v.2 w) with ⟨x, h1, h2⟩ | ⟨a, b, h1, h2⟩
        · rw [h1, h2]
        · rw [h1, h2]; exact ⟨(by intro hx; cases hx), (by intro hx; cases hx)⟩
    · rw [if_neg hp] at h
      rw [if_neg (by simp [hp]), if_neg (by simp [hp])]
      rcases ok_cases (fun w => fieldDec_eq env rest p n t c c' h hd v.2 w) with ⟨x, h1, h2⟩ | ⟨a, b, h1, h2⟩
      · rw [h1, h2]
      · rw [h1, h2]; exact ⟨(by intro hx; cases hx), (by intro hx; cases hx)⟩

theorem hit_eq {s : Bool} {fs : Fields} {p : List Str} {n : Str} {t : Ty} {c c' : List Node}
    (h : fieldType fs p n = some t) (hd : DecEq t c c') : RunEq s fs [.hit p n c] [.hit p n c'] := by
  intro env v w
  have := fieldDec_eq env fs p n t c c' h (fun v w name => hd env v w name) v w
  simp only [runEvents]
  cases h1 : fs.dec env v p n c with
  | error e =>
    cases h2 : fs.dec env v p n c' with
    | error e' => simp
    | ok x =>
      have := (fieldDec_eq env fs p n t c c' h (fun v w name => hd env v w name) v x).mpr h2
      rw [h1] at this; cases this
  | ok x =>
    rw [(fieldDec_eq env fs p n t c c' h (fun v w name => hd env v w name) v x).mp h1]

/-- A context for the events of one node. -/
theorem RunEq.context {s : Bool} {fs : Fields} {p : List Str} (pre post : List Node) {a b : List Node}
    (h : RunEq s fs (fs.eventsL p a) (fs.eventsL p b)) :
    RunEq s fs (fs.eventsL p (pre ++ (a ++ post))) (fs.eventsL p (pre ++ (b ++ post))) := by
  rw [eventsL_append, eventsL_append, eventsL_append fs p pre, eventsL_append fs p b]
  exact (RunEq.refl _ _ _).append (h.append (RunEq.refl _ _ _))

theorem elem_hit_eq {s : Bool} {fs : Fields} {p : List Str} {n : Str} {t : Ty} {c c' : List Node}
    (h : fieldType fs p n = some t) (hd : DecEq t c c') :
    RunEq s fs (fs.eventsL p [.elem n c]) (fs.eventsL p [.elem n c']) := by
  have hh : fs.hits p n = true := (hits_iff fs p n).mpr (by rw [h]; rfl)
  simp only [Fields.eventsL, Fields.events, hh, if_true, List.append_nil]
  exact hit_eq h hd

theorem mapE_context {α β : Type} (f : α → Except String β) (pre post : List α) (a b : α)
    (h : ∀ y, f a = .ok y ↔ f b = .ok y) (ys : List β) :
    mapE f (pre ++ a :: post) = .ok ys ↔ mapE f (pre ++ b :: post) = .ok ys := by
  induction pre generalizing ys with
  | nil =>
    simp only [List.nil_append, mapE]
    cases ha : f a with
    | error e =>
      cases hb : f b with
      | error e' => simp
      | ok y => have := (h y).mpr hb; rw [ha] at this; cases this
    | ok y => rw [(h y).mp ha]
  | cons x pre ih =>
    simp only [List.cons_append, mapE]
    cases hx : f x with
    | error e => simp
    | ok y =>
      cases h1 : mapE f (pre ++ a :: post) with
      | error e =>
        cases h2 : mapE f (pre ++ b :: post) with
        | error e' => simp
        | ok z => have := (ih z).mpr h2; rw [h1] at this; cases this
      | ok z => rw [(ih z).mp h1]

theorem struct_decEq {xn : XName} {fs : Fields} {cs cs' : List Node}
    (h : RunEq false fs (fs.eventsL [] cs) (fs.eventsL [] cs')) : DecEq (.struct xn fs) cs cs' := by
  intro env v w name
  rw [Ty.dec, Ty.dec]
  by_cases hc : xn.check name = true
  · rw [if_pos hc, if_pos hc]
    rcases ok_cases (fun w => h env v.2 w) with ⟨x, h1, h2⟩ | ⟨a, b, h1, h2⟩
    · rw [h1, h2]
    · rw [h1, h2]; exact ⟨(by intro hx; cases hx), (by intro hx; cases hx)⟩
  · rw [if_neg hc, if_neg hc]

theorem text_events (fs : Fields) (p : List Str) (s : Str) :
    fs.events p (.text s) = [] ∨ fs.events p (.text s) = [.junk] := by
  unfold Fields.events
  by_cases h : (trimSpace s).isEmpty = true
  · rw [if_pos h]; exact .inl rfl
  · rw [if_neg h]; exact .inr rfl

theorem junk_eq (fs : Fields) : RunEq false fs [.junk] [] := by
  intro env v w
  simp [runEvents]

theorem leafText_append (a b : List Node) : leafText (a ++ b) = leafText a ++ leafText b := by
  induction a with
  | nil => rfl
  | cons x a ih => cases x <;> simp only [List.cons_append, leafText, ih, List.append_assoc]

mutual
theorem alike_dec : {t : Ty} → {cs cs' : List Node} → Alike t cs cs' → DecEq t cs cs'
  | _, _, _, .refl t cs => fun _ _ _ _ => Iff.rfl
  | _, _, _, .symm h => fun env v w name => (alike_dec h env v w name).symm
  | _, _, _, .trans h h' => fun env v w name => (alike_dec h env v w name).trans (alike_dec h' env v w name)
  | _, _, _, .struct h => struct_decEq (alikeAt_run h)
  | _, _, _, .ptr h => by
    intro env v w name
    rw [Ty.dec, Ty.dec]
    rcases ok_cases (fun w => alike_dec h env _ w name) with ⟨x, h1, h2⟩ | ⟨a, b, h1, h2⟩
    · rw [h1, h2]
    · rw [h1, h2]; exact ⟨(by intro hx; cases hx), (by intro hx; cases hx)⟩
  | _, _, _, .slice h => by
    intro env v w name
    rw [Ty.dec, Ty.dec]
    rcases ok_cases (fun w => alike_dec h env _ w name) with ⟨x, h1, h2⟩ | ⟨a, b, h1, h2⟩
    · rw [h1, h2]
    · rw [h1, h2]; exact ⟨(by intro hx; cases hx), (by intro hx; cases hx)⟩
  | _, _, _, .item pre post n h1 h2 => by
    intro env v w name
    rw [Ty.dec, Ty.dec]
    exact RunEq.context pre post (elem_hit_eq h1 (alike_dec h2)) env v w
  | _, _, _, .space pre post s hs => by
    intro env v w name
    rw [Ty.dec, Ty.dec]
    refine RunEq.context pre post (a := [.text s]) (b := []) ?_ env v w
    have : (trimSpace s).isEmpty = true := by
      have := (isBlank_text s).mpr hs
      simpa [isBlank] using this
    simp only [Fields.eventsL, Fields.events, this, if_true, List.append_nil]
    exact RunEq.refl _ _ _
  | _, _, _, .set (fs := fs) pre post n m (c := c) (c' := c') h => by
    intro env v w name
    rw [Ty.dec, Ty.dec]
    suffices hs : ∀ w, mapE (decMsgSet (fun x => runEvents false (fun v p n c => fs.dec env v p n c) fs.zero (fs.eventsL [] x)))
        ((pre ++ .elem n [.elem m c] :: post).filter (fun c => !isBlank c)) = .ok w ↔
        mapE (decMsgSet (fun x => runEvents false (fun v p n c => fs.dec env v p n c) fs.zero (fs.eventsL [] x)))
        ((pre ++ .elem n [.elem m c'] :: post).filter (fun c => !isBlank c)) = .ok w by
      rcases ok_cases hs with ⟨x, h1, h2⟩ | ⟨a, b, h1, h2⟩
      · rw [h1, h2]
      · rw [h1, h2]; exact ⟨(by intro hx; cases hx), (by intro hx; cases hx)⟩
    intro w
    simp only [List.filter_append, List.filter_cons, isBlank, Bool.not_false, if_true]
    apply mapE_context
    intro y
    simp only [decMsgSet, onlyChild, List.filter_cons, isBlank, Bool.not_false, if_true, List.filter_nil]
    rcases ok_cases (fun w => alikeAt_run h env _ w) with ⟨x, h1, h2⟩ | ⟨a, b, h1, h2⟩
    · rw [h1, h2]
    · rw [h1, h2]; exact ⟨(by intro hx; cases hx), (by intro hx; cases hx)⟩
  | _, _, _, .value (l := l) h => by
    intro env v w name
    rw [Ty.dec, Ty.dec]
    simp only [leafText, List.append_nil]
    exact leaf_same h env w
  | _, _, _, .pieces pre post s s' => by
    intro env v w name
    rw [Ty.dec, Ty.dec]
    simp only [leafText_append, leafText, List.append_assoc]
  | _, _, _, .inside pre post => by
    intro env v w name
    rw [Ty.dec, Ty.dec]
    simp only [leafText_append, leafText]
  | _, _, _, .element pre post n c => by
    intro env v w name
    rw [Ty.dec, Ty.dec]
    simp only [leafText_append, leafText]
theorem alikeAt_run : {fs : Fields} → {p : List Str} → {cs cs' : List Node} → AlikeAt fs p cs cs' →
    RunEq false fs (fs.eventsL p cs) (fs.eventsL p cs')
  | _, _, _, _, .refl fs p cs => RunEq.refl _ _ _
  | _, _, _, _, .symm h => (alikeAt_run h).symm
  | _, _, _, _, .trans h h' => (alikeAt_run h).trans (alikeAt_run h')
  | _, _, _, _, .unknown (fs := fs) (p := p) pre post n c hn => by
    refine RunEq.context pre post (a := [.elem n c]) (b := []) ?_
    obtain ⟨h1, h2⟩ := not_child fs p n hn
    simp only [Fields.eventsL, Fields.events, h1, h2, List.append_nil, Bool.false_eq_true, if_false]
    exact junk_eq fs
  | _, _, _, _, .text (fs := fs) (p := p) pre post s => by
    refine RunEq.context pre post (a := [.text s]) (b := []) ?_
    simp only [Fields.eventsL, List.append_nil]
    rcases text_events fs p s with h | h <;> rw [h]
    · exact RunEq.refl _ _ _
    · exact junk_eq fs
  | _, _, _, _, .comment (fs := fs) (p := p) pre post => by
    refine RunEq.context pre post (a := [.misc]) (b := []) ?_
    simp only [Fields.eventsL, Fields.events, List.append_nil]
    exact junk_eq fs
  | _, _, _, _, .swap (fs := fs) (p := p) pre post a b x y hab hf => by
    refine RunEq.context pre post (a := [.elem a x, .elem b y]) (b := [.elem b y, .elem a x]) ?_
    simp only [Fields.eventsL, List.append_nil]
    exact run_comm hf _ _ (events_apart fs p a b x y hab)
  | _, _, _, _, .field pre post n h1 h2 => RunEq.context pre post (a := [.elem n _]) (b := [.elem n _]) (elem_hit_eq h1 (alike_dec h2))
  | _, _, _, _, .parent (fs := fs) (p := p) pre post n h1 h2 => by
    refine RunEq.context pre post (a := [.elem n _]) (b := [.elem n _]) ?_
    have hh : fs.hits p n = false := by
      rw [Bool.eq_false_iff]
      intro hh
      have := (hits_iff fs p n).mp hh
      rw [h1] at this
      cases this
    simp only [Fields.eventsL, Fields.events, hh, List.append_nil, Bool.false_eq_true, if_false]
    by_cases hu : fs.under (p ++ [n]) = true
    · rw [if_pos hu, if_pos hu]
      exact alikeAt_run h2
    · rw [if_neg hu, if_neg hu]
      exact RunEq.refl _ _ _
end

end Ofx
