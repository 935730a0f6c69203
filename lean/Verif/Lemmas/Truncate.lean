import Verif.Lemmas.Prefix
import Verif.Lemmas.Utf8
import Verif.Lemmas.XmlHeader
import Verif.Lemmas.Header
/-
What decoding does with the beginning of a document, and with a document followed by
something else.
-/
namespace Ofx

/-- The name of the outermost open element. -/
def bottom (top : Str × List Node) : List (Str × List Node) → Str
  | [] => top.1
  | p :: ps => bottom p ps

theorem bottom_top {top top' : Str × List Node} {ps : List (Str × List Node)} (h : top.1 = top'.1) : bottom top ps = bottom top' ps := by
  cases ps with
  | nil => exact h
  | cons p ps => rfl

/-- One step of `build`: whether the token is used up, and the finished element or the new
state.  Nothing for an error. -/
def buildStep (strict : Bool) (top : Str × List Node) (ps : List (Str × List Node)) (t : Tok) :
    Option (Bool × (Node ⊕ ((Str × List Node) × List (Str × List Node)))) :=
  if closes strict top.1 t then
    match ps with
    | [] => some (decide (t = .stop top.1), .inl (.elem top.1 top.2.reverse))
    | p :: ps => some (decide (t = .stop top.1), .inr ((p.1, .elem top.1 top.2.reverse :: p.2), ps))
  else
    match t with
    | .start n => some (true, .inr ((n, []), top :: ps))
    | .stop _ => none
    | .text s => some (true, .inr ((top.1, .text s :: top.2), ps))
    | .proc _ _ => some (true, .inr ((top.1, .misc :: top.2), ps))
    | .misc => some (true, .inr ((top.1, .misc :: top.2), ps))

theorem build_nil (strict : Bool) (top : Str × List Node) (ps : List (Str × List Node)) : build strict top ps [] = .error "unexpected EOF" := by
  rw [build]

theorem build_cons {strict : Bool} {top : Str × List Node} {ps : List (Str × List Node)} {t : Tok} (rest : List Tok) :
    (buildStep strict top ps t = none → ∃ e, build strict top ps (t :: rest) = .error e) ∧
    (∀ c root, buildStep strict top ps t = some (c, .inl root) →
      build strict top ps (t :: rest) = .ok (root, if c then rest else t :: rest)) ∧
    (∀ c top' ps', buildStep strict top ps t = some (c, .inr (top', ps')) →
      build strict top ps (t :: rest) = build strict top' ps' (if c then rest else t :: rest)) := by
  unfold buildStep
  by_cases hc : closes strict top.1 t = true
  · rw [if_pos hc]
    cases ps with
    | nil =>
      refine ⟨(fun h => by cases h), ?_, (fun _ _ _ h => by cases h)⟩
      intro c root h
      cases h
      conv_lhs => rw [build.eq_def]
      simp only
      rw [if_pos hc]
      by_cases ht : t = .stop top.1
      · rw [if_pos ht, if_pos (decide_eq_true ht)]
      · rw [if_neg ht, if_neg (by simpa using ht)]
    | cons p ps =>
      refine ⟨(fun h => by cases h), (fun _ _ h => by cases h), ?_⟩
      intro c top' ps' h
      cases h
      conv_lhs => rw [build.eq_def]
      simp only
      rw [if_pos hc]
      by_cases ht : t = .stop top.1
      · rw [if_pos ht, if_pos (decide_eq_true ht)]
      · rw [if_neg ht, if_neg (by simpa using ht)]
  · rw [if_neg hc]
    have hb := build.eq_def strict top ps (t :: rest)
    simp only at hb
    rw [if_neg hc] at hb
    cases t with
    | start n => exact ⟨(fun h => by cases h), (fun _ _ h => by cases h), fun c t' p' h => by cases h; exact hb⟩
    | stop n => exact ⟨fun _ => ⟨_, hb⟩, (fun _ _ h => by cases h), (fun _ _ _ h => by cases h)⟩
    | text s => exact ⟨(fun h => by cases h), (fun _ _ h => by cases h), fun c t' p' h => by cases h; exact hb⟩
    | proc a b => exact ⟨(fun h => by cases h), (fun _ _ h => by cases h), fun c t' p' h => by cases h; exact hb⟩
    | misc => exact ⟨(fun h => by cases h), (fun _ _ h => by cases h), fun c t' p' h => by cases h; exact hb⟩

/-- Every step gets nearer to the end. -/
theorem buildStep_less {strict : Bool} {top : Str × List Node} {ps : List (Str × List Node)} {t : Tok} {c : Bool}
    {top' : Str × List Node} {ps' : List (Str × List Node)} (h : buildStep strict top ps t = some (c, .inr (top', ps'))) (rest : List Tok) :
    2 * (if c then rest else t :: rest).length + ps'.length < 2 * (t :: rest).length + ps.length := by
  unfold buildStep at h
  by_cases hc : closes strict top.1 t = true
  · rw [if_pos hc] at h
    cases ps with
    | nil => cases h
    | cons p ps =>
      cases h
      by_cases ht : t = .stop top.1
      · rw [if_pos (decide_eq_true ht)]
        simp only [List.length_cons]
        omega
      · rw [if_neg (by simpa using ht)]
        simp only [List.length_cons]
        omega
  · rw [if_neg hc] at h
    cases t <;> cases h <;> (rw [if_pos rfl]; simp only [List.length_cons]; omega)

theorem buildStep_bottom {strict : Bool} {top : Str × List Node} {ps : List (Str × List Node)} {t : Tok} {c : Bool}
    {top' : Str × List Node} {ps' : List (Str × List Node)} (h : buildStep strict top ps t = some (c, .inr (top', ps'))) :
    bottom top' ps' = bottom top ps := by
  unfold buildStep at h
  by_cases hc : closes strict top.1 t = true
  · rw [if_pos hc] at h
    cases ps with
    | nil => cases h
    | cons p ps => cases h; exact bottom_top rfl
  · rw [if_neg hc] at h
    cases t <;> cases h <;> first | rfl | exact bottom_top rfl

/-- What follows the outermost element is left alone. -/
theorem build_ext {strict : Bool} (n : Nat) {top : Str × List Node} {ps : List (Str × List Node)} {toks : List Tok} {root : Node} {rest : List Tok}
    (hn : 2 * toks.length + ps.length ≤ n) (h : build strict top ps toks = .ok (root, rest)) (x : List Tok) :
    build strict top ps (toks ++ x) = .ok (root, rest ++ x) := by
  induction n generalizing top ps toks with
  | zero =>
    have : toks = [] := List.length_eq_zero_iff.mp (by omega)
    subst this
    rw [build_nil] at h
    cases h
  | succ n ih =>
    cases toks with
    | nil => rw [build_nil] at h; cases h
    | cons t toks =>
      obtain ⟨h1, h2, h3⟩ := build_cons (strict := strict) (top := top) (ps := ps) (t := t) toks
      obtain ⟨k1, k2, k3⟩ := build_cons (strict := strict) (top := top) (ps := ps) (t := t) (toks ++ x)
      rw [List.cons_append]
      cases hs : buildStep strict top ps t with
      | none => obtain ⟨e, he⟩ := h1 hs; rw [he] at h; cases h
      | some a =>
        obtain ⟨c, a⟩ := a
        cases a with
        | inl r =>
          rw [h2 c r hs] at h
          rw [k2 c r hs]
          cases h
          cases c <;> rfl
        | inr q =>
          obtain ⟨top', ps'⟩ := q
          rw [h3 c top' ps' hs] at h
          rw [k3 c top' ps' hs]
          have := ih (by have := buildStep_less hs toks; omega) h
          rw [← this]
          cases c <;> rfl

/-- Tokens at the end that do not complete the outermost element are not needed. -/
theorem build_drop {strict : Bool} (n : Nat) {tl : List Tok} {b : Str}
    (htl : ∀ top ps, bottom top ps = b → ∃ e, build strict top ps tl = .error e)
    {top : Str × List Node} {ps : List (Str × List Node)} {toks : List Tok} {root : Node} {rest : List Tok} (hb : bottom top ps = b)
    (hn : 2 * toks.length + ps.length ≤ n) (h : build strict top ps (toks ++ tl) = .ok (root, rest)) :
    ∃ rest', build strict top ps toks = .ok (root, rest') := by
  induction n generalizing top ps toks with
  | zero =>
    have : toks = [] := List.length_eq_zero_iff.mp (by omega)
    subst this
    obtain ⟨e, he⟩ := htl top ps hb
    rw [List.nil_append, he] at h
    cases h
  | succ n ih =>
    cases toks with
    | nil =>
      obtain ⟨e, he⟩ := htl top ps hb
      rw [List.nil_append, he] at h
      cases h
    | cons t toks =>
      obtain ⟨h1, h2, h3⟩ := build_cons (strict := strict) (top := top) (ps := ps) (t := t) (toks ++ tl)
      obtain ⟨k1, k2, k3⟩ := build_cons (strict := strict) (top := top) (ps := ps) (t := t) toks
      rw [List.cons_append] at h
      cases hs : buildStep strict top ps t with
      | none => obtain ⟨e, he⟩ := h1 hs; rw [he] at h; cases h
      | some a =>
        obtain ⟨c, a⟩ := a
        cases a with
        | inl r =>
          rw [h2 c r hs] at h
          cases h
          exact ⟨_, k2 c root hs⟩
        | inr q =>
          obtain ⟨top', ps'⟩ := q
          rw [h3 c top' ps' hs] at h
          rw [k3 c top' ps' hs]
          refine ih ((buildStep_bottom hs).trans hb) (by have := buildStep_less hs toks; omega) ?_
          rw [← h]
          cases c <;> rfl

theorem build_root {strict : Bool} (n : Nat) {top : Str × List Node} {ps : List (Str × List Node)} {toks : List Tok} {root : Node} {rest : List Tok}
    (hn : 2 * toks.length + ps.length ≤ n) (h : build strict top ps toks = .ok (root, rest)) : ∃ cs, root = .elem (bottom top ps) cs := by
  induction n generalizing top ps toks with
  | zero =>
    have : toks = [] := List.length_eq_zero_iff.mp (by omega)
    subst this
    rw [build_nil] at h
    cases h
  | succ n ih =>
    cases toks with
    | nil => rw [build_nil] at h; cases h
    | cons t toks =>
      obtain ⟨h1, h2, h3⟩ := build_cons (strict := strict) (top := top) (ps := ps) (t := t) toks
      cases hs : buildStep strict top ps t with
      | none => obtain ⟨e, he⟩ := h1 hs; rw [he] at h; cases h
      | some a =>
        obtain ⟨c, a⟩ := a
        cases a with
        | inl r =>
          rw [h2 c r hs] at h
          cases h
          unfold buildStep at hs
          by_cases hc : closes strict top.1 t = true
          · rw [if_pos hc] at hs
            cases ps with
            | nil => cases hs; exact ⟨_, rfl⟩
            | cons p ps => cases hs
          · rw [if_neg hc] at hs
            cases t <;> cases hs
        | inr q =>
          obtain ⟨top', ps'⟩ := q
          rw [h3 c top' ps' hs] at h
          rw [← buildStep_bottom hs]
          exact ih (by have := buildStep_less hs toks; omega) h

/-! ### Tokens that cannot complete the document -/

/-- A token that is no end tag (or, in strict mode, not that of the outermost element), or an
empty-element tag. -/
def Inert (strict : Bool) (tl : List Tok) : Prop :=
  (∃ t, tl = [t] ∧ ∀ n, t = .stop n → strict = true ∧ n ≠ "OFX".toList) ∨ ∃ n, tl = [.start n, .stop n]

theorem ofx_not_leaf : leafElements.contains "OFX".toList = false := by decide +kernel

theorem closes_of_ok {strict : Bool} {t : Tok} {tl : List Tok}
    (hA : ∀ top ps, closes strict top.1 t = false → ∃ e, build strict top ps (t :: tl) = .error e)
    (hB : ∀ n, t = .stop n → tl = []) (top : Str × List Node) (ps : List (Str × List Node)) {r : Node × List Tok}
    (h : build strict top ps (t :: tl) = .ok r) : closes strict (bottom top ps) t = true := by
  induction ps generalizing top with
  | nil =>
    cases hc : closes strict top.1 t with
    | true => exact hc
    | false =>
      obtain ⟨e, he⟩ := hA top [] hc
      rw [he] at h
      cases h
  | cons p ps ih =>
    cases hc : closes strict top.1 t with
    | false =>
      obtain ⟨e, he⟩ := hA top (p :: ps) hc
      rw [he] at h
      cases h
    | true =>
      obtain ⟨_, _, h3⟩ := build_cons (strict := strict) (top := top) (ps := p :: ps) (t := t) tl
      have hs : buildStep strict top (p :: ps) t = some (decide (t = .stop top.1), .inr ((p.1, .elem top.1 top.2.reverse :: p.2), ps)) := by
        unfold buildStep
        rw [if_pos hc]
      rw [h3 _ _ _ hs] at h
      by_cases ht : t = .stop top.1
      · rw [if_pos (decide_eq_true ht), hB _ ht, build_nil] at h
        cases h
      · rw [if_neg (by simpa using ht)] at h
        rw [← ih _ h]
        congr 1
        exact bottom_top (ps := ps) rfl

theorem build_single {strict : Bool} {t : Tok} (top : Str × List Node) (ps : List (Str × List Node)) (hc : closes strict top.1 t = false) :
    ∃ e, build strict top ps [t] = .error e := by
  obtain ⟨h1, _, h3⟩ := build_cons (strict := strict) (top := top) (ps := ps) (t := t) []
  have hn : ¬ closes strict top.1 t = true := by rw [hc]; decide
  cases t with
  | stop n => exact h1 (by unfold buildStep; rw [if_neg hn])
  | start n => exact ⟨_, (h3 true _ _ (by unfold buildStep; rw [if_neg hn])).trans (build_nil ..)⟩
  | text s => exact ⟨_, (h3 true _ _ (by unfold buildStep; rw [if_neg hn])).trans (build_nil ..)⟩
  | proc a b => exact ⟨_, (h3 true _ _ (by unfold buildStep; rw [if_neg hn])).trans (build_nil ..)⟩
  | misc => exact ⟨_, (h3 true _ _ (by unfold buildStep; rw [if_neg hn])).trans (build_nil ..)⟩

theorem build_pair {strict : Bool} {n : Str} (top : Str × List Node) (ps : List (Str × List Node)) (hc : closes strict top.1 (.start n) = false) :
    ∃ e, build strict top ps [.start n, .stop n] = .error e := by
  obtain ⟨_, _, h3⟩ := build_cons (strict := strict) (top := top) (ps := ps) (t := .start n) [.stop n]
  obtain ⟨_, _, k3⟩ := build_cons (strict := strict) (top := (n, [])) (ps := top :: ps) (t := .stop n) []
  have hn : ¬ closes strict top.1 (.start n) = true := by rw [hc]; decide
  have hs : closes strict n (.stop n) = true := by simp [closes]
  rw [h3 true _ _ (by unfold buildStep; rw [if_neg hn])]
  rw [if_pos rfl, k3 true _ _ (by unfold buildStep; rw [if_pos hs]; simp only [decide_true]; rfl)]
  exact ⟨_, build_nil ..⟩

theorem inert_build {strict : Bool} {tl : List Tok} (h : Inert strict tl) (top : Str × List Node) (ps : List (Str × List Node))
    (hb : bottom top ps = "OFX".toList) : ∃ e, build strict top ps tl = .error e := by
  cases hr : build strict top ps tl with
  | error e => exact ⟨e, rfl⟩
  | ok r =>
    exfalso
    rcases h with ⟨t, rfl, ht⟩ | ⟨n, rfl⟩
    · have hc := closes_of_ok (fun top ps => build_single top ps) (fun _ _ => rfl) top ps hr
      rw [hb] at hc
      cases t with
      | stop n =>
        obtain ⟨rfl, hne⟩ := ht n rfl
        simp [closes] at hc
        exact hne hc
      | text s => cases hc
      | start n => simp only [closes, ofx_not_leaf, Bool.and_false] at hc; cases hc
      | proc a b => simp only [closes, ofx_not_leaf, Bool.and_false] at hc; cases hc
      | misc => simp only [closes, ofx_not_leaf, Bool.and_false] at hc; cases hc
    · have hc := closes_of_ok (fun top ps => build_pair top ps) (fun _ h => by cases h) top ps hr
      rw [hb] at hc
      simp only [closes, ofx_not_leaf, Bool.and_false] at hc
      cases hc

/-! ### The document -/

theorem skipBlank_cases (a x : List Tok) :
    (skipBlank a = [] ∧ skipBlank (a ++ x) = skipBlank x) ∨ (skipBlank a ≠ [] ∧ skipBlank (a ++ x) = skipBlank a ++ x) := by
  induction a with
  | nil => exact .inl ⟨rfl, rfl⟩
  | cons t a ih =>
    cases t with
    | text s =>
      rw [List.cons_append]
      simp only [skipBlank]
      by_cases hs : (trimSpace s).isEmpty = true
      · rw [if_pos hs, if_pos hs]; exact ih
      · rw [if_neg hs, if_neg hs]; exact .inr ⟨by simp, rfl⟩
    | start n => exact .inr ⟨by simp [skipBlank], rfl⟩
    | stop n => exact .inr ⟨by simp [skipBlank], rfl⟩
    | proc a b => exact .inr ⟨by simp [skipBlank], rfl⟩
    | misc => exact .inr ⟨by simp [skipBlank], rfl⟩

/-- The body decodes: the OFX element is there. -/
theorem decodeBody_iff {env : Env} {strict : Bool} {v : Nat} {toks : List Tok} {r : Response Message} :
    decodeBody env strict v toks = .ok r ↔
      ∃ rest root left, skipBlank toks = .start "OFX".toList :: rest ∧ build strict ("OFX".toList, []) [] rest = .ok (root, left) ∧
        decodeOfx env v root = .ok r := by
  unfold decodeBody
  constructor
  · intro h
    cases hs : skipBlank toks with
    | nil => rw [hs] at h; cases h
    | cons t rest =>
      rw [hs] at h
      cases t with
      | start n =>
        simp only at h
        cases hb : build strict (n, []) [] rest with
        | error e => rw [hb] at h; cases h
        | ok p =>
          obtain ⟨root, left⟩ := p
          rw [hb] at h
          simp only at h
          have hn : n = "OFX".toList := by
            obtain ⟨cs, hcs⟩ := build_root _ (Nat.le_refl _) hb
            rw [hcs] at h
            unfold decodeOfx at h
            simp only at h
            by_cases hn : n = "OFX".toList
            · exact hn
            · rw [if_neg (show ¬ bottom (n, []) [] = _ from hn)] at h; cases h
          subst hn
          exact ⟨rest, root, left, rfl, hb, h⟩
      | stop n => cases h
      | text n => cases h
      | proc a b => cases h
      | misc => cases h
  · rintro ⟨rest, root, left, h1, h2, h3⟩
    rw [h1]
    simp only [h2]
    exact h3

theorem decodeBody_ext {env : Env} {strict : Bool} {v : Nat} {toks : List Tok} {r : Response Message}
    (h : decodeBody env strict v toks = .ok r) (x : List Tok) : decodeBody env strict v (toks ++ x) = .ok r := by
  obtain ⟨rest, root, left, h1, h2, h3⟩ := decodeBody_iff.mp h
  refine decodeBody_iff.mpr ⟨rest ++ x, root, left ++ x, ?_, build_ext _ (Nat.le_refl _) h2 x, h3⟩
  rcases skipBlank_cases toks x with ⟨h4, _⟩ | ⟨_, h5⟩
  · rw [h4] at h1; cases h1
  · rw [h5, h1]; rfl

theorem decodeOfx_empty {env : Env} {v : Nat} {n : Str} {r : Response Message} : decodeOfx env v (.elem n []) ≠ .ok r := by
  unfold decodeOfx
  intro h
  simp only at h
  by_cases hn : n = "OFX".toList
  · rw [if_pos hn] at h
    cases h
  · rw [if_neg hn] at h; cases h

theorem inert_body {env : Env} {strict : Bool} {v : Nat} {tl : List Tok} {r : Response Message} (hi : Inert strict tl) :
    decodeBody env strict v tl ≠ .ok r := by
  intro h
  obtain ⟨rest, root, left, h1, h2, h3⟩ := decodeBody_iff.mp h
  rcases hi with ⟨t, rfl, ht⟩ | ⟨n, rfl⟩
  · have : rest = [] := by
      cases t with
      | text s =>
        simp only [skipBlank] at h1
        by_cases hs : (trimSpace s).isEmpty = true
        · rw [if_pos hs] at h1; cases h1
        · rw [if_neg hs] at h1; cases h1
      | start n => exact (List.cons.inj h1).2.symm
      | stop n => cases h1
      | proc a b => cases h1
      | misc => cases h1
    subst this
    rw [build_nil] at h2
    cases h2
  · cases h1
    obtain ⟨_, k2, _⟩ := build_cons (strict := strict) (top := ("OFX".toList, [])) (ps := []) (t := .stop "OFX".toList) []
    have hs : closes strict "OFX".toList (.stop "OFX".toList) = true := by simp [closes]
    rw [k2 true _ (by unfold buildStep; rw [if_pos hs]; simp only [decide_true]; rfl)] at h2
    cases h2
    exact decodeOfx_empty h3

theorem decodeBody_drop {env : Env} {strict : Bool} {v : Nat} {toks tl : List Tok} {r : Response Message} (hi : Inert strict tl)
    (h : decodeBody env strict v (toks ++ tl) = .ok r) : decodeBody env strict v toks = .ok r := by
  rcases skipBlank_cases toks tl with ⟨h1, h2⟩ | ⟨h1, h2⟩
  · exfalso
    refine inert_body (env := env) (v := v) (r := r) hi ?_
    rw [← h]
    unfold decodeBody
    rw [h2]
  · obtain ⟨rest, root, left, h3, h4, h5⟩ := decodeBody_iff.mp h
    rw [h2] at h3
    cases hs : skipBlank toks with
    | nil => exact absurd hs h1
    | cons t rest' =>
      rw [hs] at h3
      cases h3
      obtain ⟨left', h6⟩ := build_drop _ (inert_build hi) (show bottom ("OFX".toList, []) [] = _ from rfl) (Nat.le_refl _) h4
      exact decodeBody_iff.mpr ⟨rest', root, left', hs, h6, h5⟩

/-- The tokens of an XML document. -/
def decodeXML (env : Env) (toks : List Tok) : Except String (Response Message) :=
  match readXMLHeaders toks with
  | .error e => .error e
  | .ok (version, toks) => decodeBody env true version toks

theorem readXML_iff {toks rest : List Tok} {v : Nat} :
    readXMLHeaders toks = .ok (v, rest) ↔
      ∃ i r1 inst, skipBlank toks = .proc "xml".toList i :: r1 ∧ skipBlank r1 = .proc "OFX".toList inst :: rest ∧
        checkXMLHeader inst = .ok v := by
  unfold readXMLHeaders
  constructor
  · intro h
    split at h
    · rename_i target i r1 h1
      by_cases ht : target = "xml".toList
      · rw [if_pos ht] at h
        subst ht
        split at h
        · rename_i target' inst r2 h2
          by_cases ht' : target' = "OFX".toList
          · rw [if_pos ht'] at h
            subst ht'
            cases hc : checkXMLHeader inst with
            | error e => rw [hc] at h; cases h
            | ok v' => rw [hc] at h; cases h; exact ⟨i, r1, inst, h1, h2, hc⟩
          · rw [if_neg ht'] at h; cases h
        · cases h
      · rw [if_neg ht] at h; cases h
    · cases h
  · rintro ⟨i, r1, inst, h1, h2, h3⟩
    rw [h1]
    simp only [if_true]
    rw [h2]
    simp only [if_true, h3]

theorem decodeXML_iff {env : Env} {toks : List Tok} {r : Response Message} :
    decodeXML env toks = .ok r ↔ ∃ v rest, readXMLHeaders toks = .ok (v, rest) ∧ decodeBody env true v rest = .ok r := by
  unfold decodeXML
  cases h : readXMLHeaders toks with
  | error e => exact ⟨(fun h => by cases h), (fun ⟨_, _, h, _⟩ => by cases h)⟩
  | ok p =>
    obtain ⟨v, rest⟩ := p
    exact ⟨fun h => ⟨v, rest, rfl, h⟩, fun ⟨_, _, h, h2⟩ => by cases h; exact h2⟩

theorem decodeXML_ext {env : Env} {toks : List Tok} {r : Response Message}
    (h : decodeXML env toks = .ok r) (x : List Tok) : decodeXML env (toks ++ x) = .ok r := by
  obtain ⟨v, rest, h1, h2⟩ := decodeXML_iff.mp h
  obtain ⟨i, r1, inst, h3, h4, h5⟩ := readXML_iff.mp h1
  refine decodeXML_iff.mpr ⟨v, rest ++ x, readXML_iff.mpr ⟨i, r1 ++ x, inst, ?_, ?_, h5⟩, decodeBody_ext h2 x⟩
  · rcases skipBlank_cases toks x with ⟨h6, _⟩ | ⟨_, h6⟩
    · rw [h6] at h3; cases h3
    · rw [h6, h3]; rfl
  · rcases skipBlank_cases r1 x with ⟨h6, _⟩ | ⟨_, h6⟩
    · rw [h6] at h4; cases h4
    · rw [h6, h4]; rfl

/-- An inert end leaves nothing for the body when the header reaches into it. -/
theorem inert_proc {strict : Bool} {tl : List Tok} (hi : Inert strict tl) {a b : Str} {rest : List Tok}
    (h : skipBlank tl = .proc a b :: rest) : rest = [] := by
  rcases hi with ⟨t, rfl, _⟩ | ⟨n, rfl⟩
  · cases t with
    | text s =>
      simp only [skipBlank] at h
      by_cases hs : (trimSpace s).isEmpty = true
      · rw [if_pos hs] at h; cases h
      · rw [if_neg hs] at h; cases h
    | proc a' b' => exact (List.cons.inj h).2.symm
    | start n => cases h
    | stop n => cases h
    | misc => cases h
  · cases h

theorem decodeXML_drop {env : Env} {toks tl : List Tok} {r : Response Message} (hi : Inert true tl)
    (h : decodeXML env (toks ++ tl) = .ok r) : decodeXML env toks = .ok r := by
  obtain ⟨v, rest, h1, h2⟩ := decodeXML_iff.mp h
  obtain ⟨i, r1, inst, h3, h4, h5⟩ := readXML_iff.mp h1
  rcases skipBlank_cases toks tl with ⟨h6, h7⟩ | ⟨h6, h7⟩
  · rw [h7] at h3
    have := inert_proc hi h3
    subst this
    cases h4
  · rw [h7] at h3
    cases hs : skipBlank toks with
    | nil => exact absurd hs h6
    | cons t r1' =>
      rw [hs] at h3
      cases h3
      rw [show r1'.append tl = r1' ++ tl from rfl] at h4
      rcases skipBlank_cases r1' tl with ⟨h8, h9⟩ | ⟨h8, h9⟩
      · rw [h9] at h4
        have := inert_proc hi h4
        subst this
        obtain ⟨_, _, _, h10, _⟩ := decodeBody_iff.mp h2
        cases h10
      · rw [h9] at h4
        cases hs' : skipBlank r1' with
        | nil => exact absurd hs' h8
        | cons t' rest' =>
          rw [hs'] at h4
          cases h4
          exact decodeXML_iff.mpr ⟨v, rest', readXML_iff.mpr ⟨i, r1', inst, hs, hs', h5⟩, decodeBody_drop hi h2⟩

end Ofx
