import Verif.Spec.Grammar
/-
The grammar of elements (Spec/Grammar) is what the bookkeeping of open elements accepts.
-/
namespace Ofx
open Spec

theorem closes_iff {strict : Bool} {n : Str} {t : Tok} :
    closes strict n t = true ↔ t = .stop n ∨ (strict = false ∧ EndsBefore n t) := by
  cases t with
  | stop m =>
    simp only [closes, EndsBefore, Bool.or_eq_true, beq_iff_eq, Bool.not_eq_true', Tok.stop.injEq]
    by_cases h : m = n <;> simp [h]
  | text s => simp [closes, EndsBefore]
  | start m => simp [closes, EndsBefore]
  | proc m i => simp [closes, EndsBefore]
  | misc => simp [closes, EndsBefore]

theorem content_length {sgml : Bool} {n : Str} {ts rest : List Tok} {cs : List Node} (h : Content sgml n ts cs rest) :
    rest.length ≤ ts.length := by
  induction h with
  | closed => simp
  | leftOpen _ _ => exact Nat.le_refl _
  | text _ ih => simp; omega
  | misc _ _ _ ih => simp; omega
  | child _ _ _ ih ih' => simp; omega

/-- What is done after the element `n` with children `cs`. -/
def closeElem (strict : Bool) (e : Node) (parents : List (Str × List Node)) (rest : List Tok) : Except String (Node × List Tok) :=
  match parents with
  | [] => .ok (e, rest)
  | p :: ps => build strict (p.1, e :: p.2) ps rest

theorem content_build {strict : Bool} {n : Str} {ts rest : List Tok} {cs : List Node} (h : Content (!strict) n ts cs rest) :
    ∀ (acc : List Node) (parents : List (Str × List Node)),
      build strict (n, acc) parents ts = closeElem strict (.elem n (acc.reverse ++ cs)) parents rest := by
  induction h with
  | @closed n rest =>
    intro acc parents
    conv_lhs => unfold build
    simp only
    rw [if_pos (closes_iff.mpr (.inl rfl)), if_pos trivial]
    cases parents <;> simp [closeElem]
  | @leftOpen n t rest hs he =>
    intro acc parents
    conv_lhs => unfold build
    simp only
    rw [if_pos (closes_iff.mpr (.inr ⟨by simpa using hs, he⟩))]
    have ht : t ≠ .stop n := by rintro rfl; exact he rfl
    rw [if_neg ht]
    cases parents <;> simp [closeElem]
  | @text n s ts rest cs _ ih =>
    intro acc parents
    conv_lhs => unfold build
    simp only
    rw [if_neg (by simp [closes]), ih]
    simp
  | @misc n t ts rest cs ht hn _ ih =>
    intro acc parents
    conv_lhs => unfold build
    simp only
    have hc : ¬ closes strict n t = true := by
      rw [closes_iff]
      rintro (rfl | ⟨hs, he⟩)
      · rcases ht with h | ⟨m, i, h⟩ <;> cases h
      · rcases ht with rfl | ⟨m, i, rfl⟩
        · exact hn ⟨by simp [hs], he⟩
        · exact hn ⟨by simp [hs], he⟩
    rw [if_neg hc]
    rcases ht with rfl | ⟨m, i, rfl⟩
    · simp only; rw [ih]; simp
    · simp only; rw [ih]; simp
  | @child n m ts ts' rest ch cs hn _ _ ih ih' =>
    intro acc parents
    conv_lhs => unfold build
    simp only
    have hc : ¬ closes strict n (.start m) = true := by
      rw [closes_iff]
      rintro (h | ⟨hs, he⟩)
      · cases h
      · exact hn ⟨by simp [hs], he⟩
    rw [if_neg hc, ih]
    simp only [closeElem, List.reverse_nil, List.nil_append]
    rw [ih']
    simp [closeElem]

theorem build_content {strict : Bool} : ∀ (k : Nat) (ts : List Tok), ts.length ≤ k → ∀ (n : Str) (acc : List Node)
    (parents : List (Str × List Node)) (x : Node × List Tok), build strict (n, acc) parents ts = .ok x →
    ∃ cs rest, Content (!strict) n ts cs rest := by
  intro k
  induction k with
  | zero =>
    intro ts hk n acc parents x h
    have : ts = [] := List.length_eq_zero_iff.mp (by omega)
    subst this
    unfold build at h
    cases h
  | succ k ih =>
    intro ts hk n acc parents x h
    cases ts with
    | nil => unfold build at h; cases h
    | cons t ts =>
      simp only [List.length_cons] at hk
      by_cases hc : closes strict n t = true
      · rcases closes_iff.mp hc with rfl | ⟨hs, he⟩
        · exact ⟨_, _, .closed⟩
        · exact ⟨_, _, .leftOpen (by simp [hs]) he⟩
      · unfold build at h
        simp only at h
        rw [if_neg hc] at h
        have hn : (∀ s, t ≠ .text s) → (∀ m, t ≠ .stop m) → ¬ ((!strict) = true ∧ n ∈ leafElements) := by
          rintro h1 h2 ⟨hs, hn⟩
          apply hc
          rw [closes_iff]
          right
          refine ⟨by simpa using hs, ?_⟩
          cases t with
          | stop m => exact absurd rfl (h2 m)
          | text s => exact absurd rfl (h1 s)
          | _ => exact hn
        cases t with
        | stop m => cases h
        | text s =>
          obtain ⟨cs, rest, h'⟩ := ih ts (by omega) _ _ _ _ h
          exact ⟨_, _, .text h'⟩
        | misc =>
          obtain ⟨cs, rest, h'⟩ := ih ts (by omega) _ _ _ _ h
          exact ⟨_, _, .misc (.inl rfl) (hn (by simp) (by simp)) h'⟩
        | proc m i =>
          obtain ⟨cs, rest, h'⟩ := ih ts (by omega) _ _ _ _ h
          exact ⟨_, _, .misc (.inr ⟨m, i, rfl⟩) (hn (by simp) (by simp)) h'⟩
        | start m =>
          obtain ⟨ch, ts', h'⟩ := ih ts (by omega) _ _ _ _ h
          replace h : build strict (m, []) ((n, acc) :: parents) ts = .ok x := h
          rw [content_build h'] at h
          simp only [closeElem] at h
          have hl := content_length h'
          obtain ⟨cs, rest, h''⟩ := ih ts' (by omega) _ _ _ _ h
          exact ⟨_, _, .child (hn (by simp) (by simp)) h' h''⟩

/-- The element read is the one the grammar describes. -/
theorem build_iff {strict : Bool} {n : Str} {ts rest : List Tok} {root : Node} :
    build strict (n, []) [] ts = .ok (root, rest) ↔ ∃ cs, Content (!strict) n ts cs rest ∧ root = .elem n cs := by
  constructor
  · intro h
    obtain ⟨cs, rest', h'⟩ := build_content _ ts (Nat.le_refl _) _ _ _ _ h
    rw [content_build h'] at h
    simp only [closeElem, List.reverse_nil, List.nil_append, Except.ok.injEq, Prod.mk.injEq] at h
    obtain ⟨rfl, rfl⟩ := h
    exact ⟨cs, h', rfl⟩
  · rintro ⟨cs, h, rfl⟩
    rw [content_build h]
    simp [closeElem]

/-- What follows the pieces needed does not matter. -/
theorem content_append {sgml : Bool} {n : Str} {ts rest : List Tok} {cs : List Node} (h : Content sgml n ts cs rest) (more : List Tok) :
    Content sgml n (ts ++ more) cs (rest ++ more) := by
  induction h with
  | closed => exact .closed
  | leftOpen hs he => exact .leftOpen hs he
  | text _ ih => exact .text ih
  | misc ht hn _ ih => exact .misc ht hn ih
  | child hn _ _ ih ih' => exact .child hn ih ih'

/-- Only finitely many pieces are needed, and the last one is not character data. -/
theorem content_needs {sgml : Bool} {n : Str} {ts rest : List Tok} {cs : List Node} (h : Content sgml n ts cs rest) :
    ∃ used t more rest', (∀ s, t ≠ .text s) ∧ ts = used ++ t :: more ∧ rest = rest' ++ more ∧
      Content sgml n (used ++ [t]) cs rest' := by
  induction h with
  | @closed n rest => exact ⟨[], .stop n, rest, [], by simp, rfl, rfl, .closed⟩
  | @leftOpen n t rest hs he =>
    exact ⟨[], t, rest, [t], by rintro s rfl; exact he, rfl, rfl, .leftOpen hs he⟩
  | @text n s ts rest cs _ ih =>
    obtain ⟨used, t, more, rest', h1, rfl, rfl, h4⟩ := ih
    exact ⟨.text s :: used, t, more, rest', h1, rfl, rfl, .text h4⟩
  | @misc n u ts rest cs ht hn _ ih =>
    obtain ⟨used, t, more, rest', h1, rfl, rfl, h4⟩ := ih
    exact ⟨u :: used, t, more, rest', h1, rfl, rfl, .misc ht hn h4⟩
  | @child n m ts ts' rest ch cs hn _ _ ih ih' =>
    obtain ⟨used, t, more, rest1, h1, rfl, rfl, h4⟩ := ih
    obtain ⟨used', t', more', rest2, h1', h2', rfl, h4'⟩ := ih'
    -- the second element's pieces are `rest1 ++ more`
    rcases List.append_eq_append_iff.mp h2' with ⟨a, ha, hb⟩ | ⟨a, ha, hb⟩
    · -- `used' = rest1 ++ a`, `more = a ++ t' :: more'`
      subst ha hb
      refine ⟨.start m :: (used ++ t :: a), t', more', rest2, h1', by simp, rfl, ?_⟩
      have h5 := content_append h4 (a ++ [t'])
      rw [List.append_assoc] at h4'
      have := Content.child hn h5 h4'
      simpa using this
    · -- `rest1 = used' ++ a`, `t' :: more' = a ++ more`
      cases a with
      | nil =>
        simp only [List.nil_append] at hb
        subst hb
        simp only [List.append_nil] at ha
        subst ha
        refine ⟨.start m :: (used ++ [t]), t', more', rest2, h1', by simp, rfl, ?_⟩
        have h5 := content_append h4 [t']
        simpa using Content.child hn h5 h4'
      | cons x a =>
        simp only [List.cons_append, List.cons.injEq] at hb
        obtain ⟨rfl, rfl⟩ := hb
        subst ha
        refine ⟨.start m :: used, t, more, rest2 ++ a, h1, by simp, by simp, ?_⟩
        have h5 := content_append h4' a
        have : Content sgml m (used ++ [t]) ch (used' ++ [t'] ++ a) := by simpa using h4
        simpa using Content.child hn this h5

end Ofx
