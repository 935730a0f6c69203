import Verif.Lemmas.Lexer
import Verif.Model.Decode
/-
Every token of markup is determined by the characters it consists of: what follows it does
not matter.
-/
namespace Ofx

theorem dropWhile_exact {p : Char → Bool} {s : Str} {x : Str} (h : x.head? = (s.dropWhile p).head?) :
    (s.takeWhile p ++ x).takeWhile p = s.takeWhile p ∧ (s.takeWhile p ++ x).dropWhile p = x := by
  induction s with
  | nil =>
    cases x with
    | nil => exact ⟨rfl, rfl⟩
    | cons c x => cases h
  | cons c s ih =>
    cases hc : p c with
    | true =>
      rw [List.dropWhile_cons, if_pos hc] at h
      obtain ⟨h1, h2⟩ := ih h
      rw [List.takeWhile_cons, if_pos hc, List.cons_append, List.takeWhile_cons, if_pos hc, List.dropWhile_cons, if_pos hc]
      exact ⟨by rw [h1], h2⟩
    | false =>
      have hn : ¬ p c = true := by rw [hc]; decide
      rw [List.dropWhile_cons, if_neg hn] at h
      rw [List.takeWhile_cons, if_neg hn]
      cases x with
      | nil => cases h
      | cons d x =>
        cases h
        rw [List.nil_append, List.takeWhile_cons, if_neg hn, List.dropWhile_cons, if_neg hn]
        exact ⟨rfl, rfl⟩

theorem head_append {u x r : Str} (hu : u ≠ []) : (u ++ x).head? = (u ++ r).head? := by
  cases u with
  | nil => exact absurd rfl hu
  | cons c u => rfl

theorem lexName_exact {nt : NameTable} {s n r : Str} (h : lexName nt s = some (n, r)) :
    n ≠ [] ∧ s = n ++ r ∧ ∀ x : Str, x.head? = r.head? → lexName nt (n ++ x) = some (n, x) := by
  unfold lexName at h
  by_cases hn : nt.isName (s.takeWhile isNameByte) = true
  · rw [if_pos hn] at h
    cases h
    refine ⟨?_, (List.takeWhile_append_dropWhile).symm, ?_⟩
    · intro e
      rw [e] at hn
      cases hn
    · intro x hx
      obtain ⟨h1, h2⟩ := dropWhile_exact hx
      unfold lexName
      rw [h1, h2, if_pos hn]
  · rw [if_neg hn] at h
    cases h

/-- White space and what follows it. -/
theorem skipSpace_exact {s r : Str} (h : skipSpace s = r) :
    ∃ w, s = w ++ r ∧ ∀ x : Str, x.head? = r.head? → skipSpace (w ++ x) = x := by
  subst h
  exact ⟨s.takeWhile isXmlSpace, (List.takeWhile_append_dropWhile).symm, fun x hx => (dropWhile_exact hx).2⟩

theorem cut_exact {sep s a r : Str} (h : cut sep s = some (a, r)) (hs : sep ≠ []) :
    s = a ++ sep ++ r ∧ ∀ x : Str, cut sep (a ++ sep ++ x) = some (a, x) := by
  refine ⟨cut_eq h, ?_⟩
  induction s generalizing a with
  | nil =>
    unfold cut at h
    rw [if_neg (by simpa using hs)] at h
    cases h
  | cons c s ih =>
    intro x
    have he := cut_eq h
    unfold cut at h
    by_cases hp : sep.isPrefixOf (c :: s) = true
    · rw [if_pos hp] at h
      cases h
      cases sep with
      | nil => exact absurd rfl hs
      | cons y ys =>
        rw [List.nil_append, List.cons_append]
        unfold cut
        rw [if_pos (by rw [List.isPrefixOf_iff_prefix]; exact ⟨x, rfl⟩)]
        rw [← List.cons_append, List.drop_left]
    · rw [if_neg hp] at h
      cases hc : cut sep s with
      | none => rw [hc] at h; cases h
      | some y =>
        obtain ⟨a', b'⟩ := y
        rw [hc] at h
        cases h
        have hs' := cut_eq hc
        rw [show c :: a' ++ sep ++ x = c :: (a' ++ sep ++ x) from by simp]
        unfold cut
        rw [if_neg]
        · rw [ih hc x]
        · intro hp'
          apply hp
          rw [List.isPrefixOf_iff_prefix] at hp' ⊢
          -- both lists share the first `a'.length + 1 + sep.length` characters
          rw [hs', show c :: (a' ++ sep ++ r) = (c :: (a' ++ sep)) ++ r from by simp]
          rw [show c :: (a' ++ sep ++ x) = (c :: (a' ++ sep)) ++ x from by simp] at hp'
          have := List.prefix_of_prefix_length_le hp' (List.prefix_append _ _) (by simp; omega)
          exact this.trans (List.prefix_append _ _)

theorem afterComment_exact {s r : Str} (h : afterComment s = some r) :
    ∃ u, u ≠ [] ∧ s = u ++ r ∧ ∀ x : Str, afterComment (u ++ x) = some x := by
  induction s with
  | nil => cases h
  | cons c s ih =>
    unfold afterComment at h
    by_cases hc : c = '-'
    · rw [if_pos hc] at h
      subst hc
      match s, h, ih with
      | [], h, _ => cases h
      | '-' :: '>' :: s', h, _ =>
        cases h
        exact ⟨"-->".toList, by decide, rfl, fun x => by rfl⟩
      | d :: s', h, ih =>
        by_cases hd : d = '-'
        · subst hd
          match s', h with
          | [], h => cases h
          | e :: s'', h =>
            by_cases he : e = '>'
            · subst he
              cases h
              exact ⟨"-->".toList, by decide, rfl, fun x => by rfl⟩
            · exfalso
              split at h
              · rename_i heq; cases heq; exact he rfl
              · cases h
              · rename_i hn1 hn2; exact hn2 _ rfl
        · have h' : afterComment (d :: s') = some r := by
            split at h
            · rename_i heq; cases heq; exact absurd rfl hd
            · rename_i heq; cases heq; exact absurd rfl hd
            · exact h
          obtain ⟨u, hu, e, hx⟩ := ih h'
          refine ⟨'-' :: u, by simp, by rw [e]; rfl, fun x => ?_⟩
          cases u with
          | nil => exact absurd rfl hu
          | cons d' u =>
            cases e
            rw [List.cons_append, List.cons_append]
            unfold afterComment
            rw [if_pos rfl]
            split
            · rename_i heq; exact absurd (List.cons.inj heq).1 hd
            · rename_i heq; exact absurd (List.cons.inj heq).1 hd
            · exact hx x
    · rw [if_neg hc] at h
      obtain ⟨u, hu, e, hx⟩ := ih h
      refine ⟨c :: u, by simp, by rw [e]; rfl, fun x => ?_⟩
      rw [List.cons_append]
      unfold afterComment
      rw [if_neg hc]
      exact hx x

theorem afterDirective_exact {s r : Str} {q : DirMode} {d : Nat} (h : afterDirective q d s = some r) :
    ∃ u, u ≠ [] ∧ s = u ++ r ∧ ∀ x : Str, afterDirective q d (u ++ x) = some x := by
  induction s generalizing q d with
  | nil => cases h
  | cons c s ih =>
    unfold afterDirective at h
    cases hs : dirStep q d c with
    | none =>
      rw [hs] at h
      cases h
      exact ⟨[c], by simp, rfl, fun x => by rw [List.singleton_append]; unfold afterDirective; rw [hs]⟩
    | some p =>
      rw [hs] at h
      obtain ⟨u, hu, es, hx⟩ := ih h
      refine ⟨c :: u, by simp, by rw [es]; rfl, fun x => ?_⟩
      rw [List.cons_append]
      unfold afterDirective
      rw [hs]
      exact hx x

theorem afterAttrVal_exact {strict : Bool} {s r : Str} (h : afterAttrVal strict s = some r) :
    ∃ u, s = u ++ r ∧ ∀ x : Str, x.head? = r.head? → afterAttrVal strict (u ++ x) = some x := by
  cases s with
  | nil => cases h
  | cons q s =>
    unfold afterAttrVal at h
    simp only at h
    by_cases hq : q = '"' ∨ q = '\''
    · rw [if_pos hq] at h
      cases hd : s.dropWhile (fun c => c != q && c != '<') with
      | nil => rw [hd] at h; cases h
      | cons c r' =>
        rw [hd] at h
        simp only at h
        by_cases hc : c = q
        · rw [if_pos hc] at h
          subst hc
          cases ht : textToken strict (s.takeWhile (fun d => d != c && d != '<')) with
          | none => rw [ht] at h; cases h
          | some t =>
            rw [ht] at h
            cases h
            have e : s = s.takeWhile (fun d => d != c && d != '<') ++ c :: r' := by
              rw [← hd, List.takeWhile_append_dropWhile]
            refine ⟨c :: (s.takeWhile (fun d => d != c && d != '<') ++ [c]), ?_, ?_⟩
            · conv_lhs => rw [e]
              simp
            · intro x _
              obtain ⟨h1, h2⟩ := dropWhile_exact (p := fun d => d != c && d != '<') (s := s) (x := c :: x) (by rw [hd]; rfl)
              rw [show c :: (s.takeWhile (fun d => d != c && d != '<') ++ [c]) ++ x =
                c :: (s.takeWhile (fun d => d != c && d != '<') ++ c :: x) from by simp]
              unfold afterAttrVal
              simp only
              rw [if_pos hq, h1, h2]
              simp only [if_true]
              rw [ht]
              rfl
        · rw [if_neg hc] at h; cases h
    · rw [if_neg hq] at h
      cases strict with
      | true => cases h
      | false =>
        rw [if_neg (by decide)] at h
        have h := Option.some.inj h
        refine ⟨(q :: s).takeWhile (fun c => c.isAlphanum || c == '_' || c == ':' || c == '-'), ?_, ?_⟩
        · rw [← h, List.takeWhile_append_dropWhile]
        · intro x hx
          rw [← h] at hx
          obtain ⟨h1, h2⟩ := dropWhile_exact hx
          have hh : ∃ y, (q :: s).takeWhile (fun c => c.isAlphanum || c == '_' || c == ':' || c == '-') ++ x = q :: y := by
            by_cases hp : (q.isAlphanum || q == '_' || q == ':' || q == '-') = true
            · rw [List.takeWhile_cons, if_pos hp]
              exact ⟨_, rfl⟩
            · rw [List.dropWhile_cons, if_neg hp] at hx
              rw [List.takeWhile_cons, if_neg hp]
              cases x with
              | nil => cases hx
              | cons y x => cases hx; exact ⟨x, rfl⟩
          obtain ⟨y, hy⟩ := hh
          rw [hy] at h2 ⊢
          unfold afterAttrVal
          simp only
          rw [if_neg hq, if_neg (by decide), h2]

theorem afterAttrs_exact {strict : Bool} {nt : NameTable} {fuel : Nat} {s r : Str} {b : Bool}
    (h : afterAttrs strict nt fuel s = some (b, r)) :
    ∃ u, u ≠ [] ∧ s = u ++ r ∧ ∀ (x : Str) (n : Nat), u.length ≤ n → afterAttrs strict nt n (u ++ x) = some (b, x) := by
  induction fuel generalizing s with
  | zero => cases h
  | succ fuel ih =>
    unfold afterAttrs at h
    obtain ⟨w, hw, hwx⟩ := skipSpace_exact (s := s) rfl
    cases hs : skipSpace s with
    | nil => rw [hs] at h; cases h
    | cons c s1 =>
      rw [hs] at h hw hwx
      simp only at h
      -- the white space before whatever it is
      have go : ∀ u1, u1 ≠ [] → c :: s1 = u1 ++ r →
          (∀ (x : Str) (n : Nat), w.length + u1.length ≤ n + 1 → (∃ y, u1 ++ x = c :: y) →
            afterAttrs strict nt (n + 1) (w ++ (u1 ++ x)) = some (b, x)) →
          ∃ u, u ≠ [] ∧ s = u ++ r ∧ ∀ (x : Str) (n : Nat), u.length ≤ n → afterAttrs strict nt n (u ++ x) = some (b, x) := by
        intro u1 hu1 e hx
        refine ⟨w ++ u1, by simp [hu1], by rw [hw, e]; simp, ?_⟩
        intro x n hn
        cases n with
        | zero =>
          rw [List.length_append] at hn
          have := List.length_pos_iff.mpr hu1
          omega
        | succ n =>
          rw [List.append_assoc]
          refine hx x n (by rw [List.length_append] at hn; exact hn) ?_
          cases u1 with
          | nil => exact absurd rfl hu1
          | cons d u1 => cases e; exact ⟨_, rfl⟩
      by_cases h1 : c = '/'
      · rw [if_pos h1] at h
        subst h1
        match s1, h, hs with
        | [], h, _ => cases h
        | d :: s2, h, _ =>
          by_cases hd : d = '>'
          · subst hd
            cases h
            refine go "/>".toList (by decide) rfl ?_
            intro x n hn _
            unfold afterAttrs
            rw [hwx ("/>".toList ++ x) rfl]
            rfl
          · exfalso
            split at h
            · rename_i heq; exact hd (List.cons.inj heq).1
            · cases h
      · rw [if_neg h1] at h
        by_cases h2 : c = '>'
        · rw [if_pos h2] at h
          subst h2
          cases h
          refine go [ '>' ] (by decide) rfl ?_
          intro x n hn _
          unfold afterAttrs
          rw [hwx (['>'] ++ x) rfl]
          rfl
        · rw [if_neg h2] at h
          cases hn : lexName nt (c :: s1) with
          | none => rw [hn] at h; cases h
          | some p =>
            obtain ⟨nm, r1⟩ := p
            rw [hn] at h
            simp only at h
            obtain ⟨hnm, hne, hnx⟩ := lexName_exact hn
            obtain ⟨w1, hw1, hw1x⟩ := skipSpace_exact (s := r1) rfl
            cases hs1 : skipSpace r1 with
            | nil => rw [hs1] at h; cases h
            | cons e r2 =>
              rw [hs1] at h hw1 hw1x
              simp only at h
              -- the name and the white space after it
              have go2 : ∀ u2, u2 ≠ [] → e :: r2 = u2 ++ r →
                  (∀ (x : Str) (n : Nat), u2.length ≤ n → (∃ y, u2 ++ x = e :: y) →
                    (∀ y, u2 ++ x = e :: y →
                      (if e = '=' then
                        match afterAttrVal strict (skipSpace y) with
                        | some r3 => afterAttrs strict nt n r3
                        | none => none
                      else if strict then none
                      else afterAttrs strict nt n (e :: y)) = some (b, x))) →
                  ∃ u, u ≠ [] ∧ s = u ++ r ∧ ∀ (x : Str) (n : Nat), u.length ≤ n → afterAttrs strict nt n (u ++ x) = some (b, x) := by
                intro u2 hu2 e2 hx
                refine go (nm ++ (w1 ++ u2)) (by simp [hnm]) (by rw [hne, hw1, e2]; simp) ?_
                intro x n hl hy
                obtain ⟨y, hy⟩ := hy
                have hy2 : ∃ y, u2 ++ x = e :: y := by
                  cases u2 with
                  | nil => exact absurd rfl hu2
                  | cons d u2 => cases e2; exact ⟨_, rfl⟩
                have hu2l : u2.length ≤ n := by
                  have := List.length_pos_iff.mpr hnm
                  simp only [List.length_append] at hl
                  omega
                have hres := hx x n hu2l hy2
                obtain ⟨z, hz⟩ := hy2
                have hh : (w1 ++ (u2 ++ x)).head? = r1.head? := by
                  rw [hw1, e2]
                  cases w1 with
                  | nil => rw [List.nil_append, List.nil_append]; exact head_append hu2
                  | cons _ _ => rfl
                unfold afterAttrs
                rw [hwx _ (by rw [hy]; rfl), hy]
                simp only
                rw [if_neg h1, if_neg h2, ← hy, List.append_assoc, List.append_assoc, hnx _ hh]
                simp only
                rw [hw1x _ (by rw [hz]; rfl), hz]
                simp only
                exact hres z hz
              by_cases he : e = '='
              · rw [if_pos he] at h
                subst he
                cases ha : afterAttrVal strict (skipSpace r2) with
                | none => rw [ha] at h; cases h
                | some r3 =>
                  rw [ha] at h
                  simp only at h
                  obtain ⟨w3, hw3, hw3x⟩ := skipSpace_exact (s := r2) rfl
                  obtain ⟨u3, hu3, hu3x⟩ := afterAttrVal_exact ha
                  obtain ⟨u4, hu4, hu4e, hu4x⟩ := ih h
                  refine go2 ('=' :: (w3 ++ (u3 ++ u4))) (by simp) (by rw [hw3, hu3, hu4e]; simp) ?_
                  intro x n hl _ y hy
                  have hy := (List.cons.inj hy).2
                  rw [if_pos rfl]
                  subst hy
                  have hsk : skipSpace (w3 ++ (u3 ++ u4) ++ x) = u3 ++ (u4 ++ x) := by
                    rw [List.append_assoc, List.append_assoc]
                    apply hw3x
                    rw [hu3, hu4e]
                    cases u3 with
                    | nil => rw [List.nil_append, List.nil_append]; exact head_append hu4
                    | cons _ _ => rfl
                  rw [show (w3 ++ (u3 ++ u4)).append x = w3 ++ (u3 ++ u4) ++ x from rfl, hsk,
                    hu3x (u4 ++ x) (by rw [hu4e]; exact head_append hu4)]
                  simp only
                  refine hu4x x n ?_
                  simp only [List.length_append, List.length_cons] at hl
                  omega
              · rw [if_neg he] at h
                cases strict with
                | true => cases h
                | false =>
                  rw [if_neg (by decide)] at h
                  obtain ⟨u4, hu4, hu4e, hu4x⟩ := ih h
                  refine go2 u4 hu4 hu4e ?_
                  intro x n hl _ y hy
                  rw [if_neg he, if_neg (by decide), ← hy]
                  exact hu4x x n hl

theorem lexStop_exact {nt : NameTable} {s r : Str} {ts : List Tok} (h : lexStop nt s = some (ts, r)) :
    ∃ n w, n ≠ [] ∧ (∀ c ∈ w, isXmlSpace c = true) ∧ s = n ++ w ++ ['>'] ++ r ∧ ts = [.stop n] ∧
      ∀ x : Str, lexStop nt (n ++ w ++ ['>'] ++ x) = some (ts, x) := by
  unfold lexStop at h
  cases hn : lexName nt s with
  | none => rw [hn] at h; cases h
  | some p =>
    obtain ⟨n, r1⟩ := p
    rw [hn] at h
    simp only at h
    obtain ⟨hne, hs, hx⟩ := lexName_exact hn
    cases hk : skipSpace r1 with
    | nil => rw [hk] at h; cases h
    | cons c r2 =>
      rw [hk] at h
      by_cases hc : c = '>'
      · subst hc
        cases h
        have hw : r1 = r1.takeWhile isXmlSpace ++ '>' :: r := by
          rw [← hk]
          exact (List.takeWhile_append_dropWhile).symm
        refine ⟨n, r1.takeWhile isXmlSpace, hne, fun c hc => (List.all_eq_true.mp List.all_takeWhile) c hc, ?_, rfl, ?_⟩
        · conv_lhs => rw [hs, hw]
          simp
        · intro x
          have hk' : x.length = x.length → ('>' :: x).head? = (r1.dropWhile isXmlSpace).head? := by
            intro _
            rw [show r1.dropWhile isXmlSpace = skipSpace r1 from rfl, hk]
            rfl
          obtain ⟨_, h2⟩ := dropWhile_exact (hk' rfl)
          unfold lexStop
          rw [show n ++ r1.takeWhile isXmlSpace ++ ['>'] ++ x = n ++ (r1.takeWhile isXmlSpace ++ '>' :: x) from by simp]
          rw [hx]
          · simp only
            rw [show skipSpace (r1.takeWhile isXmlSpace ++ '>' :: x) = '>' :: x from h2]
            rfl
          · conv_rhs => rw [hw]
            cases r1.takeWhile isXmlSpace with
            | nil => rfl
            | cons _ _ => rfl
      · exfalso
        split at h
        · rename_i heq; exact hc (List.cons.inj heq).1
        · cases h

theorem lexProc_exact {nt : NameTable} {s r : Str} {ts : List Tok} (h : lexProc nt s = some (ts, r)) :
    ∃ u, s = u ++ r ∧ (∀ n, ts ≠ [.stop n]) ∧ (∃ t, ts = [t]) ∧ ∀ x : Str, lexProc nt (u ++ x) = some (ts, x) := by
  unfold lexProc at h
  cases hn : lexName nt s with
  | none => rw [hn] at h; cases h
  | some p =>
    obtain ⟨n, r1⟩ := p
    rw [hn] at h
    simp only at h
    obtain ⟨hne, hs, hx⟩ := lexName_exact hn
    obtain ⟨w, hw, hwx⟩ := skipSpace_exact (s := r1) rfl
    cases hc : cut "?>".toList (skipSpace r1) with
    | none => rw [hc] at h; cases h
    | some q =>
      obtain ⟨inst, r2⟩ := q
      rw [hc] at h
      simp only at h
      by_cases hp : procOk n inst = true
      · rw [if_pos hp] at h
        cases h
        obtain ⟨he, hcx⟩ := cut_exact hc (by decide)
        refine ⟨n ++ (w ++ (inst ++ "?>".toList)), ?_, (fun n e => by cases e), ⟨_, rfl⟩, ?_⟩
        · rw [hs, hw, he]
          simp only [List.append_assoc]
        · intro x
          have hh : ∀ y : Str, (inst ++ "?>".toList ++ x).head? = (inst ++ "?>".toList ++ y).head? :=
            fun y => head_append (by simp)
          have hh2 : ∀ y : Str, (w ++ (inst ++ "?>".toList ++ x)).head? = (w ++ (inst ++ "?>".toList ++ y)).head? := by
            intro y
            cases w with
            | nil => exact hh y
            | cons _ _ => rfl
          unfold lexProc
          rw [List.append_assoc, List.append_assoc, hx _ (by rw [hw, he]; exact hh2 r)]
          simp only
          rw [hwx _ (by rw [he]; exact hh r), hcx]
          simp only [hp, if_true]
      · rw [if_neg hp] at h; cases h

theorem lexBang_exact {s r : Str} {ts : List Tok} (h : lexBang s = some (ts, r)) :
    ∃ u, u ≠ [] ∧ s = u ++ r ∧ (∀ n, ts ≠ [.stop n]) ∧ (∃ t, ts = [t]) ∧ ∀ x : Str, lexBang (u ++ x) = some (ts, x) := by
  cases s with
  | nil => cases h
  | cons c s =>
    unfold lexBang at h
    simp only at h
    by_cases h1 : c = '-'
    · rw [if_pos h1] at h
      match s, h with
      | [], h => cases h
      | d :: s', h =>
        by_cases hd : d = '-'
        · subst hd
          simp only at h
          cases ha : afterComment s' with
          | none => rw [ha] at h; cases h
          | some y =>
            rw [ha] at h
            cases h
            obtain ⟨u, hu, e, hx⟩ := afterComment_exact ha
            refine ⟨c :: '-' :: u, by simp, by rw [e]; rfl, (fun n e => by cases e), ⟨_, rfl⟩, fun x => ?_⟩
            rw [List.cons_append, List.cons_append]
            unfold lexBang
            simp only
            rw [if_pos h1, hx]
            rfl
        · exfalso
          split at h
          · rename_i heq; exact hd (List.cons.inj heq).1
          · cases h
    · rw [if_neg h1] at h
      by_cases h2 : c = '['
      · rw [if_pos h2] at h
        cases hc : cut "CDATA[".toList s with
        | none => rw [hc] at h; cases h
        | some p =>
          obtain ⟨a, r1⟩ := p
          rw [hc] at h
          cases a with
          | cons _ _ => cases h
          | nil =>
            simp only at h
            obtain ⟨e1, hx1⟩ := cut_exact hc (by decide)
            cases hc2 : cut "]]>".toList r1 with
            | none => rw [hc2] at h; cases h
            | some q =>
              obtain ⟨t, r2⟩ := q
              rw [hc2] at h
              simp only at h
              obtain ⟨e2, hx2⟩ := cut_exact hc2 (by decide)
              by_cases hp : (normLines t).all isXmlChar = true
              · rw [if_pos hp] at h
                cases h
                refine ⟨c :: ("CDATA[".toList ++ (t ++ "]]>".toList)), by simp, by rw [e1, e2]; simp, (fun n e => by cases e), ⟨_, rfl⟩, fun x => ?_⟩
                rw [List.cons_append, List.append_assoc]
                unfold lexBang
                simp only
                rw [if_neg h1, if_pos h2, ← List.nil_append ("CDATA[".toList ++ _), ← List.append_assoc, hx1]
                simp only
                rw [hx2]
                simp only
                rw [if_pos hp]
              · rw [if_neg hp] at h; cases h
      · rw [if_neg h2] at h
        cases ha : afterDirective .plain 0 s with
        | none => rw [ha] at h; cases h
        | some y =>
          rw [ha] at h
          cases h
          obtain ⟨u, hu, e, hx⟩ := afterDirective_exact ha
          refine ⟨c :: u, by simp, by rw [e]; rfl, (fun n e => by cases e), ⟨_, rfl⟩, fun x => ?_⟩
          rw [List.cons_append]
          unfold lexBang
          simp only
          rw [if_neg h1, if_neg h2, hx]
          rfl

theorem lexStart_exact {strict : Bool} {nt : NameTable} {s r : Str} {ts : List Tok} (h : lexStart strict nt s = some (ts, r)) :
    ∃ u n, u ≠ [] ∧ s = u ++ r ∧ (ts = [.start n] ∨ ts = [.start n, .stop n]) ∧
      (∀ x : Str, lexStart strict nt (u ++ x) = some (ts, x)) ∧ n <+: u := by
  unfold lexStart at h
  cases hn : lexName nt s with
  | none => rw [hn] at h; cases h
  | some p =>
    obtain ⟨n, r1⟩ := p
    rw [hn] at h
    simp only at h
    obtain ⟨hne, hs, hx⟩ := lexName_exact hn
    cases ha : afterAttrs strict nt (r1.length + 1) r1 with
    | none => rw [ha] at h; cases h
    | some q =>
      obtain ⟨b, r2⟩ := q
      rw [ha] at h
      obtain ⟨u, hu, e, hux⟩ := afterAttrs_exact ha
      have hr : r2 = r := by cases b <;> (cases h; rfl)
      subst hr
      refine ⟨n ++ u, n, by simp [hne], by rw [hs, e]; simp, by cases b <;> (cases h; simp), fun x => ?_, List.prefix_append ..⟩
      unfold lexStart
      rw [List.append_assoc, hx _ (by rw [e]; exact head_append hu)]
      simp only
      rw [hux x _ (by rw [List.length_append]; omega)]
      cases b <;> (cases h; rfl)

theorem lexOne_start {strict : Bool} {nt : NameTable} {c : Char} {s : Str} (h1 : c ≠ '/') (h2 : c ≠ '?') (h3 : c ≠ '!') :
    lexOne strict nt ('<' :: c :: s) = lexStart strict nt (c :: s) := by
  unfold lexOne
  simp only [if_true]
  split
  · rename_i heq; exact absurd (List.cons.inj heq).1 h1
  · rename_i heq; exact absurd (List.cons.inj heq).1 h2
  · rename_i heq; exact absurd (List.cons.inj heq).1 h3
  · rfl

/-- A token of markup: `u` is the text it consists of. -/
theorem lexOne_exact {strict : Bool} {nt : NameTable} {s r : Str} {ts : List Tok} (h : lexOne strict nt ('<' :: s) = some (ts, r)) :
    ∃ u, '<' :: s = '<' :: u ++ r ∧ (∀ x : Str, lexOne strict nt ('<' :: u ++ x) = some (ts, x)) ∧
      (∀ n, ts = [.stop n] → ∃ w, (∀ c ∈ w, isXmlSpace c = true) ∧ u = '/' :: (n ++ w ++ ['>'])) ∧
      ((∃ t, ts = [t]) ∨ ∃ n, ts = [.start n, .stop n]) := by
  cases s with
  | nil => cases h
  | cons c s =>
    by_cases h1 : c = '/'
    · subst h1
      obtain ⟨n, w, hn, hw, e, ht, hx⟩ := lexStop_exact (show lexStop nt s = some (ts, r) from h)
      refine ⟨'/' :: (n ++ w ++ ['>']), by rw [e]; rfl, fun x => hx x, ?_, .inl ⟨_, ht⟩⟩
      intro n' e'
      rw [ht] at e'
      cases e'
      exact ⟨w, hw, rfl⟩
    · by_cases h2 : c = '?'
      · subst h2
        obtain ⟨u, e, hn, h1, hx⟩ := lexProc_exact (show lexProc nt s = some (ts, r) from h)
        exact ⟨'?' :: u, by rw [e]; rfl, fun x => hx x, fun n e => absurd e (hn n), .inl h1⟩
      · by_cases h3 : c = '!'
        · subst h3
          obtain ⟨u, _, e, hn, h1, hx⟩ := lexBang_exact (show lexBang s = some (ts, r) from h)
          exact ⟨'!' :: u, by rw [e]; rfl, fun x => hx x, fun n e => absurd e (hn n), .inl h1⟩
        · rw [lexOne_start h1 h2 h3] at h
          obtain ⟨u, n, hu, e, ht, hx, _⟩ := lexStart_exact h
          cases u with
          | nil => exact absurd rfl hu
          | cons d u =>
            cases e
            refine ⟨c :: u, rfl, fun x => ?_, ?_, ?_⟩
            · rw [List.cons_append, List.cons_append, lexOne_start h1 h2 h3]
              exact hx x
            · intro n' e'
              rcases ht with ht | ht <;> (rw [ht] at e'; cases e')
            · rcases ht with ht | ht
              · exact .inl ⟨_, ht⟩
              · exact .inr ⟨_, ht⟩

/-- Character data: it goes up to the next tag. -/
theorem lexOne_text {strict : Bool} {nt : NameTable} {c : Char} {s : Str} (hc : c ≠ '<') :
    lexOne strict nt (c :: s) =
      (textToken strict ((c :: s).takeWhile (· != '<'))).map (fun t => ([Tok.text t], (c :: s).dropWhile (· != '<'))) := by
  unfold lexOne
  simp only
  rw [if_neg hc]
  cases textToken strict ((c :: s).takeWhile (· != '<')) <;> rfl

theorem lex_none {strict : Bool} {nt : NameTable} {s : Str} (h : lexOne strict nt s = none) : lex strict nt s = [] := by
  rw [lex]
  simp only [h]

theorem lex_nil (strict : Bool) (nt : NameTable) : lex strict nt [] = [] := lex_none rfl

theorem lex_markup {strict : Bool} {nt : NameTable} {u x : Str} {ts : List Tok}
    (h : ∀ x : Str, lexOne strict nt ('<' :: u ++ x) = some (ts, x)) : lex strict nt ('<' :: u ++ x) = ts ++ lex strict nt x :=
  lex_step (h x) (by simp only [List.length_append, List.length_cons]; omega)

/-- Text up to a tag, or to the end of the input. -/
theorem lexOne_chars {strict : Bool} {nt : NameTable} {c : Char} {w x : Str} (hc : c ≠ '<') (hw : ∀ d ∈ w, d ≠ '<')
    (hx : x = [] ∨ ∃ y, x = '<' :: y) :
    lexOne strict nt (c :: w ++ x) = (textToken strict (c :: w)).map (fun t => ([Tok.text t], x)) := by
  have hp : ∀ d ∈ c :: w, (d != '<') = true := by
    intro d hd
    rcases List.mem_cons.mp hd with rfl | hd
    · simpa using hc
    · simpa using hw d hd
  rw [List.cons_append, lexOne_text hc, ← List.cons_append]
  rcases hx with rfl | ⟨y, rfl⟩
  · have hd : (c :: w).dropWhile (· != '<') = [] := dropWhile_all hp
    have ht : (c :: w).takeWhile (· != '<') = c :: w := by
      have := List.takeWhile_append_dropWhile (p := (· != '<')) (l := c :: w)
      rwa [hd, List.append_nil] at this
    rw [List.append_nil, ht, hd]
  · rw [takeWhile_stop hp (by decide), dropWhile_stop hp (by decide)]

/-- Input starts with a tag or with text. -/
theorem chars_split (s : Str) : s = [] ∨ (∃ y, s = '<' :: y) ∨
    ∃ c w x, c ≠ '<' ∧ (∀ d ∈ w, d ≠ '<') ∧ s = c :: w ++ x ∧ (x = [] ∨ ∃ y, x = '<' :: y) := by
  cases s with
  | nil => exact .inl rfl
  | cons c s =>
    refine .inr ?_
    by_cases hc : c = '<'
    · subst hc; exact .inl ⟨s, rfl⟩
    · refine .inr ⟨c, s.takeWhile (· != '<'), s.dropWhile (· != '<'), hc, ?_, ?_, ?_⟩
      · intro d hd
        have := (List.all_eq_true.mp List.all_takeWhile) d hd
        simpa using this
      · rw [List.cons_append, List.takeWhile_append_dropWhile]
      · cases hd : s.dropWhile (· != '<') with
        | nil => exact .inl rfl
        | cons d y =>
          have := List.head?_dropWhile_not (· != '<') s
          rw [hd] at this
          simp at this
          subst this
          exact .inr ⟨y, rfl⟩

/-- More input only adds tokens, except that a text at the end may go on. -/
theorem lex_grow {strict : Bool} {nt : NameTable} (n : Nat) (s y : Str) (hn : s.length ≤ n) :
    ∃ q, (lex strict nt s = q ∨ ∃ t, lex strict nt s = q ++ [.text t]) ∧ q <+: lex strict nt (s ++ y) := by
  induction n generalizing s with
  | zero =>
    have : s = [] := List.length_eq_zero_iff.mp (Nat.le_zero.mp hn)
    subst this
    exact ⟨[], .inl (lex_nil ..), List.nil_prefix⟩
  | succ n ih =>
    rcases chars_split s with rfl | ⟨z, rfl⟩ | ⟨c, w, x, hc, hw, rfl, hx⟩
    · exact ⟨[], .inl (lex_nil ..), List.nil_prefix⟩
    · cases h : lexOne strict nt ('<' :: z) with
      | none => exact ⟨[], .inl (lex_none h), List.nil_prefix⟩
      | some p =>
        obtain ⟨ts, r⟩ := p
        obtain ⟨u, e, hu, _, _⟩ := lexOne_exact h
        rw [e] at hn ⊢
        obtain ⟨q, h1, h2⟩ := ih r (by simp only [List.length_append, List.length_cons] at hn; omega)
        rw [lex_markup hu, List.append_assoc, lex_markup hu]
        refine ⟨ts ++ q, ?_, by rw [List.prefix_append_right_inj]; exact h2⟩
        rcases h1 with h1 | ⟨t, h1⟩
        · exact .inl (by rw [h1])
        · exact .inr ⟨t, by rw [h1, List.append_assoc]⟩
    · have h1 := lexOne_chars (strict := strict) (nt := nt) hc hw hx
      cases ht : textToken strict (c :: w) with
      | none =>
        rw [ht] at h1
        exact ⟨[], .inl (lex_none h1), List.nil_prefix⟩
      | some t =>
        rw [ht] at h1
        have h2 := lex_step h1 (by simp only [List.length_append, List.length_cons]; omega)
        rcases hx with rfl | ⟨z, rfl⟩
        · rw [h2, lex_nil]
          exact ⟨[], .inr ⟨t, rfl⟩, List.nil_prefix⟩
        · have h3 := lexOne_chars (strict := strict) (nt := nt) (x := '<' :: z ++ y) hc hw (.inr ⟨_, rfl⟩)
          rw [ht] at h3
          have h4 := lex_step h3 (by simp only [List.length_append, List.length_cons]; omega)
          obtain ⟨q, h5, h6⟩ := ih ('<' :: z) (by simp only [List.length_append, List.length_cons] at hn ⊢; omega)
          rw [h2, List.append_assoc, h4]
          refine ⟨.text t :: q, ?_, ?_⟩
          · rcases h5 with h5 | ⟨t', h5⟩
            · exact .inl (by rw [h5]; rfl)
            · exact .inr ⟨t', by rw [h5]; rfl⟩
          · exact (List.prefix_append_right_inj [Tok.text t]).mpr h6

/-- The text up to and including a given end tag. -/
theorem lex_upto {strict : Bool} {nt : NameTable} {m : Str} (n : Nat) (s : Str) (p : List Tok) (hn : s.length ≤ n)
    (h : p ++ [.stop m] <+: lex strict nt s) :
    ∃ u r, s = u ++ r ∧ lex strict nt u = p ++ [.stop m] ∧
      ((∃ v w, (∀ c ∈ w, isXmlSpace c = true) ∧ u = v ++ ('<' :: '/' :: (m ++ w ++ ['>'])) ∧
        ∀ z, lex strict nt (v ++ '<' :: z) = p ++ lex strict nt ('<' :: z)) ∨ ∃ p0, p = p0 ++ [.start m]) := by
  induction n generalizing s p with
  | zero =>
    have : s = [] := List.length_eq_zero_iff.mp (Nat.le_zero.mp hn)
    subst this
    rw [lex_nil] at h
    have := List.prefix_nil.mp h
    simp at this
  | succ n ih =>
    rcases chars_split s with rfl | ⟨z, rfl⟩ | ⟨c, w, x, hc, hw, rfl, hx⟩
    · rw [lex_nil] at h
      have := List.prefix_nil.mp h
      simp at this
    · cases h1 : lexOne strict nt ('<' :: z) with
      | none =>
        rw [lex_none h1] at h
        have := List.prefix_nil.mp h
        simp at this
      | some q =>
        obtain ⟨ts, r⟩ := q
        obtain ⟨u, e, hu, hstop, hshape⟩ := lexOne_exact h1
        rw [e] at hn h ⊢
        rw [lex_markup hu] at h
        -- the end tag itself, or a later one
        have later : ∀ p', p = ts ++ p' → ∃ u1 r1, '<' :: u ++ r = u1 ++ r1 ∧ lex strict nt u1 = p ++ [.stop m] ∧
            ((∃ v w, (∀ c ∈ w, isXmlSpace c = true) ∧ u1 = v ++ ('<' :: '/' :: (m ++ w ++ ['>'])) ∧
              ∀ z, lex strict nt (v ++ '<' :: z) = p ++ lex strict nt ('<' :: z)) ∨ ∃ p0, p = p0 ++ [.start m]) := by
          intro p' hp
          subst hp
          rw [List.append_assoc, List.prefix_append_right_inj] at h
          obtain ⟨u2, r2, e2, hl2, hend⟩ := ih r p' (by simp only [List.length_append, List.length_cons] at hn; omega) h
          refine ⟨'<' :: u ++ u2, r2, by rw [e2, List.append_assoc], by rw [lex_markup hu, hl2, List.append_assoc], ?_⟩
          rcases hend with ⟨v, w, hw, hv, hz⟩ | ⟨p0, hp0⟩
          · refine .inl ⟨'<' :: u ++ v, w, hw, by rw [hv]; simp only [List.append_assoc], fun z => ?_⟩
            rw [List.append_assoc, lex_markup hu, hz, List.append_assoc]
          · exact .inr ⟨ts ++ p0, by rw [hp0, List.append_assoc]⟩
        rcases hshape with ⟨t, rfl⟩ | ⟨k, rfl⟩
        · cases p with
          | nil =>
            obtain ⟨h2, _⟩ := (List.cons_prefix_cons (a := Tok.stop m)).mp h
            subst h2
            obtain ⟨w, hw, e2⟩ := hstop m rfl
            refine ⟨'<' :: u, r, rfl, ?_, .inl ⟨[], w, hw, by rw [e2]; rfl, fun z => rfl⟩⟩
            have := lex_markup (x := []) hu
            rw [List.append_nil, lex_nil] at this
            exact this
          | cons a p' =>
            obtain ⟨h2, _⟩ := (List.cons_prefix_cons (a := a)).mp h
            subst h2
            exact later p' rfl
        · cases p with
          | nil =>
            obtain ⟨h2, _⟩ := (List.cons_prefix_cons (a := Tok.stop m)).mp h
            cases h2
          | cons a p' =>
            obtain ⟨h2, h3⟩ := (List.cons_prefix_cons (a := a)).mp h
            subst h2
            cases p' with
            | nil =>
              obtain ⟨h4, _⟩ := (List.cons_prefix_cons (a := Tok.stop m)).mp h3
              cases h4
              refine ⟨'<' :: u, r, rfl, ?_, .inr ⟨[], rfl⟩⟩
              have := lex_markup (x := []) hu
              rw [List.append_nil, lex_nil] at this
              exact this
            | cons b p'' =>
              obtain ⟨h4, _⟩ := (List.cons_prefix_cons (a := b)).mp h3
              subst h4
              exact later p'' rfl
    · have h1 := lexOne_chars (strict := strict) (nt := nt) hc hw hx
      cases ht : textToken strict (c :: w) with
      | none =>
        rw [ht] at h1
        rw [lex_none h1] at h
        have := List.prefix_nil.mp h
        simp at this
      | some t =>
        rw [ht] at h1
        have h2 := lex_step h1 (by simp only [List.length_append, List.length_cons]; omega)
        rw [h2] at h
        cases p with
        | nil =>
          obtain ⟨h2, _⟩ := (List.cons_prefix_cons (a := Tok.stop m)).mp h
          cases h2
        | cons a p' =>
          obtain ⟨h3, h4⟩ := (List.cons_prefix_cons (a := a)).mp h
          subst h3
          obtain ⟨u, r, e, hl, hend⟩ := ih x p' (by simp only [List.length_append, List.length_cons] at hn; omega) h4
          have hu : ∃ y, u = '<' :: y := by
            cases u with
            | nil => rw [lex_nil] at hl; simp at hl
            | cons d u =>
              rcases hx with rfl | ⟨y, rfl⟩
              · cases e
              · cases e; exact ⟨u, rfl⟩
          have h5 := lexOne_chars (strict := strict) (nt := nt) (x := u) hc hw (.inr hu)
          rw [ht] at h5
          have h6 := lex_step h5 (by simp only [List.length_append, List.length_cons]; omega)
          refine ⟨c :: w ++ u, r, by rw [e, List.append_assoc], by rw [h6, hl]; rfl, ?_⟩
          rcases hend with ⟨v, w', hw', hv, hz⟩ | ⟨p0, hp0⟩
          · refine .inl ⟨c :: w ++ v, w', hw', by rw [hv]; simp only [List.append_assoc], fun z => ?_⟩
            have hv' : ∃ y, v ++ '<' :: z = '<' :: y := by
              obtain ⟨y, hy⟩ := hu
              cases v with
              | nil => exact ⟨z, rfl⟩
              | cons d v => rw [hv] at hy; cases hy; exact ⟨_, rfl⟩
            have h7 := lexOne_chars (strict := strict) (nt := nt) (x := v ++ '<' :: z) hc hw (.inr hv')
            rw [ht] at h7
            have h8 := lex_step h7 (by simp only [List.length_append, List.length_cons]; omega)
            rw [List.append_assoc, h8, hz]
            rfl
          · exact .inr ⟨.text t :: p0, by rw [hp0]; rfl⟩

end Ofx
