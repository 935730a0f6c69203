import Verif.Lemmas.StreamAhead
/-
Readers that are not asked for more.
-/
open Ofx.Spec
namespace Ofx

/-- The last piece of the reader has not been asked for. -/
def Bufio.Open (last : List UInt8 × Option String) (b : Bufio) : Prop := b.err = none ∧ ∃ ps, b.src = ps ++ [last]

theorem tryRead_open {e : String} (i : Nat) (b : Bufio) (hg : Good b.src) (hroom : b.buf.length < b.size)
    (ho : b.Open ([], some e)) (hne : b.src.bytes ≠ [])
    (hi : ∀ pieces after, b.src = pieces ++ after → pieces.length = i → ∃ p ∈ pieces, p.1 ≠ [] ∨ p.2 ≠ none) :
    (Bufio.tryRead i b).Open ([], some e) := by
  induction i generalizing b with
  | zero =>
    obtain ⟨p, hp, _⟩ := hi [] b.src rfl rfl
    cases hp
  | succ i ih =>
    obtain ⟨size, used, buf, err, last, src⟩ := b
    obtain ⟨he, ps, hps⟩ := ho
    simp only at he hg hroom hi hps hne
    subst he
    subst hps
    cases ps with
    | nil => exact absurd rfl hne
    | cons p ps =>
      obtain ⟨c, e'⟩ := p
      have he' : e' = none := hg.errors [] (c, e') (ps ++ [([], some e)]) rfl (by simp)
      subst he'
      rw [List.cons_append] at hg hne hi ⊢
      by_cases hc : c.length ≤ size - buf.length
      · have hr : Source.read (size - buf.length) ((c, none) :: (ps ++ [([], some e)])) = ((c, none), ps ++ [([], some e)]) := by
          simp only [Source.read, if_pos hc]
        by_cases hn : c = []
        · subst hn
          have e1 : Bufio.tryRead (i + 1) ⟨size, used, buf, none, last, ([], none) :: (ps ++ [([], some e)])⟩ =
              Bufio.tryRead i ⟨size, used, buf, none, last, ps ++ [([], some e)]⟩ := by
            simp only [Bufio.tryRead, hr, List.append_nil, if_true]
          rw [e1]
          refine ih ⟨size, used, buf, none, last, ps ++ [([], some e)]⟩ hg.tail hroom ⟨rfl, ps, rfl⟩ ?_ ?_
          · rw [bytes_cons] at hne
            exact hne
          · intro pieces after (hp : ps ++ [([], some e)] = _) hl
            obtain ⟨p, hp, hq⟩ := hi (([], none) :: pieces) after (by rw [hp]; rfl) (by simp [hl])
            rcases List.mem_cons.mp hp with rfl | hp
            · simp at hq
            · exact ⟨p, hp, hq⟩
        · simp only [Bufio.tryRead, hr, if_neg hn]
          exact ⟨rfl, ps, rfl⟩
      · have hr : Source.read (size - buf.length) ((c, none) :: (ps ++ [([], some e)])) =
            ((c.take (size - buf.length), none), (c.drop (size - buf.length), none) :: (ps ++ [([], some e)])) := by
          simp only [Source.read, if_neg hc]
        have hn : c.take (size - buf.length) ≠ [] := by
          intro h
          have := congrArg List.length h
          rw [List.length_take, List.length_nil] at this
          omega
        simp only [Bufio.tryRead, hr, if_neg hn]
        exact ⟨rfl, (c.drop (size - buf.length), none) :: ps, rfl⟩

theorem fill_open {e : String} (b : Bufio) (hb : b.Ready) (hroom : b.buf.length < b.size) (ho : b.Open ([], some e))
    (hne : b.src.bytes ≠ []) : b.fill.Open ([], some e) :=
  tryRead_open 100 { b with used := [] } hb.good hroom ho hne (fun pieces after e hl => hb.good.progress [] pieces after e hl)

theorem peekLoop_open {e : String} (n k : Nat) (b : Bufio) (hb : b.Ready) (ho : b.Open ([], some e)) (hl : n ≤ b.all.length) :
    (Bufio.peekLoop n k b).Open ([], some e) := by
  induction k generalizing b with
  | zero => exact ho
  | succ k ih =>
    unfold Bufio.peekLoop
    by_cases h : b.buf.length < n ∧ b.buf.length < b.size ∧ b.err = none
    · rw [if_pos h]
      obtain ⟨h1, h2, h3, h4, _⟩ := fill_spec b hb h.2.1 h.2.2
      refine ih _ h1 (fill_open b hb h.2.1 ho ?_) (by rw [h4]; exact hl)
      intro h0
      rw [Bufio.all, h0, List.append_nil] at hl
      omega
    · rw [if_neg h]
      exact ho

theorem peek_open {e : String} (n : Nat) (b : Bufio) (hb : b.Ready) (ho : b.Open ([], some e)) (hl : n ≤ b.all.length) :
    (b.peek n).2.Open ([], some e) := by
  have hb' : ({ b with last := none } : Bufio).Ready := ⟨hb.good, hb.fits, hb.done⟩
  have h1 := peekLoop_open n n { b with last := none } hb' ho hl
  unfold Bufio.peek
  simp only
  by_cases h : (Bufio.peekLoop n n { b with last := none }).buf.length < n
  · rw [if_pos h]
    exact ⟨rfl, h1.2⟩
  · rw [if_neg h]
    exact h1

theorem readSliceLoop_open {e : String} (d : UInt8) (k : Nat) (b b' : Bufio) (s : List UInt8) (hb : b.Ready) (ho : b.Open ([], some e))
    {i : Nat} (hi : b.all.findIdx? (· == d) = some i) (h : Bufio.readSliceLoop d k b = .ok (s, b')) : b'.Open ([], some e) := by
  induction k generalizing b with
  | zero => cases h
  | succ k ih =>
    unfold Bufio.readSliceLoop at h
    cases hf : b.buf.findIdx? (· == d) with
    | some j => rw [hf] at h; cases h; exact ho
    | none =>
      rw [hf] at h
      simp only at h
      rw [ho.1] at h
      simp only at h
      by_cases hs : b.size ≤ b.buf.length
      · rw [if_pos hs] at h; cases h
      · rw [if_neg hs] at h
        obtain ⟨h1, h2, h3, h4, _⟩ := fill_spec b hb (by omega) ho.1
        refine ih b.fill h1 (fill_open b hb (by omega) ho ?_) (by rw [h4]; exact hi) h
        intro h0
        rw [Bufio.all, h0, List.append_nil, hf] at hi
        cases hi

theorem unreadByte_open {last : List UInt8 × Option String} {b b' : Bufio} (h : b.unreadByte = .ok b') (ho : b.Open last) : b'.Open last := by
  unfold Bufio.unreadByte at h
  cases hl : b.last with
  | none => rw [hl] at h; cases h
  | some c =>
    rw [hl] at h
    simp only at h
    by_cases hu : b.used = [] ∧ b.buf ≠ []
    · rw [if_pos hu] at h; cases h
    · rw [if_neg hu] at h; cases h; exact ho

theorem readByte_open {e : String} {b b' : Bufio} {c : UInt8} (hb : b.Ready) (hs : 0 < b.size) (ho : b.Open ([], some e)) (hne : b.all ≠ [])
    (h : b.readByte = .ok (c, b')) : b'.Open ([], some e) := by
  have key : ∀ x : Bufio, (match x.buf, x.err with
      | c :: rest, _ => (.ok (c, { x with used := x.used ++ [c], buf := rest, last := some c }) : Except String (UInt8 × Bufio))
      | [], some e => .error e
      | [], none => .error "unreachable") = .ok (c, b') → x.Open ([], some e) → b'.Open ([], some e) := by
    intro x hx ho
    cases hb : x.buf with
    | nil => rw [hb] at hx; cases he : x.err <;> (rw [he] at hx; cases hx)
    | cons c rest => rw [hb] at hx; cases hx; exact ho
  unfold Bufio.readByte at h
  simp only at h
  by_cases hc : b.buf = [] ∧ b.err = none
  · rw [if_pos hc] at h
    refine key _ h (fill_open b hb (by rw [hc.1]; exact hs) ho ?_)
    intro h0
    rw [Bufio.all, h0, hc.1] at hne
    exact hne rfl
  · rw [if_neg hc] at h
    exact key _ h ho

theorem skip_open {e : String} (n : Nat) (b : Bufio) (hb : b.Ready) (hs : 0 < b.size) (hn : n ≤ b.all.length) (ho : b.Open ([], some e)) :
    (b.skip n).Open ([], some e) := by
  induction n generalizing b with
  | zero => exact ho
  | succ n ih =>
    unfold Bufio.skip
    rcases readByte_spec b hb hs with ⟨h1, er, h2⟩ | ⟨c, b', h1, h2, h3, h4⟩
    · rw [h2]
      exact ho
    · rw [h1]
      simp only
      exact ih b' h2 (by omega) (by rw [h3] at hn; simpa using hn) (readByte_open hb hs ho (by rw [h3]; simp) h1)

/-- Nothing is asked for after a document, if that much has been delivered. -/
theorem decodeNext_open {e : String} {env : Env} {nt : NameTable} {b b' : Bufio} {r : Response Message} (hb : b.Ready) (hs : 1024 ≤ b.size)
    (hl : 1024 ≤ b.all.length) (ho : b.Open ([], some e)) (h : decodeNext env nt b = .ok (r, b')) : b'.Open ([], some e) := by
  obtain ⟨p1, p2, p3, p4⟩ := peek_spec 1024 b hb hs
  have po := peek_open 1024 b hb ho hl
  have hd := drain_all p2 (by omega)
  unfold decodeNext at h
  simp only at h
  by_cases hg : guessVersion (latin1 (b.peek 1024).1) = true
  · rw [if_pos hg, hd] at h
    cases hx : readXMLHeaders (lex true nt (utf8Decode (b.peek 1024).2.all)) with
    | error e => rw [hx] at h; cases h
    | ok q =>
      obtain ⟨v, rest⟩ := q
      rw [hx] at h
      simp only at h
      unfold finish at h
      cases hb : decodeBody env true v rest with
      | error e => rw [hb] at h; cases h
      | ok r' =>
        rw [hb] at h
        simp only at h
        obtain ⟨doc, after, _, _, _, k1, k2, _⟩ := xml_end hx hb
        cases h
        refine skip_open _ _ p2 (by omega) ?_ po
        rw [k2, k1, List.length_append]
        omega
  · rw [if_neg hg] at h
    cases hr : (b.peek 1024).2.readSlice 60 with
    | error e => rw [hr] at h; cases h
    | ok q =>
      obtain ⟨s, b1⟩ := q
      obtain ⟨r1, r2⟩ := readSlice_spec 60 (b.peek 1024).2 p2
      have hf : ∃ i, (b.peek 1024).2.all.findIdx? (· == (60 : UInt8)) = some i ∧ i < (b.peek 1024).2.size := by
        by_contra hf
        obtain ⟨er, he⟩ := r2 (fun i hi => by
          by_contra hlt
          exact hf ⟨i, hi, by omega⟩)
        rw [hr] at he
        cases he
      obtain ⟨i, hi, hlt⟩ := hf
      obtain ⟨b1', g1, g2, g3, g4, g5, g6, g7⟩ := r1 i hi hlt
      rw [hr] at g1
      cases g1
      have o1 := readSliceLoop_open _ _ _ _ _ p2 po hi hr
      obtain ⟨b2, k1, k2, k3, k4⟩ := unreadByte_spec g2 g5 g6 g7
      have o2 := unreadByte_open k1 o1
      rw [hr] at h
      simp only at h
      rw [k1] at h
      simp only at h
      rw [drain_all k2 (by omega)] at h
      cases hc : checkSGMLHeader (latin1 ((b.peek 1024).2.all.take (i + 1))) with
      | error e => rw [hc] at h; cases h
      | ok v =>
        rw [hc] at h
        simp only at h
        unfold finish at h
        cases hb : decodeBody env false v (lex false nt (utf8Decode b2.all)) with
        | error e => rw [hb] at h; cases h
        | ok r' =>
          rw [hb] at h
          simp only at h
          obtain ⟨doc, after, _, _, _, j1, j2, _⟩ := body_end hb
          cases h
          refine skip_open _ _ k2 (by omega) ?_ o2
          rw [j2]
          conv_rhs => rw [j1, List.length_append]
          omega

theorem read_fewer (n : Nat) (s : Source) : (s.read n).2.length ≤ s.length := by
  cases s with
  | nil => exact Nat.le_refl _
  | cons p s =>
    obtain ⟨c, e⟩ := p
    unfold Source.read
    simp only
    by_cases h : c.length ≤ n
    · rw [if_pos h]
      simp
    · rw [if_neg h]
      simp

/-- The end is asked for, if less has been delivered. -/
theorem decodeNext_shut {env : Env} {nt : NameTable} {b b' : Bufio} {r : Response Message} (hb : b.Ready) (hs : 1024 ≤ b.size)
    (hl : b.all.length < 1024) (h : decodeNext env nt b = .ok (r, b')) : b'.src = [] := by
  have hp : (b.peek 1024).2.src = [] := by
    obtain ⟨h1, h2, h3, h4, h5⟩ := peekLoop_spec 1024 1024 { b with last := none } ⟨hb.good, hb.fits, hb.done⟩ (by simp)
    unfold Bufio.peek
    simp only
    generalize Bufio.peekLoop 1024 1024 { b with last := none } = x at h1 h2 h3 h4 h5
    have h4 : x.all = b.all := h4
    have h2 : x.size = b.size := h2
    have hx : x.buf.length < 1024 := by
      rw [← h4, Bufio.all, List.length_append] at hl
      omega
    rw [if_pos hx]
    exact h1.done (fun he => h5 ⟨hx, by omega, he⟩)
  have := decodeNext_less (f := List.length) read_fewer h
  rw [hp] at this
  exact List.length_eq_zero_iff.mp (Nat.le_zero.mp this)

end Ofx
