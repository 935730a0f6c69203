import Verif.Spec.Reader
import Verif.Lemmas.DocHeader
/-
Buffering does not change the bytes that are read.
-/
namespace Ofx

/-- No error before the end, and not too many reads without bytes. -/
structure Good (src : Source) : Prop where
  errors : ∀ before piece after, src = before ++ piece :: after → after ≠ [] → piece.2 = none
  progress : ∀ before pieces after, src = before ++ pieces ++ after → pieces.length = 100 → ∃ p ∈ pieces, p.1 ≠ [] ∨ p.2 ≠ none

theorem Good.tail {p : List UInt8 × Option String} {src : Source} (h : Good (p :: src)) : Good src :=
  ⟨fun b q a e ha => h.errors (p :: b) q a (by rw [e]; rfl) ha, fun b m a e hm => h.progress (p :: b) m a (by rw [e]; rfl) hm⟩

theorem Good.head {c : List UInt8} {e : Option String} {src : Source} (h : Good ((c, e) :: src)) (he : e ≠ none) : src = [] := by
  by_contra hs
  exact he (h.errors [] (c, e) src rfl hs)

theorem Good.shorten {c c' : List UInt8} {e : Option String} {src : Source} (h : Good ((c, e) :: src)) (hc : c' ≠ []) : Good ((c', e) :: src) := by
  refine ⟨?_, ?_⟩
  · intro b q a he ha
    cases b with
    | nil => cases he; exact h.errors [] (c, e) src rfl ha
    | cons b0 b => cases he; exact h.errors ((c, e) :: b) q a rfl ha
  · intro b m a he hm
    cases b with
    | cons b0 b => cases he; exact h.progress ((c, e) :: b) m a rfl hm
    | nil =>
      cases m with
      | nil => cases hm
      | cons m0 m => cases he; exact ⟨_, List.mem_cons_self .., .inl hc⟩

theorem good_nil : Good [] :=
  ⟨(fun b q a h => by cases b <;> cases h), (fun b m a h hm => by
    have := congrArg List.length h
    simp only [List.length_append, List.length_nil] at this
    omega)⟩

theorem bytes_cons (p : List UInt8 × Option String) (src : Source) : Source.bytes (p :: src) = p.1 ++ Source.bytes src := by
  simp [Source.bytes]

/-- All bytes a buffer can deliver. -/
def Bufio.all (b : Bufio) : List UInt8 := b.buf ++ b.src.bytes

theorem tryRead_spec (i : Nat) (b : Bufio) (hg : Good b.src) (hroom : b.buf.length < b.size) (he : b.err = none)
    (hi : ∀ pieces after, b.src = pieces ++ after → pieces.length = i → ∃ p ∈ pieces, p.1 ≠ [] ∨ p.2 ≠ none) :
    let b' := Bufio.tryRead i b
    b'.size = b.size ∧ b'.used = b.used ∧ b'.last = b.last ∧ b'.all = b.all ∧ b'.buf.length ≤ b.size ∧ Good b'.src ∧
      b.buf <+: b'.buf ∧ (b'.err = none → b.buf.length < b'.buf.length) ∧ (b'.err ≠ none → b'.src = []) := by
  induction i generalizing b with
  | zero =>
    obtain ⟨p, hp, _⟩ := hi [] b.src rfl rfl
    cases hp
  | succ i ih =>
    obtain ⟨size, used, buf, err, last, src⟩ := b
    simp only at he hg hroom hi
    subst he
    cases src with
    | nil => 
      simp only [Bufio.tryRead, Source.read, Bufio.all, List.append_nil]
      exact ⟨trivial, trivial, trivial, trivial, by omega, good_nil, List.prefix_refl _, (fun h => by cases h), fun _ => trivial⟩
    | cons p rest =>
      obtain ⟨c, e⟩ := p
      by_cases hc : c.length ≤ size - buf.length
      · have hr : Source.read (size - buf.length) ((c, e) :: rest) = ((c, e), rest) := by
          simp only [Source.read, if_pos hc]
        cases e with
        | some e =>
          have := hg.head (by simp)
          subst this
          simp only [Bufio.tryRead, hr, Bufio.all, bytes_cons]
          refine ⟨trivial, trivial, trivial, by simp, ?_, good_nil, List.prefix_append .., (fun h => by cases h), fun _ => trivial⟩
          rw [List.length_append]; omega
        | none =>
          by_cases hn : c = []
          · subst hn
            have e1 : Bufio.tryRead (i + 1) ⟨size, used, buf, none, last, ([], none) :: rest⟩ =
                Bufio.tryRead i ⟨size, used, buf, none, last, rest⟩ := by
              simp only [Bufio.tryRead, hr, List.append_nil, if_true]
            rw [e1]
            refine ih ⟨size, used, buf, none, last, rest⟩ hg.tail hroom rfl ?_
            intro pieces after (hp : rest = _) hl
            obtain ⟨p, hp, hq⟩ := hi (([], none) :: pieces) after (by rw [hp]; rfl) (by simp [hl])
            rcases List.mem_cons.mp hp with rfl | hp
            · simp at hq
            · exact ⟨p, hp, hq⟩
          · simp only [Bufio.tryRead, hr, Bufio.all, bytes_cons, if_neg hn]
            refine ⟨trivial, trivial, trivial, by simp, ?_, hg.tail, List.prefix_append .., fun _ => ?_, fun h => absurd rfl h⟩
            · rw [List.length_append]; omega
            · have := List.length_pos_of_ne_nil hn
              rw [List.length_append]; omega
      · have hr : Source.read (size - buf.length) ((c, e) :: rest) = ((c.take (size - buf.length), none), (c.drop (size - buf.length), e) :: rest) := by
          simp only [Source.read, if_neg hc]
        have hn : c.take (size - buf.length) ≠ [] := by
          intro h
          have := congrArg List.length h
          rw [List.length_take, List.length_nil] at this
          omega
        have hd : c.drop (size - buf.length) ≠ [] := by
          intro h
          have := congrArg List.length h
          rw [List.length_drop, List.length_nil] at this
          omega
        simp only [Bufio.tryRead, hr, Bufio.all, bytes_cons, if_neg hn]
        refine ⟨trivial, trivial, trivial, by rw [List.append_assoc, ← List.append_assoc (List.take _ c), List.take_append_drop], ?_, hg.shorten hd,
          List.prefix_append .., fun _ => ?_, fun h => absurd rfl h⟩
        · rw [List.length_append, List.length_take]; omega
        · rw [List.length_append, List.length_take]; omega

/-- The buffer can be used: what is pending is an error of the end. -/
structure Bufio.Ready (b : Bufio) : Prop where
  good : Good b.src
  fits : b.buf.length ≤ b.size
  done : b.err ≠ none → b.src = []

/-- `fill` adds a byte or reports the end. -/
theorem fill_spec (b : Bufio) (hb : b.Ready) (hroom : b.buf.length < b.size) (he : b.err = none) :
    b.fill.Ready ∧ b.fill.size = b.size ∧ b.fill.last = b.last ∧ b.fill.all = b.all ∧ b.buf <+: b.fill.buf ∧
      (b.fill.err = none → b.buf.length < b.fill.buf.length) := by
  obtain ⟨h1, h2, h3, h4, h5, h6, h7, h8, h9⟩ := tryRead_spec 100 { b with used := [] } hb.good hroom he
    (fun pieces after e hl => hb.good.progress [] pieces after e hl)
  exact ⟨⟨h6, by rw [show b.fill.size = _ from h1]; exact h5, h9⟩, h1, h3, h4, h7, h8⟩

theorem peekLoop_spec (n k : Nat) (b : Bufio) (hb : b.Ready) (hk : n ≤ b.buf.length + k) :
    let b' := Bufio.peekLoop n k b
    b'.Ready ∧ b'.size = b.size ∧ b'.last = b.last ∧ b'.all = b.all ∧
      ¬ (b'.buf.length < n ∧ b'.buf.length < b'.size ∧ b'.err = none) := by
  induction k generalizing b with
  | zero => exact ⟨hb, rfl, rfl, rfl, fun h => by have : (Bufio.peekLoop n 0 b) = b := rfl; rw [this] at h; omega⟩
  | succ k ih =>
    unfold Bufio.peekLoop
    by_cases h : b.buf.length < n ∧ b.buf.length < b.size ∧ b.err = none
    · rw [if_pos h]
      obtain ⟨h1, h2, h3, h4, h5, h6⟩ := fill_spec b hb h.2.1 h.2.2
      by_cases he : b.fill.err = none
      · obtain ⟨g1, g2, g3, g4, g5⟩ := ih b.fill h1 (by have := h6 he; omega)
        exact ⟨g1, g2.trans h2, g3.trans h3, g4.trans h4, g5⟩
      · have e : Bufio.peekLoop n k b.fill = b.fill := by
          cases k with
          | zero => rfl
          | succ k =>
            unfold Bufio.peekLoop
            rw [if_neg (fun h => he h.2.2)]
        simp only [e]
        exact ⟨h1, h2, h3, h4, fun h => he h.2.2⟩
    · rw [if_neg h]
      exact ⟨hb, rfl, rfl, rfl, h⟩

/-- `Peek` returns the first bytes, and leaves all bytes to be read. -/
theorem peek_spec (n : Nat) (b : Bufio) (hb : b.Ready) (hn : n ≤ b.size) :
    (b.peek n).1 = b.all.take n ∧ (b.peek n).2.Ready ∧ (b.peek n).2.size = b.size ∧ (b.peek n).2.all = b.all := by
  obtain ⟨h1, h2, h3, h4, h5⟩ := peekLoop_spec n n { b with last := none } ⟨hb.good, hb.fits, hb.done⟩ (by simp)
  unfold Bufio.peek
  simp only
  generalize Bufio.peekLoop n n { b with last := none } = b' at h1 h2 h3 h4 h5
  have h4 : b'.all = b.all := h4
  have h2 : b'.size = b.size := h2
  by_cases hl : b'.buf.length < n
  · rw [if_pos hl]
    have he : b'.err ≠ none := fun he => h5 ⟨hl, by omega, he⟩
    have hs := h1.done he
    have ha : b.all = b'.buf := by rw [← h4]; simp [Bufio.all, hs, Source.bytes]
    refine ⟨?_, ⟨h1.good, h1.fits, fun h => absurd rfl h⟩, h2, h4⟩
    rw [ha, List.take_of_length_le (by omega)]
  · rw [if_neg hl]
    refine ⟨?_, h1, h2, h4⟩
    rw [← h4]
    unfold Bufio.all
    rw [List.take_append_of_le_length (by omega)]

theorem readSliceLoop_spec (d : UInt8) (k : Nat) (b : Bufio) (hb : b.Ready) (hk : b.size + 1 ≤ b.buf.length + k)
    (hk' : b.err = none → b.size + 2 ≤ b.buf.length + k) :
    (∀ i, b.all.findIdx? (· == d) = some i → i < b.size → ∃ b', Bufio.readSliceLoop d k b = .ok (b.all.take (i + 1), b') ∧
      b'.Ready ∧ b'.size = b.size ∧ b'.all = b.all.drop (i + 1) ∧ b'.used ≠ [] ∧ b'.last = some d ∧ b'.buf.length < b'.size) ∧
    ((∀ i, b.all.findIdx? (· == d) = some i → b.size ≤ i) → ∃ e, Bufio.readSliceLoop d k b = .error e) := by
  induction k generalizing b with
  | zero => have := hb.fits; omega
  | succ k ih =>
    unfold Bufio.readSliceLoop
    cases hf : b.buf.findIdx? (· == d) with
    | some j =>
      have ha : b.all.findIdx? (· == d) = some j := by
        unfold Bufio.all
        rw [List.findIdx?_append, hf]
        rfl
      have hj : j < b.buf.length := by
        obtain ⟨h, _⟩ := List.findIdx?_eq_some_iff_getElem.mp hf
        exact h
      have hfit := hb.fits
      refine ⟨?_, fun h => by have := h j ha; omega⟩
      intro i hi _
      rw [ha] at hi
      cases hi
      refine ⟨{ b with used := b.used ++ b.buf.take (j + 1), buf := b.buf.drop (j + 1), last := some d }, ?_, ⟨hb.good, ?_, hb.done⟩, rfl, ?_, ?_, rfl, ?_⟩
      · simp only [Bufio.all]
        rw [List.take_append_of_le_length (by omega)]
      · simp only [List.length_drop]; omega
      · simp only [Bufio.all]
        rw [List.drop_append_of_le_length (by omega)]
      · intro h
        have := congrArg List.length h
        simp only [List.length_append, List.length_take, List.length_nil] at this
        omega
      · simp only [List.length_drop]; omega
    | none =>
      simp only
      cases he : b.err with
      | some e =>
        have hs := hb.done (by rw [he]; simp)
        have ha : b.all = b.buf := by simp [Bufio.all, hs, Source.bytes]
        simp only
        refine ⟨fun i hi => ?_, fun _ => ⟨e, rfl⟩⟩
        rw [ha, hf] at hi
        cases hi
      | none =>
        simp only
        by_cases hfull : b.size ≤ b.buf.length
        · rw [if_pos hfull]
          refine ⟨fun i hi hlt => ?_, fun _ => ⟨_, rfl⟩⟩
          exfalso
          obtain ⟨h1, h2, h3⟩ := List.findIdx?_eq_some_iff_getElem.mp hi
          rw [List.findIdx?_eq_none_iff] at hf
          have : b.all[i] = b.buf[i]'(by omega) := by
            simp only [Bufio.all]
            rw [List.getElem_append_left]
          rw [this] at h2
          have := hf _ (List.getElem_mem (by omega : i < b.buf.length))
          rw [this] at h2
          cases h2
        · rw [if_neg hfull]
          obtain ⟨h1, h2, h3, h4, h5, h6⟩ := fill_spec b hb (by omega) he
          have h7 := h5.length_le
          have h8 := hk' he
          obtain ⟨g1, g2⟩ := ih b.fill h1 (by omega) (fun h => by have := h6 h; omega)
          rw [h4, h2] at g1 g2
          exact ⟨g1, g2⟩

/-- `ReadSlice` returns the bytes up to the first delimiter, if it is within the size of the
buffer. -/
theorem readSlice_spec (d : UInt8) (b : Bufio) (hb : b.Ready) :
    (∀ i, b.all.findIdx? (· == d) = some i → i < b.size → ∃ b', b.readSlice d = .ok (b.all.take (i + 1), b') ∧
      b'.Ready ∧ b'.size = b.size ∧ b'.all = b.all.drop (i + 1) ∧ b'.used ≠ [] ∧ b'.last = some d ∧ b'.buf.length < b'.size) ∧
    ((∀ i, b.all.findIdx? (· == d) = some i → b.size ≤ i) → ∃ e, b.readSlice d = .error e) :=
  readSliceLoop_spec d _ b hb (by omega) (fun _ => by omega)

theorem unreadByte_spec {b : Bufio} {c : UInt8} (hb : b.Ready) (h1 : b.used ≠ []) (h2 : b.last = some c) (h3 : b.buf.length < b.size) :
    ∃ b', b.unreadByte = .ok b' ∧ b'.Ready ∧ b'.all = c :: b.all ∧ b'.size = b.size := by
  unfold Bufio.unreadByte
  rw [h2]
  simp only
  rw [if_neg (fun h => h1 h.1)]
  exact ⟨_, rfl, ⟨hb.good, h3, hb.done⟩, rfl, rfl⟩

theorem readByte_spec (b : Bufio) (hb : b.Ready) (hs : 0 < b.size) :
    (b.all = [] ∧ ∃ e, b.readByte = .error e) ∨ ∃ c b', b.readByte = .ok (c, b') ∧ b'.Ready ∧ b.all = c :: b'.all ∧ b'.size = b.size := by
  have key : ∀ b : Bufio, b.Ready → ¬ (b.buf = [] ∧ b.err = none) →
      (b.all = [] ∧ ∃ e, b.readByte = .error e) ∨ ∃ c b', b.readByte = .ok (c, b') ∧ b'.Ready ∧ b.all = c :: b'.all ∧ b'.size = b.size := by
    intro b hb hne
    unfold Bufio.readByte
    simp only
    rw [if_neg hne]
    cases hbuf : b.buf with
    | nil =>
      cases he : b.err with
      | none => exact absurd ⟨hbuf, he⟩ hne
      | some e =>
        refine .inl ⟨?_, e, rfl⟩
        unfold Bufio.all
        rw [hbuf, hb.done (by rw [he]; simp)]
        rfl
    | cons c rest =>
      refine .inr ⟨c, _, rfl, ⟨hb.good, ?_, hb.done⟩, ?_, rfl⟩
      · have := hb.fits
        rw [hbuf] at this
        exact Nat.le_of_succ_le this
      · unfold Bufio.all
        rw [hbuf]
        rfl
  by_cases h : b.buf = [] ∧ b.err = none
  · obtain ⟨h1, h2, h3, h4, h5, h6⟩ := fill_spec b hb (by rw [h.1]; exact hs) h.2
    have hne : ¬ (b.fill.buf = [] ∧ b.fill.err = none) := by
      rintro ⟨g1, g2⟩
      have := h6 g2
      rw [g1] at this
      simp at this
    have e : b.readByte = b.fill.readByte := by
      conv_lhs => unfold Bufio.readByte
      conv_rhs => unfold Bufio.readByte
      simp only
      rw [if_pos h, if_neg hne]
    have := key b.fill h1 hne
    rw [h4, h2] at this
    rw [e]
    exact this
  · exact key b hb h

theorem drain_spec (k : Nat) (b : Bufio) (hb : b.Ready) (hs : 0 < b.size) (hk : b.all.length ≤ k) : b.drain k = b.all := by
  induction k generalizing b with
  | zero => rw [List.length_eq_zero_iff.mp (Nat.le_zero.mp hk)]; rfl
  | succ k ih =>
    unfold Bufio.drain
    rcases readByte_spec b hb hs with ⟨h1, e, h2⟩ | ⟨c, b', h1, h2, h3, h4⟩
    · rw [h2, h1]
    · rw [h1]
      simp only
      rw [ih b' h2 (by omega) (by rw [h3] at hk; simpa using hk), h3]

end Ofx
