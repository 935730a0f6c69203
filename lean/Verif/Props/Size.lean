import Verif.Lemmas.Size
import Verif.Lemmas.AmountSize
import Verif.Lemmas.GrammarDoc
import Verif.Props.AmountText
import Verif.Props.Cases
/-
Property C86: what is read is no larger than the document.
-/
namespace Ofx.Props
open Ofx Spec

/-- C86, for everything but amounts: all texts of a response that is read, its messages, the
entries of its lists and its optional structures together are no more than the bytes of the
document.  (`responseSize`, Spec/Size.lean.) -/
theorem C86_size_partial (env : Env) (nt : NameTable) (bs : List UInt8) (r : Response Message)
    (h : decodeResponse env nt bs = .ok r) : responseSize r ≤ bs.length := by
  obtain ⟨v, root, h1, h2⟩ := (decode_doc env nt bs r).mp h
  exact Nat.le_trans (decodeOfx_size h2) (document_size ((document_iff nt bs v root).mpr h1))

example (nt : NameTable) : ∃ bs r, decodeResponse sampleEnv nt bs = .ok r ∧ responseSize r ≤ bs.length ∧
    (r.sets .bank).length = 1 := by
  obtain ⟨bs, r, h, -, h1, -⟩ := sample_read nt
  exact ⟨bs, r, h, C86_size_partial _ _ _ _ h, h1⟩

theorem sum_mem_le {l : List Nat} {x : Nat} (h : x ∈ l) : x ≤ l.sum := List.le_sum_of_mem h

theorem sum_map_length {α : Type} (l : List α) (f : α → Nat) : l.length ≤ (l.map (fun x => 1 + f x)).sum := by
  induction l with
  | nil => exact Nat.le_refl _
  | cons x l ih => simp only [List.length_cons, List.map_cons, List.sum_cons]; omega

theorem size_here {path : List Str} {name : Str} {b : Bool} {t : Ty} {rest : Fields} (v : (Fields.field path name b t rest).Den) {n : Nat}
    (h : n ≤ tySize t v.1) : n ≤ fieldsSize (.field path name b t rest) v := by
  rw [fieldsSize]; omega

theorem size_there {path : List Str} {name : Str} {b : Bool} {t : Ty} {rest : Fields} (v : (Fields.field path name b t rest).Den) {n : Nat}
    (h : n ≤ fieldsSize rest v.2) : n ≤ fieldsSize (.field path name b t rest) v := by
  rw [fieldsSize]; omega

theorem struct_size (xn : XName) (fs : Fields) (v : (Ty.struct xn fs).Den) {n : Nat} (h : n ≤ fieldsSize fs v.2) :
    n ≤ tySize (.struct xn fs) v := by
  rw [tySize]; exact h

theorem ptr_size (t : Ty) (x : t.Den) (v : (Ty.ptr t).Den) (h : (show Option t.Den from v) = some x) :
    tySize t x ≤ tySize (.ptr t) v := by
  rw [tySize]
  simp only [h]
  exact Nat.le_add_left _ _

/-- The transactions of a list count. -/
theorem transactions_size (l : TransactionList) : l.Transactions.length ≤ tySize TransactionList.ty l.toDen := by
  have h : ((l.Transactions.map Transaction.toDen).map (fun x => 1 + tySize Transaction.ty x)).sum ≤ tySize TransactionList.ty l.toDen := by
    refine struct_size (.tag "BANKTRANLIST".toList) TransactionList.fields l.toDen ?_
    refine size_there _ (size_there _ (size_here _ ?_))
    rw [tySize]
    exact Nat.le_refl _
  have h2 := sum_map_length (l.Transactions.map Transaction.toDen) (tySize Transaction.ty)
  rw [List.length_map] at h2
  omega

/-- Those of a statement, too. -/
theorem statement_size (m : StatementResponse) (l : TransactionList) (hl : m.BankTranList = some l) :
    l.Transactions.length ≤ valueSize m := by
  refine Nat.le_trans (transactions_size l) ?_
  refine struct_size (.tag "STMTTRNRS".toList) StatementResponse.fields m.toDen ?_
  iterate 5 refine size_there _ ?_
  refine size_here _ ?_
  refine ptr_size TransactionList.ty l.toDen _ ?_
  show m.BankTranList.map TransactionList.toDen = some l.toDen
  rw [hl]; rfl

/-- C86: the messages of each set of a response that is read, and the transactions of a bank
statement in it, are at most as many as the document has bytes. -/
theorem C86_counts (env : Env) (nt : NameTable) (bs : List UInt8) (r : Response Message)
    (h : decodeResponse env nt bs = .ok r) (s : MsgSet × String) (hs : s ∈ responseOrder) :
    (r.sets s.1).length ≤ bs.length ∧
    ∀ m l, .statementResponse m ∈ r.sets s.1 → m.BankTranList = some l → l.Transactions.length ≤ bs.length := by
  have hb := C86_size_partial env nt bs r h
  unfold responseSize at hb
  have h1 := sum_mem_le (List.mem_map_of_mem (f := fun s : MsgSet × String => ((r.sets s.1).map (fun m => 1 + messageSize m)).sum) hs)
  have h2 := sum_map_length (r.sets s.1) messageSize
  refine ⟨by omega, fun m l hm hl => ?_⟩
  have h3 := sum_mem_le (List.mem_map_of_mem (f := fun m => 1 + messageSize m) hm)
  have h4 := statement_size m l hl
  have h5 : messageSize (.statementResponse m) = valueSize m := rfl
  omega

theorem natStr_pow (k : Nat) : (natStr (10 ^ k)).length = k + 1 := by
  induction k with
  | zero => rfl
  | succ k ih =>
    have hp : 0 < 10 ^ k := Nat.pow_pos (by omega)
    rw [natStr_ge10 (by rw [Nat.pow_succ]; omega), Nat.pow_succ, Nat.mul_div_cancel _ (by omega), List.length_append, ih]
    rfl

theorem digitIn_natStr (k : Nat) : ∀ c ∈ natStr k, digitIn c < 10 := by
  intro c hc
  have := natStr_digits k c hc
  rw [digitIn_digitV this]
  exact digitV_lt this

/-- "1e" followed by a number k up to a million is an amount text, for ten to the power k. -/
theorem amount_power (k : Nat) (hk : k ≤ 1000000) : AmountText ("1e".toList ++ natStr k) (10 ^ k) := by
  refine ⟨[], "1e".toList ++ natStr k, 10 ^ k, rfl, by decide, Or.inl ?_, by simp⟩
  refine ⟨10, [], "1".toList, "1".toList, [], [], [], 'e' :: natStr k, 10, k, rfl, Or.inl ⟨rfl, rfl⟩,
    Or.inr (grouped_digits (by decide) (by decide)), Or.inl ⟨rfl, rfl⟩, by decide,
    Or.inr ⟨'e', [], natStr k, natStr k, rfl, Or.inl ⟨rfl, Or.inl rfl⟩, Or.inl rfl,
      grouped_digits (natStr_ne_nil k) (digitIn_natStr k), ?_, ?_⟩, by omega, Or.inr ?_, ?_⟩
  · rw [valueIn_ten (natStr_digits k), value_eq (natStr_digits k), digitsVal_natStr]; simp
  · unfold InInt64; omega
  · unfold InRange powerOfFive powerOfTwo
    simp only [List.length_nil, if_true, abs_le]
    omega
  · rw [show valueIn 10 ("1".toList ++ []) = 1 by decide]
    simp

/-- C86: amounts are the exception.  For every k up to a million, the text "1e" followed by k is
accepted as an amount, and the amount is written with more than k characters.  (So nine
characters are enough for a megabyte.) -/
theorem C86_amount_grows (k : Nat) (hk : k ≤ 1000000) :
    Amount.unmarshal ("1e".toList ++ natStr k) = .ok (10 ^ k) ∧ k < (Amount.marshal (10 ^ k)).length ∧
    ("1e".toList ++ natStr k).length ≤ 9 := by
  refine ⟨?_, ?_, ?_⟩
  · refine (C73_accepted_iff _ _ _ (trimsTo_self ⟨?_, ?_⟩)).mpr (amount_power k hk)
    · intro c hc
      have : c = '1' := by simpa using hc.symm
      subst this; decide
    · intro c hc
      cases hl : (natStr k).getLast? with
      | none => rw [List.getLast?_eq_none_iff] at hl; exact absurd hl (natStr_ne_nil _)
      | some d =>
        rw [List.getLast?_append, hl] at hc
        cases hc
        have := isDigit_not_space (getLast?_digits (natStr_digits k) hl)
        rw [whiteSpace_iff, this]; decide
  · obtain ⟨K, frac, fp, hs, -, -, -, -, -, h1, h2⟩ := amountString_shape (10 ^ k)
    have e : ((10 : ℚ) ^ k) = ((10 ^ k : Nat) : ℚ) := by push_cast; rfl
    rw [e, Rat.num_natCast, Rat.den_natCast, Int.natAbs_natCast] at h1 h2
    have hK : K = 10 ^ k * 10 ^ 100 := by omega
    unfold Amount.marshal
    rw [hs, hK, Nat.mul_div_cancel _ (Nat.pow_pos (by omega))]
    simp only [List.length_append, natStr_pow]
    omega
  · have : (natStr k).length ≤ 7 := natStr_length_le (by omega) (by omega)
    simp only [List.length_append]
    have : "1e".toList.length = 2 := rfl
    omega

/-- C86: but that is all.  An amount read from a text is written with at most four times the
characters of that text and thirteen million more (math/big limits the exponents). -/
theorem C86_amount_limit (text : Str) (q : ℚ) (h : Amount.unmarshal text = .ok q) :
    (Amount.marshal q).length ≤ 4 * text.length + 13000103 := by
  have ht : TrimsTo text (trimSpace text) := (trimsTo_iff _ _).mpr rfl
  have hq := (C73_accepted_iff text _ q ht).mp h
  have hl : (trimSpace text).length ≤ text.length := by
    obtain ⟨w, w', -, -, e, -⟩ := ht
    have := congrArg List.length e
    simp only [List.length_append] at this
    omega
  have := amount_print_length (amount_bound hq 13000000 rfl)
  unfold Amount.marshal
  omega

example : Amount.unmarshal "1e1000000".toList = .ok (10 ^ 1000000) ∧
    1000000 < (Amount.marshal (10 ^ 1000000)).length ∧ (Amount.marshal (10 ^ 1000000)).length ≤ 4 * 9 + 13000103 := by
  have h := C86_amount_grows 1000000 (by omega)
  have e : "1e".toList ++ natStr 1000000 = "1e1000000".toList := by decide +kernel
  rw [e] at h
  exact ⟨h.1, h.2.1, C86_amount_limit _ _ h.1⟩

end Ofx.Props
