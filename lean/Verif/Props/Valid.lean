import Verif.Lemmas.Valid
/-
Properties C18, C19, C20, C21, C23 (validation of statuses, accounts, currencies,
transactions, statements and signons).
-/
namespace Ofx.Props
open Ofx Ofx.Spec

/-! ### C18 status -/

/-- The code table has one row per code (it is a Go map). -/
theorem statusMeanings_codes : (statusMeanings.map (fun r => r.1)).Nodup := by decide +kernel

theorem lookupStatus_iff (c : Int) (r : String × Str × String) :
    lookupStatus c = some r ↔ (c, r) ∈ statusMeanings := by
  unfold lookupStatus
  constructor
  · intro h
    rw [Option.map_eq_some_iff] at h
    obtain ⟨x, hx, hr⟩ := h
    have h1 := List.mem_of_find?_eq_some hx
    have h2 := List.find?_some hx
    simp only [beq_iff_eq] at h2
    subst hr; subst h2; exact h1
  · intro h
    have key : ∀ l : List (Int × String × Str × String), (l.map (fun r => r.1)).Nodup → (c, r) ∈ l →
        l.find? (fun r => r.1 == c) = some (c, r) := by
      intro l
      induction l with
      | nil => intro _ hm; exact absurd hm (by simp)
      | cons a l ih =>
        intro hn hm
        rw [List.map_cons, List.nodup_cons] at hn
        rcases List.mem_cons.mp hm with rfl | hm
        · simp
        · have : a.1 ≠ c := by
            intro e
            apply hn.1
            rw [e]
            exact List.mem_map.mpr ⟨_, hm, rfl⟩
          rw [List.find?_cons_of_neg (by simpa using this)]
          exact ih hn.2 hm
    rw [key _ statusMeanings_codes h]
    rfl

/-- C18: a status is accepted exactly when its severity is a defined one and the code
table has its code with that severity. -/
theorem C18_status_valid_iff (s : Status) : s.valid = none ↔ GoodStatus s := by
  unfold Status.valid GoodStatus
  simp only [List.mem_cons, List.not_mem_nil, or_false]
  by_cases hs : s.Severity = "INFO".toList ∨ s.Severity = "WARN".toList ∨ s.Severity = "ERROR".toList
  · rw [if_pos hs]
    simp only [hs, true_and]
    cases hl : lookupStatus s.Code with
    | none =>
      simp only [reduceCtorEq, false_iff]
      rintro ⟨m, c, h⟩
      rw [(lookupStatus_iff _ _).mpr h] at hl; cases hl
    | some arr =>
      obtain ⟨m, sev, c⟩ := arr
      by_cases he : sev = s.Severity
      · simp only [ne_eq, he, not_true_eq_false, if_false, true_iff]
        exact ⟨m, c, by rw [← he]; exact (lookupStatus_iff _ _).mp hl⟩
      · simp only [ne_eq, he, not_false_eq_true, if_true, reduceCtorEq, false_iff]
        rintro ⟨m', c', h⟩
        rw [(lookupStatus_iff _ _).mpr h] at hl
        cases hl; exact he rfl
  · rw [if_neg hs]
    simp only [reduceCtorEq, false_iff]
    rintro ⟨h, _⟩; exact hs h

/-- C18: meaning and conditions are those of the code's row; both fail exactly for
codes without a row. -/
theorem C18_status_meaning (s : Status) :
    (∀ m sev c, (s.Code, m, sev, c) ∈ statusMeanings → s.codeMeaning = .ok m ∧ s.codeConditions = .ok c) ∧
    ((∀ r, (s.Code, r) ∉ statusMeanings) →
      (∃ e, s.codeMeaning = .error e) ∧ (∃ e, s.codeConditions = .error e)) := by
  constructor
  · intro m sev c h
    simp [Status.codeMeaning, Status.codeConditions, (lookupStatus_iff _ _).mpr h]
  · intro h
    have : lookupStatus s.Code = none := by
      cases hl : lookupStatus s.Code with
      | none => rfl
      | some r => exact absurd ((lookupStatus_iff _ _).mp hl) (h r)
    simp [Status.codeMeaning, Status.codeConditions, this]

/-- C18: an accepted status has a meaning and conditions. -/
theorem C18_status_valid_has_meaning (s : Status) (h : s.valid = none) :
    (∃ m, s.codeMeaning = .ok m) ∧ ∃ c, s.codeConditions = .ok c := by
  obtain ⟨_, m, c, hm⟩ := (C18_status_valid_iff s).mp h
  obtain ⟨h1, h2⟩ := (C18_status_meaning s).1 m _ c hm
  exact ⟨⟨m, h1⟩, ⟨c, h2⟩⟩

example : (⟨15500, "ERROR".toList, []⟩ : Status).valid = none := by decide +kernel
example : (⟨15500, "INFO".toList, []⟩ : Status).valid ≠ none := by decide +kernel
example : ∀ r, ((⟨12, "INFO".toList, []⟩ : Status).Code, r) ∉ statusMeanings := by
  intro r h
  rw [← lookupStatus_iff] at h
  rw [show lookupStatus (12 : Int) = none by decide +kernel] at h
  cases h

/-! ### C19 accounts and currencies -/

/-- C19: bank accounts. -/
theorem C19_bankacct_valid_iff (b : BankAcct) : b.valid = none ↔ GoodBankAcct b := by
  unfold BankAcct.valid
  simp only [blen_zero]
  by_cases h1 : b.BankID = []
  · simp only [h1, if_true, reduceCtorEq, false_iff]; intro h; exact h.bank h1
  by_cases h2 : b.AcctID = []
  · simp only [h1, h2, if_true, if_false, reduceCtorEq, false_iff]; intro h; exact h.acct h2
  cases h3 : enumAcctType.valid b.AcctType with
  | false =>
    simp only [h1, h2, if_false, Bool.not_false, if_true, reduceCtorEq, false_iff]
    intro h
    have := acctType_named.mp h.type
    rw [h3] at this; cases this
  | true =>
    simp only [h1, h2, if_false, Bool.not_true, Bool.false_eq_true, true_iff]
    exact ⟨h1, h2, acctType_named.mpr h3⟩

/-- C19: card accounts. -/
theorem C19_ccacct_valid_iff (c : CCAcct) : c.valid = none ↔ c.AcctID ≠ [] := by
  unfold CCAcct.valid
  simp only [blen_zero]
  by_cases h : c.AcctID = [] <;> simp [h]

theorem rate_multiple (r : Rat) : (r.den = 1 ∧ bigInt64 r.num = 0) ↔ ∃ k : Int, r = (k * 2 ^ 64 : Int) := by
  rw [bigInt64_zero]
  constructor
  · rintro ⟨h1, h2⟩
    obtain ⟨k, hk⟩ := Int.natAbs_dvd_natAbs.mp (show ((2 ^ 64 : Int)).natAbs ∣ r.num.natAbs from Nat.dvd_of_mod_eq_zero h2)
    refine ⟨k, ?_⟩
    rw [← (Rat.den_eq_one_iff r).mp h1, hk, Int.mul_comm]
  · rintro ⟨k, rfl⟩
    refine ⟨rfl, ?_⟩
    rw [Rat.num_intCast, Int.natAbs_mul]
    exact Nat.mul_mod_left _ _

/-- C19: what Currency.Valid accepts, exactly. -/
theorem C19_currency_valid_iff_recognised (c : Currency) : c.valid = none ↔ RecognisedCurrency c := by
  unfold Currency.valid CurrSymbol.valid
  by_cases h1 : c.CurRate.den = 1 ∧ bigInt64 c.CurRate.num = 0
  · rw [if_pos h1]
    simp only [reduceCtorEq, false_iff]
    intro h; exact h.rate ((rate_multiple _).mp h1)
  · rw [if_neg h1]
    by_cases h2 : c.CurSym.code = ['X', 'X', 'X']
    · rw [if_pos h2]
      simp only [reduceCtorEq, false_iff]
      intro h; exact h.sym h2
    · rw [if_neg h2]
      simp only [true_iff]
      exact ⟨fun h => h1 ((rate_multiple _).mpr h), h2⟩

/-- C19: an accepted currency has a nonzero rate and a set symbol.  Full statement:
`c.valid = none ↔ GoodCurrency c` for every currency.  Missing: the converse for rates that
are a nonzero whole multiple of 2^64, which the code rejects (next theorem). -/
theorem C19_currency_valid_iff_partial (c : Currency) :
    (c.valid = none → GoodCurrency c) ∧
    ((¬ ∃ k : Int, k ≠ 0 ∧ c.CurRate = (k * 2 ^ 64 : Int)) → GoodCurrency c → c.valid = none) := by
  rw [C19_currency_valid_iff_recognised]
  constructor
  · rintro ⟨h1, h2⟩
    refine ⟨fun h => h1 ⟨0, by simpa using h⟩, h2⟩
  · rintro hk ⟨h1, h2⟩
    refine ⟨?_, h2⟩
    rintro ⟨k, h⟩
    refine hk ⟨k, ?_, h⟩
    rintro rfl
    apply h1; simpa using h

/-- C19 is violated: rates that are nonzero whole multiples of 2^64 are taken for zero. -/
theorem C19_currency_huge_rate_rejected (k : Int) (name sym : Str) :
    (⟨name, (k * 2 ^ 64 : Int), ⟨sym⟩⟩ : Currency).valid = some "CurRate may not be zero" := by
  unfold Currency.valid
  rw [if_pos ((rate_multiple _).mpr ⟨k, rfl⟩)]

example : GoodCurrency ⟨[], 18446744073709551616, ⟨"USD".toList⟩⟩ := ⟨by decide, by decide⟩
example : (⟨[], 3/2, ⟨"USD".toList⟩⟩ : Currency).valid = none := by decide +kernel
example : (⟨[], "1".toList, [], "2".toList, 3, []⟩ : BankAcct).valid = none := by decide +kernel
example : (⟨[], "1".toList, [], "2".toList, 0, []⟩ : BankAcct).valid ≠ none := by decide +kernel
example : ¬ ∃ k : Int, k ≠ 0 ∧ (⟨[], 0, ⟨"USD".toList⟩⟩ : Currency).CurRate = (k * 2 ^ 64 : Int) := by
  rintro ⟨k, h1, h2⟩
  have h2 : ((0 : Int) : Rat) = (k * 2 ^ 64 : Int) := h2
  have := Rat.intCast_injective h2
  omega

/-! ### C21 transactions -/

theorem payee_valid_iff (p : Payee) : p.valid = none ↔ GoodPayee p := by
  unfold Payee.valid
  simp only [blen_zero]
  constructor
  · intro h
    by_cases h1 : p.Name = []
    · rw [if_pos h1] at h; cases h
    rw [if_neg h1] at h
    by_cases h2 : p.Addr1 = []
    · rw [if_pos h2] at h; cases h
    rw [if_neg h2] at h
    by_cases h3 : p.City = []
    · rw [if_pos h3] at h; cases h
    rw [if_neg h3] at h
    by_cases h4 : p.State = []
    · rw [if_pos h4] at h; cases h
    rw [if_neg h4] at h
    by_cases h5 : p.PostalCode = []
    · rw [if_pos h5] at h; cases h
    rw [if_neg h5] at h
    by_cases h6 : blen p.Country ≠ 0 ∧ blen p.Country ≠ 3
    · erw [if_pos h6] at h; cases h
    erw [if_neg h6] at h
    by_cases h7 : p.Phone = []
    · rw [if_pos h7] at h; cases h
    refine ⟨h1, h2, h3, h4, h5, ?_, h7⟩
    rw [← blen_bytes]
    by_cases hc : p.Country = []
    · exact .inl hc
    · right; by_contra hb; exact h6 ⟨blen_zero.not.mpr hc, hb⟩
  · rintro ⟨h1, h2, h3, h4, h5, h6, h7⟩
    rw [← blen_bytes] at h6
    rw [if_neg h1, if_neg h2, if_neg h3, if_neg h4, if_neg h5]
    erw [if_neg (show ¬ (blen p.Country ≠ 0 ∧ blen p.Country ≠ 3) by
      rintro ⟨a, b⟩; rcases h6 with h | h
      · exact a (blen_zero.mpr h)
      · exact b h)]
    rw [if_neg h7]

theorem validTo_iff (t : Transaction) : t.validTo = none ↔
    (t.BankAcctTo = none ∨ t.CCAcctTo = none) ∧ (∀ b, t.BankAcctTo = some b → GoodBankAcct b) ∧
    (∀ c, t.CCAcctTo = some c → c.AcctID ≠ []) := by
  unfold Transaction.validTo
  cases hb : t.BankAcctTo with
  | none =>
    cases hc : t.CCAcctTo with
    | none => simp
    | some c => simp [C19_ccacct_valid_iff]
  | some b =>
    cases hc : t.CCAcctTo with
    | none => simp [C19_bankacct_valid_iff]
    | some c => simp

theorem okCurrency_iff (c : Option Currency) : okCurrency c = true ↔ ∃ x, c = some x ∧ RecognisedCurrency x := by
  cases c with
  | none => simp [okCurrency]
  | some x => simp [okCurrency, ← C19_currency_valid_iff_recognised]

/-- The outcome of Transaction.Valid, with the correction test as it stands. -/
theorem transaction_valid_iff (v : Nat) (t : Transaction) :
    t.valid v = none ↔ GoodTransaction (11 ≤ v) t ∧
      ¬ (t.CorrectFiTID ≠ [] ∧ enumCorrectAction.valid t.CorrectAction = true) := by
  unfold Transaction.valid
  constructor
  · intro h
    by_cases h1 : !enumTrnType.valid t.TrnType ∨ t.TrnType = trnTypeHold
    · erw [if_pos h1] at h; cases h
    erw [if_neg h1] at h
    by_cases h2 : Date.equal t.DtPosted emptyDate = true
    · erw [if_pos h2] at h; cases h
    erw [if_neg h2] at h
    by_cases h3 : blen t.FiTID = 0
    · erw [if_pos h3] at h; cases h
    erw [if_neg h3] at h
    by_cases h4 : blen t.CorrectFiTID > 0 ∧ enumCorrectAction.valid t.CorrectAction
    · erw [if_pos h4] at h; cases h
    erw [if_neg h4] at h
    by_cases h5 : blen t.Name > 0 ∧ t.Payee.isSome
    · erw [if_pos h5] at h; cases h
    erw [if_neg h5] at h
    cases h6 : t.Payee.bind Payee.valid with
    | some e => rw [h6] at h; cases h
    | none =>
    rw [h6] at h
    cases h7 : t.validTo with
    | some e => rw [h7] at h; cases h
    | none =>
    rw [h7] at h
    obtain ⟨h7a, h7b, h7c⟩ := (validTo_iff t).mp h7
    simp only at h
    by_cases h8 : v < ofxVersion220 ∧ t.ImageData.length > 0
    · erw [if_pos h8] at h; cases h
    erw [if_neg h8] at h
    by_cases h9 : t.ImageData.length > 2
    · erw [if_pos h9] at h; cases h
    erw [if_neg h9] at h
    by_cases h10 : okCurrency t.Currency && okCurrency t.OrigCurrency
    · erw [if_pos h10] at h; cases h
    refine ⟨⟨?_, ?_, ?_, ?_, ?_, h7a, h7b, h7c, ?_, by omega, ?_⟩, ?_⟩
    · apply trnType_named.mpr
      cases hv : enumTrnType.valid t.TrnType
      · exact absurd (.inl (by simp [hv])) h1
      · exact ⟨rfl, fun e => h1 (.inr e)⟩
    · rw [← date_unset]; exact h2
    · exact blen_zero.not.mp h3
    · by_cases hn : t.Name = []
      · exact .inl hn
      · right
        cases hp : t.Payee with
        | none => rfl
        | some p => exact absurd ⟨blen_pos.mpr hn, by simp [hp]⟩ h5
    · intro p hp
      rw [hp] at h6
      exact (payee_valid_iff p).mp h6
    · intro hi
      have : t.ImageData.length ≠ 0 := by simpa using hi
      by_contra hv
      exact h8 ⟨by unfold ofxVersion220; omega, by omega⟩
    · intro c o hc ho ⟨h1, h2⟩
      exact h10 (by rw [Bool.and_eq_true]; exact ⟨(okCurrency_iff _).mpr ⟨c, hc, h1⟩, (okCurrency_iff _).mpr ⟨o, ho, h2⟩⟩)
    · rintro ⟨a, b⟩
      exact h4 ⟨blen_pos.mpr a, b⟩
  · rintro ⟨g, hc⟩
    obtain ⟨a1, a2⟩ := trnType_named.mp g.type
    erw [if_neg (show ¬ (!enumTrnType.valid t.TrnType ∨ t.TrnType = trnTypeHold) by simp [a1, a2])]
    erw [if_neg (date_unset.not.mpr g.posted), if_neg (blen_zero.not.mpr g.id)]
    erw [if_neg (show ¬ (blen t.CorrectFiTID > 0 ∧ enumCorrectAction.valid t.CorrectAction) by
      rintro ⟨a, b⟩; exact hc ⟨blen_pos.mp a, b⟩)]
    erw [if_neg (show ¬ (blen t.Name > 0 ∧ t.Payee.isSome) by
      rintro ⟨a, b⟩
      rcases g.name_or_payee with h | h
      · exact blen_pos.mp a h
      · rw [h] at b; cases b)]
    have h6 : t.Payee.bind Payee.valid = none := by
      cases hp : t.Payee with
      | none => rfl
      | some p => exact (payee_valid_iff p).mpr (g.payee p hp)
    rw [h6, (validTo_iff t).mpr ⟨g.one_dest, g.bank_to, g.cc_to⟩]
    simp only
    erw [if_neg (show ¬ (v < ofxVersion220 ∧ t.ImageData.length > 0) by
      rintro ⟨a, b⟩
      have := g.images_version (by intro e; rw [e] at b; simp at b)
      unfold ofxVersion220 at a; omega)]
    erw [if_neg (show ¬ t.ImageData.length > 2 by have := g.images; omega)]
    erw [if_neg (show ¬ (okCurrency t.Currency && okCurrency t.OrigCurrency) by
      rw [Bool.and_eq_true]
      rintro ⟨a, b⟩
      obtain ⟨c, hc, h1⟩ := (okCurrency_iff _).mp a
      obtain ⟨o, ho, h2⟩ := (okCurrency_iff _).mp b
      exact g.one_currency c o hc ho ⟨h1, h2⟩)]

/-- C21: an accepted transaction meets the rules. -/
theorem C21_transaction_accepted_meets_rules (v : Nat) (t : Transaction) (h : t.valid v = none) :
    GoodTransaction (11 ≤ v) t := ((transaction_valid_iff v t).mp h).1

/-- C21: a transaction that corrects no other is accepted exactly when it meets the rules. -/
theorem C21_transaction_accepted_iff (v : Nat) (t : Transaction) (hc : t.CorrectFiTID = []) :
    t.valid v = none ↔ GoodTransaction (11 ≤ v) t := by
  rw [transaction_valid_iff]
  simp [hc]

theorem pending_valid_iff (t : PendingTransaction) : t.valid = none ↔ GoodPending t := by
  have ht : (∃ n ∈ ["CREDIT", "DEBIT", "INT", "DIV", "FEE", "SRVCHG", "DEP", "ATM", "POS", "XFER", "CHECK",
    "PAYMENT", "CASH", "DIRECTDEP", "DIRECTDEBIT", "REPEATPMT", "HOLD", "OTHER"], Named enumTrnType t.TrnType n) ↔
      enumTrnType.valid t.TrnType = true :=
    named_valid (good_of_mem (by decide)) (by decide) (by decide)
  unfold PendingTransaction.valid
  constructor
  · intro h
    by_cases h1 : (!enumTrnType.valid t.TrnType) = true
    · erw [if_pos h1] at h; cases h
    erw [if_neg h1] at h
    by_cases h2 : Date.equal t.DtTran emptyDate = true
    · erw [if_pos h2] at h; cases h
    erw [if_neg h2] at h
    by_cases h3 : blen t.Name = 0
    · erw [if_pos h3] at h; cases h
    erw [if_neg h3] at h
    by_cases h4 : (t.Currency.valid.isNone && t.OrigCurrency.valid.isNone) = true
    · erw [if_pos h4] at h; cases h
    refine ⟨ht.mpr (by simpa using h1), by rw [← date_unset]; exact h2, blen_zero.not.mp h3, ?_⟩
    rintro ⟨a, b⟩
    rw [← C19_currency_valid_iff_recognised] at a b
    exact h4 (by simp [a, b])
  · intro g
    erw [if_neg (show ¬ (!enumTrnType.valid t.TrnType) = true by simp [ht.mp g.type])]
    erw [if_neg (date_unset.not.mpr g.date), if_neg (blen_zero.not.mpr g.name)]
    erw [if_neg (show ¬ (t.Currency.valid.isNone && t.OrigCurrency.valid.isNone) = true by
      rw [Bool.and_eq_true, Option.isNone_iff_eq_none, Option.isNone_iff_eq_none,
        C19_currency_valid_iff_recognised, C19_currency_valid_iff_recognised]
      exact g.one_currency)]

theorem balance_valid_iff (b : Balance) : b.valid = none ↔ GoodBalance b := by
  have ht : (∃ n ∈ ["DOLLAR", "PERCENT", "NUMBER"], Named enumBalType b.BalType n) ↔
      enumBalType.valid b.BalType = true :=
    named_valid (good_of_mem (by decide)) (by decide) (by decide)
  unfold Balance.valid
  simp only [blen_zero]
  constructor
  · intro h
    by_cases h1 : b.Name = [] ∨ b.Desc = []
    · rw [if_pos h1] at h; cases h
    rw [if_neg h1] at h
    by_cases h2 : (!enumBalType.valid b.BalType) = true
    · rw [if_pos h2] at h; cases h
    exact ⟨fun e => h1 (.inl e), fun e => h1 (.inr e), ht.mpr (by simpa using h2)⟩
  · intro g
    rw [if_neg (show ¬ (b.Name = [] ∨ b.Desc = []) by rintro (h | h); exacts [g.name h, g.desc h])]
    rw [if_neg (by simp [ht.mp g.type])]

theorem uid_valid_iff (u : Str) : UID.valid u = none ↔ GoodUID u := by
  unfold UID.valid GoodUID
  rw [← blen_bytes]
  by_cases h : blen u = 0 ∨ blen u > 36
  · rw [if_pos h]; simp only [reduceCtorEq, false_iff]; omega
  · rw [if_neg h]; simp only [true_iff]; omega

/-- C21: a bank statement is accepted exactly when it meets the statement rules and its
transactions, pending transactions and balances are accepted. -/
theorem C21_statement_accepted_iff (v : Nat) (s : StatementResponse) :
    s.valid v = none ↔ GoodStatement (11 ≤ v) (fun t => t.valid v = none) s := by
  unfold StatementResponse.valid
  have hl : ∀ l : TransactionList, l.valid v = none ↔
      ¬ Unset l.DtStart ∧ ¬ Unset l.DtEnd ∧ ∀ t ∈ l.Transactions, t.valid v = none := by
    intro l
    unfold TransactionList.valid
    by_cases h1 : Date.equal l.DtStart emptyDate = true
    · rw [if_pos h1]; simp [date_unset.mp h1]
    rw [if_neg h1]
    by_cases h2 : Date.equal l.DtEnd emptyDate = true
    · rw [if_pos h2]; simp [date_unset.mp h2]
    rw [if_neg h2, firstError_none]
    rw [date_unset] at h1 h2
    simp [h1, h2]
  have hp : ∀ l : PendingTransactionList, l.valid = none ↔
      ¬ Unset l.DtAsOf ∧ ∀ t ∈ l.Transactions, GoodPending t := by
    intro l
    unfold PendingTransactionList.valid
    by_cases h1 : Date.equal l.DtAsOf emptyDate = true
    · rw [if_pos h1]; simp [date_unset.mp h1]
    rw [if_neg h1, firstError_none]
    rw [date_unset] at h1
    simp [h1, pending_valid_iff]
  have hcur : s.CurDef.valid = none ↔ s.CurDef.code ≠ "XXX".toList := by
    unfold CurrSymbol.valid
    by_cases h : s.CurDef.code = ['X', 'X', 'X']
    · rw [if_pos h]; simpa using h
    · rw [if_neg h]; simpa using h
  have hpend : StatementResponse.validPending v s.BankTranListP = none ↔
      (s.BankTranListP ≠ none → 11 ≤ v) ∧
      ∀ l, s.BankTranListP = some l → ¬ Unset l.DtAsOf ∧ ∀ t ∈ l.Transactions, GoodPending t := by
    unfold StatementResponse.validPending
    cases s.BankTranListP with
    | none => simp
    | some l =>
      by_cases hv : v < ofxVersion220
      · simp only [hv, if_true, reduceCtorEq, false_iff]
        rintro ⟨h, _⟩
        have := h (by simp)
        unfold ofxVersion220 at hv; omega
      · simp only [hv, if_false, hp]
        unfold ofxVersion220 at hv
        constructor
        · intro h; exact ⟨fun _ => by omega, fun l' e => by cases e; exact h⟩
        · rintro ⟨_, h⟩; exact h l rfl
  have htr : s.BankTranList.bind (TransactionList.valid v) = none ↔
      ∀ l, s.BankTranList = some l → ¬ Unset l.DtStart ∧ ¬ Unset l.DtEnd ∧ ∀ t ∈ l.Transactions, t.valid v = none := by
    cases s.BankTranList with
    | none => simp
    | some l => simp [hl]
  constructor
  · intro h
    cases e1 : UID.valid s.TrnUID with
    | some e => rw [e1] at h; cases h
    | none =>
    rw [e1] at h
    cases e2 : s.Status.valid with
    | some e => rw [e2] at h; cases h
    | none =>
    rw [e2] at h
    cases e3 : s.CurDef.valid with
    | some e => rw [e3] at h; cases h
    | none =>
    rw [e3] at h
    cases e4 : s.BankAcctFrom.valid with
    | some e => rw [e4] at h; cases h
    | none =>
    rw [e4] at h
    simp only at h
    by_cases e5 : Date.equal s.DtAsOf emptyDate = true
    · rw [if_pos e5] at h; cases h
    rw [if_neg e5] at h
    by_cases e6 : s.AvailBalAmt.isNone ≠ s.AvailDtAsOf.isNone
    · rw [if_pos e6] at h; cases h
    rw [if_neg e6] at h
    cases e7 : s.BankTranList.bind (TransactionList.valid v) with
    | some e => rw [e7] at h; cases h
    | none =>
    rw [e7] at h
    cases e8 : StatementResponse.validPending v s.BankTranListP with
    | some e => rw [e8] at h; cases h
    | none =>
    rw [e8] at h
    have e8 := hpend.mp e8
    refine ⟨(uid_valid_iff _).mp e1, (C18_status_valid_iff _).mp e2, hcur.mp e3, (C19_bankacct_valid_iff _).mp e4,
      by rw [← date_unset]; exact e5, ?_, htr.mp e7, e8.1, e8.2, ?_⟩
    · rw [ne_eq, not_not] at e6
      rw [← Option.isNone_iff_eq_none, ← Option.isNone_iff_eq_none, e6]
    · intro b hb; exact (balance_valid_iff b).mp (firstError_none.mp h b hb)
  · intro g
    rw [(uid_valid_iff _).mpr g.uid, (C18_status_valid_iff _).mpr g.status, hcur.mpr g.currency,
      (C19_bankacct_valid_iff _).mpr g.acct]
    simp only
    rw [if_neg (date_unset.not.mpr g.asOf)]
    rw [if_neg (show ¬ (s.AvailBalAmt.isNone ≠ s.AvailDtAsOf.isNone) by
      have := g.avail
      rw [← Option.isNone_iff_eq_none, ← Option.isNone_iff_eq_none, ← Bool.eq_iff_iff] at this
      simpa using this)]
    rw [htr.mpr g.trans, hpend.mpr ⟨g.pending_version, g.pending⟩]
    simp only
    exact firstError_none.mpr (fun b hb => (balance_valid_iff b).mpr (g.balances b hb))

/-! ### C20 corrections -/

/-- C20: full statement: a transaction is accepted only if `GoodCorrection`, and
`GoodCorrection` never makes it rejected.  The code tests the action the wrong way round;
what does hold is that transactions without a corrected id are unaffected by their action. -/
theorem C20_no_correction_partial (v : Nat) (t : Transaction) (a : Nat) (hc : t.CorrectFiTID = []) :
    ({ t with CorrectAction := a } : Transaction).valid v = none ↔ t.valid v = none := by
  rw [C21_transaction_accepted_iff v t hc, C21_transaction_accepted_iff v { t with CorrectAction := a } hc]
  exact ⟨fun ⟨a, b, c, d, e, f, g, h, i, j, k⟩ => ⟨a, b, c, d, e, f, g, h, i, j, k⟩,
    fun ⟨a, b, c, d, e, f, g, h, i, j, k⟩ => ⟨a, b, c, d, e, f, g, h, i, j, k⟩⟩

/-- C20 is violated: every correction that says DELETE or REPLACE is rejected. -/
theorem C20_good_correction_rejected (v : Nat) (t : Transaction) (hc : t.CorrectFiTID ≠ [])
    (hg : GoodCorrection t) : t.valid v ≠ none := by
  rw [ne_eq, transaction_valid_iff]
  rintro ⟨_, h⟩
  exact h ⟨hc, correctAction_named.mp (hg hc)⟩

/-- C20 is violated: a transaction that otherwise meets the rules is accepted although it
names a corrected transaction and says neither DELETE nor REPLACE. -/
theorem C20_bad_correction_accepted (v : Nat) (t : Transaction) (hg : GoodTransaction (11 ≤ v) t)
    (hb : ¬ GoodCorrection t) : t.valid v = none := by
  rw [transaction_valid_iff]
  refine ⟨hg, ?_⟩
  rintro ⟨h1, h2⟩
  exact hb (fun _ => correctAction_named.mpr h2)

/-- A plain transaction: a check of one unit on the second day of Go's calendar. -/
def sampleTransaction : Transaction :=
  { TrnType := 11, DtPosted := ⟨86400000000000, "GMT".toList, 0⟩, DtUser := none, DtAvail := none, TrnAmt := -1,
    FiTID := "7".toList, CorrectFiTID := [], CorrectAction := 0, SrvrTID := [], CheckNum := [],
    RefNum := [], SIC := 0, PayeeID := [], Name := "Shop".toList, Payee := none, ExtdName := [],
    BankAcctTo := none, CCAcctTo := none, Memo := [], ImageData := [], Currency := none, OrigCurrency := none,
    Inv401kSource := 0 }

example : sampleTransaction.valid 1 = none ∧ sampleTransaction.CorrectFiTID = [] := by decide +kernel

example : GoodTransaction (11 ≤ 1) { sampleTransaction with CorrectFiTID := ['6'] } ∧
    ¬ GoodCorrection { sampleTransaction with CorrectFiTID := ['6'] } := by
  have h : ({ sampleTransaction with CorrectFiTID := ['6'] } : Transaction).valid 1 = none := by decide +kernel
  refine ⟨((transaction_valid_iff _ _).mp h).1, ?_⟩
  intro hg
  exact C20_good_correction_rejected 1 _ (by decide) hg h

example : GoodCorrection { sampleTransaction with CorrectFiTID := ['6'], CorrectAction := 2 } :=
  fun _ => .inr (by unfold Named; decide +kernel)

/-- A bank statement with two transactions and one balance. -/
def sampleStatement : StatementResponse :=
  { TrnUID := "123".toList, Status := ⟨0, "INFO".toList, []⟩, CltCookie := [], CurDef := ⟨"USD".toList⟩,
    BankAcctFrom := ⟨"BANKACCTFROM".toList, "1".toList, [], "2".toList, 1, []⟩,
    BankTranList := some ⟨⟨1, [], 0⟩, ⟨2, [], 0⟩, [sampleTransaction, { sampleTransaction with FiTID := "8".toList }]⟩,
    BankTranListP := none, BalAmt := 5, DtAsOf := ⟨3, [], 0⟩, AvailBalAmt := none, AvailDtAsOf := none,
    CashAdvBalAmt := none, IntRate := none, BalList := [⟨"a".toList, "b".toList, 1, 1, none, none⟩],
    MktgInfo := [] }

example : sampleStatement.valid 1 = none := by decide +kernel
example : ({ sampleStatement with AvailBalAmt := some 3 } : StatementResponse).valid 1 ≠ none := by decide +kernel

/-! ### C23 signon -/

/-- C23: a signon request is accepted exactly when it meets the rules. -/
theorem C23_signon_valid_iff (v : Nat) (r : SignonRequest) : (r.valid v).1 = none ↔ GoodSignon r := by
  unfold SignonRequest.valid
  constructor
  · intro h
    by_cases h1 : blen r.UserID < 1 ∨ blen r.UserID > 32
    · rw [if_pos h1] at h; cases h
    rw [if_neg h1] at h
    by_cases h2 : (blen r.UserPass = 0) = (blen r.UserKey = 0)
    · rw [if_pos h2] at h; cases h
    rw [if_neg h2] at h
    by_cases h3 : blen r.UserPass > 32
    · rw [if_pos h3] at h; cases h
    rw [if_neg h3] at h
    by_cases h4 : blen r.UserKey > 64
    · rw [if_pos h4] at h; cases h
    rw [if_neg h4] at h
    by_cases h5 : blen r.Language ≠ 0 ∧ blen r.Language ≠ 3
    · rw [if_pos h5] at h; cases h
    rw [if_neg h5] at h
    simp only at h
    by_cases h6 : blen r.AppID < 1 ∨ blen r.AppID > 5
    · rw [if_pos h6] at h; cases h
    rw [if_neg h6] at h
    by_cases h7 : blen r.AppVer < 1 ∨ blen r.AppVer > 4
    · rw [if_pos h7] at h; cases h
    constructor <;> simp only [← blen_bytes, ← blen_zero, ne_eq] <;> simp only [eq_iff_iff] at h2 <;> omega
  · rintro ⟨h1, h2, h3, h4, h5, h6, h7⟩
    simp only [← blen_bytes, ← blen_zero, ne_eq] at h1 h2 h3 h4 h5 h6 h7
    rw [if_neg (by omega), if_neg (by simp only [eq_iff_iff]; omega), if_neg (by omega), if_neg (by omega), if_neg (by omega)]
    simp only
    rw [if_neg (by omega), if_neg (by omega)]

/-- C23: on acceptance the language is ENG if it was empty; nothing else changes. -/
theorem C23_signon_language (v : Nat) (r : SignonRequest) (h : (r.valid v).1 = none) :
    (r.valid v).2 = { r with Language := if r.Language = [] then "ENG".toList else r.Language } := by
  have g := (C23_signon_valid_iff v r).mp h
  obtain ⟨h1, h2, h3, h4, h5, h6, h7⟩ := g
  unfold SignonRequest.valid
  simp only [← blen_bytes, ← blen_zero, ne_eq] at h1 h2 h3 h4 h5 h6 h7
  rw [if_neg (by omega), if_neg (by simp only [eq_iff_iff]; omega), if_neg (by omega), if_neg (by omega), if_neg (by omega)]
  simp only
  rw [if_neg (by omega), if_neg (by omega)]
  simp only [blen_zero]
  by_cases hl : r.Language = [] <;> simp [hl]

/-- C23: whatever the outcome, only the language can change, and only from empty to ENG. -/
theorem C23_signon_changes_only_language (v : Nat) (r : SignonRequest) :
    (r.valid v).2 = r ∨ (r.Language = [] ∧ (r.valid v).2 = { r with Language := "ENG".toList }) := by
  unfold SignonRequest.valid
  simp only [blen_zero]
  by_cases hl : r.Language = []
  · simp only [hl, if_true]
    split_ifs <;> simp
  · simp only [hl, if_false]
    split_ifs <;> simp

/-- C23: an accepted request stays accepted and is left alone by further validation. -/
theorem C23_signon_idempotent (v v' : Nat) (r : SignonRequest) (h : (r.valid v).1 = none) :
    (r.valid v).2.valid v' = (none, (r.valid v).2) := by
  have g := (C23_signon_valid_iff v r).mp h
  have g2 : GoodSignon (r.valid v).2 := by
    rw [C23_signon_language v r h]
    obtain ⟨h1, h2, h3, h4, h5, h6, h7⟩ := g
    refine ⟨h1, h2, h3, h4, ?_, h6, h7⟩
    by_cases hl : r.Language = []
    · simp only [hl, if_true]; right; decide
    · simp only [hl, if_false]; exact h5.resolve_left hl |> .inr
  have h2 := (C23_signon_valid_iff v' _).mpr g2
  have h3 := C23_signon_language v' _ h2
  have hne : (r.valid v).2.Language ≠ [] := by
    rw [C23_signon_language v r h]
    by_cases hl : r.Language = [] <;> simp [hl]
  rw [if_neg hne] at h3
  exact Prod.ext h2 h3

/-- C23: a signon response is accepted exactly when its language has three bytes and its
status is a defined one. -/
theorem C23_signon_response_valid_iff (v : Nat) (r : SignonResponse) :
    r.valid v = none ↔ bytes r.Language = 3 ∧ GoodStatus r.Status := by
  unfold SignonResponse.valid
  rw [← blen_bytes]
  by_cases h : blen r.Language = 3
  · rw [if_neg (by simpa using h), C18_status_valid_iff]; simp [h]
  · rw [if_pos h]; simp [h]

/-- A signon request as a user fills it. -/
def sampleSignon : SignonRequest :=
  { DtClient := ⟨3, [], 0⟩, UserID := "myusername".toList, UserPass := "Pa$$word".toList, UserKey := [],
    GenUserKey := false, Language := [], Org := "BNK".toList, Fid := "1987".toList, AppID := "OFXGO".toList,
    AppVer := "0001".toList, ClientUID := [] }

example : sampleSignon.valid 1 = (none, { sampleSignon with Language := "ENG".toList }) := by rfl

end Ofx.Props
