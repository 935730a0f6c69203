import Verif.Props.CliCrash
/-
C60: what the printing commands print.
-/
namespace Ofx.Props
open Ofx Spec

theorem decoded_types {env : Env} {nt : NameTable} {bs : List UInt8} {x : Response Message}
    (h : decodeResponse env nt bs = .ok x) (s : MsgSet) (hs : s ≠ .signon) : ∀ m ∈ x.sets s, m.type = .rs s := by
  have key : ∃ v node, decodeOfx env v node = .ok x := by
    have hb : ∀ strict v toks, decodeBody env strict v toks = .ok x → ∃ v node, decodeOfx env v node = .ok x := by
      intro strict v toks h
      unfold decodeBody at h
      split at h
      · split at h
        · exact ⟨_, _, h⟩
        · cases h
      · cases h
    unfold decodeResponse at h
    by_cases hg : guessVersion (latin1 (bs.take 1024)) = true
    · rw [if_pos hg] at h
      cases hx : readXMLHeaders (lex true nt (utf8Decode bs)) with
      | error e => rw [hx] at h; cases h
      | ok p => rw [hx] at h; exact hb _ _ _ h
    · rw [if_neg hg] at h
      cases hx : readSlice bs with
      | error e => rw [hx] at h; cases h
      | ok p =>
        rw [hx] at h
        simp only at h
        cases hy : checkSGMLHeader p.1 with
        | error e => rw [hy] at h; cases h
        | ok v => rw [hy] at h; exact hb _ _ _ h
  obtain ⟨v, node, h⟩ := key
  obtain ⟨-, cs, -, -, h⟩ := C33_decoded_messages env v node x h
  obtain ⟨n, hn⟩ : ∃ n, (s, n) ∈ responseOrder := by
    have : s ∈ responseOrder.map Prod.fst := by
      rw [show responseOrder.map Prod.fst = MsgSet.lists by decide +kernel]
      exact (MsgSet.mem_lists s).mpr hs
    obtain ⟨p, hp, rfl⟩ := List.mem_map.mp this
    exact ⟨p.2, hp⟩
  intro m hm
  obtain ⟨e, -, he⟩ := mem_forall₂ (List.Forall₂.flip (h _ hn)) hm
  exact he.2.1

theorem enum_ret (t : EnumTable) (ht : t ∈ allEnums) (e : Nat) : t.string e = .ret (enumText t e) := by
  obtain ⟨s, hs, -⟩ := C10_string_total t ht e
  unfold enumText; rw [hs]

/-- The name printed for a transaction. -/
def shownName (t : Transaction) : Str :=
  if t.Name = [] then (match t.Payee with | some p => p.Name | none => []) else t.Name

theorem transactionName_eq (t : Transaction) :
    transactionName t = shownName t ++ (if t.Memo = [] then [] else " - ".toList ++ t.Memo) := by
  have h1 : (if blen t.Name > 0 then t.Name else match t.Payee with | some p => p.Name | none => []) = shownName t := by
    unfold shownName
    by_cases h : t.Name = []
    · rw [if_neg (by rw [h]; decide), if_pos h]
    · rw [if_pos (blen_pos.mpr h), if_neg h]
  have h2 : transactionName t = if blen t.Memo > 0 then shownName t ++ " - ".toList ++ t.Memo else shownName t := by
    rw [← h1]; rfl
  rw [h2]
  by_cases hm : t.Memo = []
  · rw [if_neg (by rw [hm]; decide), if_pos hm, List.append_nil]
  · rw [if_pos (blen_pos.mpr hm), if_neg hm, List.append_assoc]

theorem transactionLine_eq (cur : CurrSymbol) (t : Transaction) : Spec.transactionLine cur t (printTransaction cur t).out := by
  refine ⟨15 - (Amount.string t.TrnAmt ++ [' '] ++ (transactionCurrency cur t).code).length,
    11 - (enumText enumTrnType t.TrnType).length, enumText enumTrnType t.TrnType,
    shownName t, enum_ret _ (by decide +kernel) _, ?_, ?_⟩
  · by_cases h : t.Name = []
    · right
      unfold shownName
      rw [if_pos h]
      cases hp : t.Payee with
      | none => exact .inr ⟨h, rfl, rfl⟩
      | some p => exact .inl ⟨h, p, rfl, rfl⟩
    · left
      unfold shownName
      rw [if_neg h]; exact ⟨rfl, h⟩
  · have hc : transactionCurrency cur t = (t.Currency.map (·.CurSym)).getD cur := by
      unfold transactionCurrency; cases t.Currency <;> rfl
    show Ofx.transactionLine _ _ _ = _
    unfold Ofx.transactionLine padRight
    rw [transactionName_eq, hc]
    simp only [List.append_assoc]
    rfl

theorem forall₂_lines {α : Type} {P : α → Str → Prop} {f : α → Printed} (h : ∀ x, P x (f x).out) (l : List α) :
    List.Forall₂ P l (l.map (fun x => (f x).out)) := by
  induction l with
  | nil => exact .nil
  | cons x l ih => exact .cons (h x) ih

theorem forPrint_lines {α : Type} (f : α → Printed) (l : List α) (h : ∀ x ∈ l, (f x).panics = false) :
    (forPrint f l).out = (l.map (fun x => (f x).out)).flatten := by
  rw [forPrint_out f l (by
    rw [← Bool.not_eq_true, forPrint_panics]
    rintro ⟨x, hx, h'⟩; rw [h x hx] at h'; cases h')]
  rw [List.flatMap_def]

theorem invCurrency_code (cur : CurrSymbol) (c : Currency) : (invCurrency cur c).code = currencyCode cur c := by
  unfold invCurrency currencyCode
  cases h : c.valid <;> simp

/-- Compares the text printed with the template. -/
local macro "shown_line" : tactic =>
  `(tactic| (simp only [invTransactionText, printInvBuy, printInvSell, securityText, invCurrency_code, investmentLine,
      investmentLine.buyFacts, investmentLine.sellFacts]; simp [fill, padRight]))

theorem investmentLine_of {cur : CurrSymbol} {t : InvTransaction} {kind : Str} (h : t.transactionType = kind) :
    (printInvTransaction cur t).out = padRight 14 kind ++ invTransactionText cur t := by
  rw [← h]; rfl

theorem investmentLine_eq (cur : CurrSymbol) (t : InvTransaction) :
    (printInvTransaction cur t).out = investmentLine cur t := by
  cases t
  case buyDebt => rw [investmentLine_of (kind := "BUYDEBT".toList) (by with_unfolding_all rfl)]; shown_line
  case buyMF => rw [investmentLine_of (kind := "BUYMF".toList) (by with_unfolding_all rfl)]; shown_line
  case buyOpt => rw [investmentLine_of (kind := "BUYOPT".toList) (by with_unfolding_all rfl)]; shown_line
  case buyOther => rw [investmentLine_of (kind := "BUYOTHER".toList) (by with_unfolding_all rfl)]; shown_line
  case buyStock => rw [investmentLine_of (kind := "BUYSTOCK".toList) (by with_unfolding_all rfl)]; shown_line
  case closureOpt => rw [investmentLine_of (kind := "CLOSUREOPT".toList) (by with_unfolding_all rfl)]; shown_line
  case income => rw [investmentLine_of (kind := "INCOME".toList) (by with_unfolding_all rfl)]; shown_line
  case invExpense => rw [investmentLine_of (kind := "INVEXPENSE".toList) (by with_unfolding_all rfl)]; shown_line
  case jrnlFund => rw [investmentLine_of (kind := "JRNLFUND".toList) (by with_unfolding_all rfl)]; shown_line
  case jrnlSec => rw [investmentLine_of (kind := "JRNLSEC".toList) (by with_unfolding_all rfl)]; shown_line
  case marginInterest => rw [investmentLine_of (kind := "MARGININTEREST".toList) (by with_unfolding_all rfl)]; shown_line
  case reinvest => rw [investmentLine_of (kind := "REINVEST".toList) (by with_unfolding_all rfl)]; shown_line
  case retOfCap => rw [investmentLine_of (kind := "RETOFCAP".toList) (by with_unfolding_all rfl)]; shown_line
  case sellDebt => rw [investmentLine_of (kind := "SELLDEBT".toList) (by with_unfolding_all rfl)]; shown_line
  case sellMF => rw [investmentLine_of (kind := "SELLMF".toList) (by with_unfolding_all rfl)]; shown_line
  case sellOpt => rw [investmentLine_of (kind := "SELLOPT".toList) (by with_unfolding_all rfl)]; shown_line
  case sellOther => rw [investmentLine_of (kind := "SELLOTHER".toList) (by with_unfolding_all rfl)]; shown_line
  case sellStock => rw [investmentLine_of (kind := "SELLSTOCK".toList) (by with_unfolding_all rfl)]; shown_line
  case split => rw [investmentLine_of (kind := "SPLIT".toList) (by with_unfolding_all rfl)]; shown_line
  case transfer => rw [investmentLine_of (kind := "TRANSFER".toList) (by with_unfolding_all rfl)]; shown_line

theorem say_andThen_out (a : Str) (p : Printed) : ((say a).andThen p).out = a ++ p.out := by
  rw [say_andThen]

theorem andThen_out_ok {p q : Printed} (h : p.panics = false) : (p.andThen q).out = p.out ++ q.out := by
  unfold Printed.andThen
  rw [h]; rfl

theorem subaccountLines_eq (cur : CurrSymbol) (b : InvBankTransaction) :
    subaccountLines cur b (printInvBankTransaction cur b).out := by
  refine ⟨enumText enumSubAcctType b.SubAcctFund, b.Transactions.map (fun t => (printTransaction cur t).out),
    enum_ret _ (by decide +kernel) _, forall₂_lines (transactionLine_eq cur) _, ?_⟩
  unfold printInvBankTransaction
  rw [say_andThen_out, forPrint_lines _ _ (fun _ _ => rfl)]

theorem accountLines_eq (a : AcctInfo) : accountLines a (accountText a) := by
  unfold accountText
  cases hb : a.BankAcctInfo with
  | some b => exact .inl ⟨b, _, hb, enum_ret _ (by decide +kernel) _, rfl⟩
  | none =>
    cases hc : a.CCAcctInfo with
    | some c => exact .inr (.inl ⟨c, hb, hc, rfl⟩)
    | none =>
      cases hi : a.InvAcctInfo with
      | some i => exact .inr (.inr (.inl ⟨i, hb, hc, hi, rfl⟩))
      | none => exact .inr (.inr (.inr ⟨hb, hc, hi, rfl⟩))

theorem rs_bank {m : Message} (h : m.type = .rs .bank) : ∃ s, m = .statementResponse s := by
  cases m <;> first | exact ⟨_, rfl⟩ | cases h

theorem rs_creditCard {m : Message} (h : m.type = .rs .creditCard) : ∃ s, m = .ccStatementResponse s := by
  cases m <;> first | exact ⟨_, rfl⟩ | cases h

theorem rs_invStmt {m : Message} (h : m.type = .rs .invStmt) : ∃ s, m = .invStatementResponse s := by
  cases m <;> first | exact ⟨_, rfl⟩ | cases h

theorem rs_signup {m : Message} (h : m.type = .rs .signup) : ∃ s, m = .acctInfoResponse s := by
  cases m <;> first | exact ⟨_, rfl⟩ | cases h

theorem printBank_shown {x : Response Message} (ht : ∀ m ∈ x.sets .bank, m.type = .rs .bank)
    (hp : ¬ Crashes .transactionsBank x) : Shown .transactionsBank x (printBank x).out := by
  show (_ ∨ _)
  unfold printBank
  cases h : x.sets .bank with
  | nil => exact .inl ⟨rfl, rfl⟩
  | cons m rest =>
    obtain ⟨s, rfl⟩ := rs_bank (ht m (by rw [h]; exact List.mem_cons_self))
    right
    cases hl : s.BankTranList with
    | none => exact absurd ⟨s, rest, h, hl⟩ hp
    | some l =>
      refine ⟨s, rest, l, l.Transactions.map (fun t => (printTransaction s.CurDef t).out), rfl, hl,
        forall₂_lines (transactionLine_eq s.CurDef) _, ?_⟩
      simp only [hl]
      rw [say_andThen_out, say_andThen_out, forPrint_lines _ _ (fun _ _ => rfl), List.append_assoc]
      rfl

theorem printCC_shown {x : Response Message} (ht : ∀ m ∈ x.sets .creditCard, m.type = .rs .creditCard)
    (hp : ¬ Crashes .transactionsCC x) : Shown .transactionsCC x (printCC x).out := by
  show (_ ∨ _)
  unfold printCC
  cases h : x.sets .creditCard with
  | nil => exact .inl ⟨rfl, rfl⟩
  | cons m rest =>
    obtain ⟨s, rfl⟩ := rs_creditCard (ht m (by rw [h]; exact List.mem_cons_self))
    right
    cases hl : s.BankTranList with
    | none => exact absurd ⟨s, rest, h, .inl hl⟩ hp
    | some l =>
      have hq : ∀ t ∈ l.Transactions, printCCTransaction s.CurDef t = printTransaction s.CurDef t := by
        intro t htl
        rw [printCCTransaction_eq, if_neg]
        exact fun h' => hp ⟨s, rest, h, .inr ⟨l, hl, t, htl, h'⟩⟩
      refine ⟨s, rest, l, l.Transactions.map (fun t => (printTransaction s.CurDef t).out), rfl, hl,
        forall₂_lines (transactionLine_eq s.CurDef) _, ?_⟩
      simp only [hl]
      rw [say_andThen_out, say_andThen_out, forPrint_lines _ _ (fun t h' => by rw [hq t h']; rfl), List.append_assoc,
        List.map_congr_left (fun t h' => by rw [hq t h'])]
      rfl

theorem printAccounts_shown {x : Response Message} (ht : ∀ m ∈ x.sets .signup, m.type = .rs .signup) :
    Shown .getAccounts x (printAccounts x).out := by
  show (_ ∨ _)
  unfold printAccounts
  cases h : x.sets .signup with
  | nil => exact .inl ⟨rfl, rfl⟩
  | cons m rest =>
    obtain ⟨a, rfl⟩ := rs_signup (ht m (by rw [h]; exact List.mem_cons_self))
    right
    refine ⟨a, rest, a.AcctInfo.map accountText, rfl, ?_, ?_⟩
    · exact forall₂_lines (f := fun a => say (accountText a)) accountLines_eq _
    · rw [say_andThen_out]
      simp only
      rw [forPrint_lines _ _ (fun _ _ => rfl)]
      rfl

/-- The investment printer without the balance. -/
theorem printInv_shown {x : Response Message} (ht : ∀ m ∈ x.sets .invStmt, m.type = .rs .invStmt)
    (hp : ¬ Crashes .transactionsInv x) :
    (x.sets .invStmt = [] ∧ (printInv x).out = "No investment messages received\n".toList) ∨
    ∃ s rest bal l subs, x.sets .invStmt = .invStatementResponse s :: rest ∧ s.InvBal = some bal ∧
      s.InvTranList = some l ∧ List.Forall₂ (subaccountLines s.CurDef) l.BankTransactions subs ∧
      (printInv x).out = (if bal.AvailCash.den = 1 ∧ bigInt64 bal.AvailCash.num ≠ 0 then
          Spec.balanceLine bal.AvailCash s.CurDef s.DtAsOf else []) ++
        (subs.flatten ++ ("\nInvestment Transactions:\n".toList ++
          (l.InvTransactions.map (investmentLine s.CurDef)).flatten)) := by
  unfold printInv
  cases h : x.sets .invStmt with
  | nil => exact .inl ⟨rfl, rfl⟩
  | cons m rest =>
    obtain ⟨s, rfl⟩ := rs_invStmt (ht m (by rw [h]; exact List.mem_cons_self))
    right
    cases hb : s.InvBal with
    | none => exact absurd ⟨s, rest, h, .inl hb⟩ hp
    | some bal =>
      cases hl : s.InvTranList with
      | none => exact absurd ⟨s, rest, h, .inr hl⟩ hp
      | some l =>
        refine ⟨s, rest, bal, l, l.BankTransactions.map (fun t => (printInvBankTransaction s.CurDef t).out), rfl, hb, hl,
          forall₂_lines (subaccountLines_eq s.CurDef) _, ?_⟩
        simp only [hb, hl]
        have hsub : ∀ b, (printInvBankTransaction s.CurDef b).panics = false := by
          intro b
          unfold printInvBankTransaction
          rw [← Bool.not_eq_true, say_andThen]
          intro h
          obtain ⟨t, -, h⟩ := (forPrint_panics _ _).mp h
          cases h
        have hsubs : (forPrint (printInvBankTransaction s.CurDef) l.BankTransactions).panics = false := by
          rw [← Bool.not_eq_true, forPrint_panics]
          rintro ⟨b, -, h⟩
          rw [hsub b] at h; cases h
        rw [say_andThen_out, andThen_out_ok hsubs, say_andThen_out, forPrint_lines _ _ (fun b _ => hsub b),
          forPrint_lines _ _ (fun _ _ => rfl), funext (investmentLine_eq s.CurDef)]
        rfl

theorem shows_printed (w : World) (f : Flags) (c : Command) (hc : Shows c) (hd : f.dryrun = false)
    (h0 : (c.run w f).fin = .exit 0) :
    ∃ resp x, lastResponse (c.run w f).trace = some resp ∧ parseResponse w.env w.names resp.body = (some x, none) ∧
      ¬ Crashes c x ∧ (c.run w f).out = (c.printer x).out ∧ ∀ s, s ≠ .signon → ∀ m ∈ x.sets s, m.type = .rs s := by
  obtain ⟨onError, he⟩ := run_shows hc w f
  rw [he] at h0 ⊢
  rcases show_cases w f (c.query w f) onError c.printer with ⟨e, -, h1⟩ | ⟨cl, r, hq, ⟨hn, h1⟩ | ⟨-, ht, -, ⟨e, -, -, h1⟩ | ⟨x, hx, ⟨-, -, h1⟩ | ⟨hz, ho, hf⟩⟩⟩⟩
  · rw [h1] at h0; cases h0
  · rw [hd] at hn; cases hn
  · rw [h1] at h0; cases h0
  · rw [h1] at h0; cases h0
  · obtain ⟨resp, k1, k2, k3, k4⟩ := request_last _ _ _ _ _ _ hx
    rw [ht]
    refine ⟨resp, x, k1, k3, ?_, ho, ?_⟩
    · rw [← printer_panics]
      intro hp
      rw [hf, if_pos hp] at h0; cases h0
    · intro s hs
      exact decoded_types ((C35_decodable _ _ _ _).mp (by rw [k3])) s hs

/-- C60: a command that shows bank or credit card transactions or accounts prints what the
response says, which is the last one the server sent. -/
theorem C60_shown (w : World) (f : Flags) (c : Command) (hc : Shows c) (hi : c ≠ .transactionsInv) (hd : f.dryrun = false)
    (h0 : (c.run w f).fin = .exit 0) :
    ∃ resp x, lastResponse (c.run w f).trace = some resp ∧ parseResponse w.env w.names resp.body = (some x, none) ∧
      Shown c x (c.run w f).out := by
  obtain ⟨resp, x, h1, h2, h3, h4, h5⟩ := shows_printed w f c hc hd h0
  refine ⟨resp, x, h1, h2, ?_⟩
  rw [h4]
  rcases hc with rfl | rfl | rfl | rfl
  · exact printAccounts_shown (h5 .signup (by decide))
  · exact printBank_shown (h5 .bank (by decide)) h3
  · exact printCC_shown (h5 .creditCard (by decide)) h3
  · exact absurd rfl hi

theorem start_newline {cur : CurrSymbol} {bs : List InvBankTransaction} {subs : List Str}
    (h : List.Forall₂ (subaccountLines cur) bs subs) (tail : Str) (ht : tail.head? = some '\n') :
    (subs.flatten ++ tail).head? = some '\n' := by
  cases h with
  | nil => exact ht
  | cons h _ =>
    obtain ⟨name, lines, -, -, rfl⟩ := h
    rfl

theorem whole_cash (r : Rat) : (r.den = 1 ∧ bigInt64 r.num ≠ 0) ↔ ∃ k : Int, r = k ∧ ¬ (2 ^ 64 : Int) ∣ k := by
  rw [Ne, bigInt64_zero]
  constructor
  · rintro ⟨h1, h2⟩
    refine ⟨r.num, (Rat.den_eq_one_iff r).mp h1 |>.symm, ?_⟩
    omega
  · rintro ⟨k, rfl, hk⟩
    refine ⟨Rat.den_intCast k, ?_⟩
    rw [Rat.num_intCast]
    omega

/-- C60: the command that shows investment transactions prints what the response says if there is
no investment statement or the cash balance is a whole number (but not a multiple of 2^64).
Otherwise what it prints lacks exactly the line with the balance.  Missing: the balance in those
cases. -/
theorem C60_inv_partial (w : World) (f : Flags) (hd : f.dryrun = false)
    (h0 : (invTransactions w f).fin = .exit 0) :
    ∃ resp x, lastResponse (invTransactions w f).trace = some resp ∧
      parseResponse w.env w.names resp.body = (some x, none) ∧
      ((x.sets .invStmt = [] ∧ Shown .transactionsInv x (invTransactions w f).out) ∨
       ∃ s rest bal, x.sets .invStmt = .invStatementResponse s :: rest ∧ s.InvBal = some bal ∧
        ((∃ k : Int, bal.AvailCash = k ∧ ¬ (2 ^ 64 : Int) ∣ k) ∧ Shown .transactionsInv x (invTransactions w f).out ∨
         (¬ ∃ k : Int, bal.AvailCash = k ∧ ¬ (2 ^ 64 : Int) ∣ k) ∧ ¬ Shown .transactionsInv x (invTransactions w f).out ∧
          Shown .transactionsInv x (Spec.balanceLine bal.AvailCash s.CurDef s.DtAsOf ++ (invTransactions w f).out))) := by
  obtain ⟨resp, x, h1, h2, h3, h4, h5⟩ := shows_printed w f .transactionsInv (.inr (.inr (.inr rfl))) hd h0
  refine ⟨resp, x, h1, h2, ?_⟩
  have h4 : (invTransactions w f).out = (printInv x).out := h4
  rw [h4]
  rcases printInv_shown (h5 .invStmt (by decide)) h3 with h | ⟨s, rest, bal, l, subs, k1, k2, k3, k4, k6⟩
  · exact .inl ⟨h.1, .inl h⟩
  · right
    refine ⟨s, rest, bal, k1, k2, ?_⟩
    rw [← whole_cash]
    by_cases hw : bal.AvailCash.den = 1 ∧ bigInt64 bal.AvailCash.num ≠ 0
    · rw [if_pos hw] at k6
      refine .inl ⟨hw, .inr ⟨s, rest, bal, l, subs, k1, k2, k3, k4, ?_⟩⟩
      rw [k6]; simp only [List.append_assoc]
    · rw [if_neg hw, List.nil_append] at k6
      refine .inr ⟨hw, ?_, .inr ⟨s, rest, bal, l, subs, k1, k2, k3, k4, ?_⟩⟩
      · have hh : (printInv x).out.head? = some '\n' := by
          rw [k6]; exact start_newline k4 _ rfl
        rintro (⟨h, -⟩ | ⟨s', rest', bal', l', subs', -, -, -, -, h⟩)
        · rw [k1] at h; cases h
        · rw [h] at hh
          cases hh
      · rw [k6]; simp only [List.append_assoc]

/-- A response with a bank statement, an investment statement with a transfer between
sub-accounts and half a dollar in cash. -/
def centsResponse : Response Message :=
  { version := 7, signon := sampleSignonResponse,
    sets := fun s => if s = .bank then [.statementResponse sampleBankStatement]
      else if s = .invStmt then [.invStatementResponse
        { TrnUID := "123".toList, Status := ⟨0, "INFO".toList, []⟩, CltCookie := [], DtAsOf := sampleDate, CurDef := ⟨"USD".toList⟩,
          InvAcctFrom := ⟨"INVACCTFROM".toList, "3".toList, "2".toList⟩,
          InvTranList := some ⟨sampleDate, sampleDate, [.jrnlFund ⟨⟨"1".toList, [], sampleDate, none, [], []⟩, 5, 1, 2⟩],
            [⟨[{ sampleTransaction with DtPosted := sampleDate }], 1⟩]⟩,
          InvPosList := [], InvBal := some ⟨1 / 2, 0, 0, 0, []⟩,
          InvOOList := [], MktgInfo := [], Inv401K := none, Inv401KBal := none }]
      else [] }

theorem centsResponse_valid : centsResponse.valid = none := by
  rw [C36_valid_iff]
  refine ⟨by decide +kernel, ?_⟩
  intro s hs m hm
  simp only [centsResponse] at hm
  split_ifs at hm
  all_goals first | (cases hm; done) | (rw [List.mem_singleton] at hm; subst hm; decide +kernel)

theorem centsResponse_ok : ∃ d, centsResponse.marshal.1 = .ok d := by
  rw [C26_response_marshal_iff]
  refine ⟨(C23_signon_response_valid_iff 7 _).mp (by decide +kernel), ?_⟩
  intro s hs m hm
  have hv := ((C36_valid_iff _).mp centsResponse_valid).2 s hs m hm
  simp only [centsResponse] at hm
  split_ifs at hm with h1 h2
  · rw [List.mem_singleton] at hm; subst hm; subst h1; exact ⟨rfl, hv, fun p hp => by cases hp⟩
  · rw [List.mem_singleton] at hm; subst hm; subst h2; exact ⟨rfl, hv, fun p hp => by cases hp⟩
  · cases hm

theorem centsResponse_exact : ∀ s, s ≠ .signon → ∀ m ∈ centsResponse.sets s, ExactMessage sampleEnv m ∧ CleanMessage m ∧ SettledMessage m := by
  intro s hs m hm
  simp only [centsResponse] at hm
  split_ifs at hm with h1 h2
  · rw [List.mem_singleton] at hm; subst hm
    exact ⟨exact_of_check _ _ _ (by decide +kernel), textB_sound _ _ (by decide +kernel), settledB_sound _ _ _ (by decide +kernel)⟩
  · rw [List.mem_singleton] at hm; subst hm
    exact ⟨exact_of_check _ _ _ (by decide +kernel), textB_sound _ _ (by decide +kernel), settledB_sound _ _ _ (by decide +kernel)⟩
  · cases hm

theorem cents_run (now : GoTime) {d : Doc} (hd : centsResponse.marshal.1 = .ok d) (c : Command) (hc : Shows c) :
    (c.run (answering now d.bytes) sampleFlags).fin = .exit 0 ∧ ∃ x,
      (∀ s, s ≠ .signon → x.sets s = centsResponse.sets s) ∧
      (c.run (answering now d.bytes) sampleFlags).out = (c.printer x).out := by
  obtain ⟨cl, r, x, h1, h2, h3, h4⟩ := answered c hc now centsResponse d hd centsResponse_valid (by decide)
      ⟨sampleResponse_exact.1, sampleResponse_clean.1, sampleResponse_exact.2.1⟩ centsResponse_exact
  have hcr : ¬ Crashes c x := by
    rcases hc with rfl | rfl | rfl | rfl
    · exact fun h => h
    · rintro ⟨s, rest, k1, k2⟩
      rw [h4 .bank (by decide)] at k1
      cases k1; cases k2
    · rintro ⟨s, rest, k1, -⟩
      rw [h4 .creditCard (by decide)] at k1
      cases k1
    · rintro ⟨s, rest, k1, k2⟩
      rw [h4 .invStmt (by decide)] at k1
      cases k1; rcases k2 with k2 | k2 <;> cases k2
  obtain ⟨onError, he⟩ := run_shows hc (answering now d.bytes) sampleFlags
  rw [he]
  rcases show_cases (answering now d.bytes) sampleFlags (c.query (answering now d.bytes) sampleFlags) onError c.printer with
    ⟨e, g, -⟩ | ⟨cl', r', g, ⟨g', -⟩ | ⟨-, -, -, ⟨e, g', -⟩ | ⟨x', g', ⟨hz, -⟩ | ⟨hz, ho, hf⟩⟩⟩⟩
  · rw [h1] at g; cases g
  · cases g'
  · rw [h1] at g; cases g; rw [h2] at g'; cases g'
  · rw [h1] at g; cases g; rw [h2] at g'; cases g'
    rw [h3] at hz; exact absurd rfl hz
  · rw [h1] at g; cases g; rw [h2] at g'; cases g'
    refine ⟨?_, x, h4, ho⟩
    rw [hf, if_neg]
    rw [printer_panics]; exact hcr

/-- C60 fails for investments: servers may send a valid response for which the bank transactions
are shown as they should, but the investment transactions without the balance. -/
theorem C60_no_balance (now : GoTime) : ∃ w : World, w.net.now = now ∧
    (∃ x, (bankTransactions w sampleFlags).fin = .exit 0 ∧ x.sets .bank = centsResponse.sets .bank ∧
      Shown .transactionsBank x (bankTransactions w sampleFlags).out) ∧
    ∃ x, (invTransactions w sampleFlags).fin = .exit 0 ∧ x.sets .invStmt = centsResponse.sets .invStmt ∧
      ¬ Shown .transactionsInv x (invTransactions w sampleFlags).out := by
  obtain ⟨d, hd⟩ := centsResponse_ok
  refine ⟨answering now d.bytes, rfl, ?_, ?_⟩
  · obtain ⟨h0, x, h1, h2⟩ := cents_run now hd .transactionsBank (.inr (.inl rfl))
    refine ⟨x, h0, h1 .bank (by decide), ?_⟩
    have h2 : (bankTransactions (answering now d.bytes) sampleFlags).out = (printBank x).out := h2
    rw [h2]
    refine printBank_shown ?_ ?_
    · intro m hm
      rw [h1 .bank (by decide)] at hm
      rw [List.mem_singleton.mp hm]; rfl
    · rintro ⟨s, rest, k1, k2⟩
      rw [h1 .bank (by decide)] at k1
      cases k1; cases k2
  · obtain ⟨h0, x, h1, h2⟩ := cents_run now hd .transactionsInv (.inr (.inr (.inr rfl)))
    refine ⟨x, h0, h1 .invStmt (by decide), ?_⟩
    have h2 : (invTransactions (answering now d.bytes) sampleFlags).out = (printInv x).out := h2
    rw [h2]
    have hp : (printInv x).out = (printInv centsResponse).out := by
      unfold printInv; rw [h1 .invStmt (by decide)]
    have hh : (printInv x).out.head? = some '\n' := by rw [hp]; decide +kernel
    rintro (⟨h, -⟩ | ⟨s', rest', bal', l', subs', -, -, -, -, h⟩)
    · rw [h1 .invStmt (by decide)] at h; cases h
    · rw [h] at hh
      cases hh

end Ofx.Props
