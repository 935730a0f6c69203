import Verif.Spec.AskAgain
import Verif.Props.Belongs
import Verif.Props.Accept
import Verif.Lemmas.SaysDoc
import Verif.Lemmas.GrammarDoc
/-
Property C90: accounts found in a response can be asked about.
-/
namespace Ofx.Props
open Ofx Spec

/-- `found` elements are called what was looked for. -/
theorem elementsAt_called (path : List Str) (name : Str) (cs : List Node) : ∀ e ∈ elementsAt path name cs, e.1 = name := by
  induction path generalizing cs with
  | nil => intro e he; unfold elementsAt at he; simpa using (List.mem_filter.mp he).2
  | cons p ps ih => intro e he; unfold elementsAt at he; exact ih _ e he

theorem last_called (path : List String) (name : String) (es : List (Str × List Node)) (x : Str)
    (h : x = (((found es path name).getLast?).map (fun e => e.1)).getD []) : x = [] ∨ x = name.toList := by
  cases hl : (found es path name).getLast? with
  | none => rw [hl] at h; exact .inl h
  | some e =>
    rw [hl] at h
    refine .inr (h.trans ?_)
    exact elementsAt_called _ _ _ _ (List.mem_of_getLast? hl)

theorem bank_question (uid : Str) (a : BankAcct) (tag : String) (h1 : (if a.XMLName = [] then "BANKACCTFROM".toList else a.XMLName) = tag.toList)
    (kind : Str) (hk : enumAcctType.valid a.AcctType = true) (hs : enumAcctType.string a.AcctType = .ret kind) :
    (bankQuestion uid a).encode = .ok [.elem "STMTTRNRQ".toList [textNode "TRNUID".toList uid,
      .elem "STMTRQ".toList [bankElement tag a kind, includeAll "INCTRAN"]]] := by
  obtain ⟨x, bank, branch, acct, n, key⟩ := a
  have hn : n = 1 ∨ n = 2 ∨ n = 3 ∨ n = 4 ∨ n = 5 := by
    have : (decide (1 ≤ n) && decide (n ≤ 5)) = true := hk
    rw [Bool.and_eq_true, decide_eq_true_iff, decide_eq_true_iff] at this
    omega
  have hinj : ∀ {k s : Str}, Outcome.ret k = Outcome.ret s → k = s := by intro k s h; injection h
  have e : ∀ n, n = 1 ∨ n = 2 ∨ n = 3 ∨ n = 4 ∨ n = 5 → ∀ kind, enumAcctType.string n = .ret kind →
      (bankQuestion uid ⟨x, bank, branch, acct, n, key⟩).encode = .ok [.elem "STMTTRNRQ".toList [textNode "TRNUID".toList uid,
      .elem "STMTRQ".toList [.elem (if x = [] then "BANKACCTFROM".toList else x) ([textNode "BANKID".toList bank] ++ textIf "BRANCHID" branch ++
    [textNode "ACCTID".toList acct, textNode "ACCTTYPE".toList kind] ++ textIf "ACCTKEY" key), includeAll "INCTRAN"]]] := by
    intro n hn kind hs
    rcases hn with rfl | rfl | rfl | rfl | rfl
    · obtain rfl := hinj (hs.symm.trans (show enumAcctType.string 1 = .ret "CHECKING".toList by rfl))
      cases branch <;> cases key <;> rfl
    · obtain rfl := hinj (hs.symm.trans (show enumAcctType.string 2 = .ret "SAVINGS".toList by rfl))
      cases branch <;> cases key <;> rfl
    · obtain rfl := hinj (hs.symm.trans (show enumAcctType.string 3 = .ret "MONEYMRKT".toList by rfl))
      cases branch <;> cases key <;> rfl
    · obtain rfl := hinj (hs.symm.trans (show enumAcctType.string 4 = .ret "CREDITLINE".toList by rfl))
      cases branch <;> cases key <;> rfl
    · obtain rfl := hinj (hs.symm.trans (show enumAcctType.string 5 = .ret "CD".toList by rfl))
      cases branch <;> cases key <;> rfl
  refine (e n hn kind hs).trans ?_
  rw [show (if x = [] then "BANKACCTFROM".toList else x) = tag.toList from h1]
  rfl

theorem card_question (uid : Str) (a : CCAcct) (h1 : (if a.XMLName = [] then "CCACCTFROM".toList else a.XMLName) = "CCACCTFROM".toList) :
    (cardQuestion uid a).encode = .ok [.elem "CCSTMTTRNRQ".toList [textNode "TRNUID".toList uid,
      .elem "CCSTMTRQ".toList [cardElement "CCACCTFROM" a, includeAll "INCTRAN"]]] := by
  obtain ⟨x, acct, key⟩ := a
  have e : (cardQuestion uid ⟨x, acct, key⟩).encode = .ok [.elem "CCSTMTTRNRQ".toList [textNode "TRNUID".toList uid,
      .elem "CCSTMTRQ".toList [.elem (if x = [] then "CCACCTFROM".toList else x) ([textNode "ACCTID".toList acct] ++ textIf "ACCTKEY" key),
        includeAll "INCTRAN"]]] := by
    cases key <;> rfl
  refine e.trans ?_
  rw [show (if x = [] then "CCACCTFROM".toList else x) = _ from h1]
  rfl

theorem investment_question (uid : Str) (a : InvAcct) (h1 : (if a.XMLName = [] then "INVACCTFROM".toList else a.XMLName) = "INVACCTFROM".toList) :
    (investmentQuestion uid a).encode = .ok [.elem "INVSTMTTRNRQ".toList [textNode "TRNUID".toList uid,
      .elem "INVSTMTRQ".toList [investmentElement a, includeAll "INCTRAN", textNode "INCOO".toList "Y".toList, includeAll "INCPOS",
        textNode "INCBAL".toList "Y".toList, textNode "INC401K".toList "Y".toList, textNode "INC401KBAL".toList "Y".toList]]] := by
  obtain ⟨x, broker, acct⟩ := a
  have e : (investmentQuestion uid ⟨x, broker, acct⟩).encode = .ok [.elem "INVSTMTTRNRQ".toList [textNode "TRNUID".toList uid,
      .elem "INVSTMTRQ".toList [.elem (if x = [] then "INVACCTFROM".toList else x) [textNode "BROKERID".toList broker, textNode "ACCTID".toList acct],
        includeAll "INCTRAN", textNode "INCOO".toList "Y".toList, includeAll "INCPOS",
        textNode "INCBAL".toList "Y".toList, textNode "INC401K".toList "Y".toList, textNode "INC401KBAL".toList "Y".toList]]] := rfl
  refine e.trans ?_
  rw [show (if x = [] then "INVACCTFROM".toList else x) = _ from h1]
  rfl

theorem read_message {env : Env} {nt : NameTable} {bs : List UInt8} {r : Response Message} (h : decodeResponse env nt bs = .ok r)
    (s : MsgSet) (hs : s ≠ .signon) (m : Message) (hm : m ∈ r.sets s) : ∃ name cs, MessageSays env name cs m := by
  obtain ⟨v, root, -, h⟩ := (decode_doc env nt bs r).mp h
  obtain ⟨-, cs, first, rest, pre, post, name, ch, -, -, -, -, -, -, -, -, -, hall⟩ := (response_says env v root r).mp h
  have hord : ∀ s, s ≠ .signon → ∃ n, (s, n) ∈ responseOrder := by
    intro s hs
    cases s
    case signon => exact absurd rfl hs
    all_goals exact ⟨_, by simp [responseOrder]; rfl⟩
  obtain ⟨n, hn⟩ := hord s hs
  have := hall _ hn
  obtain ⟨i, hi, rfl⟩ := List.getElem_of_mem hm
  have h2 := (List.forall₂_iff_get.mp this).2 i ((List.forall₂_iff_get.mp this).1 ▸ hi) hi
  exact ⟨_, _, h2.2.2⟩

theorem each_mem {α : Type} {is : List (Str × List Node) → α → Prop} {es : List (Str × List Node)} {vs : List α}
    (h : Each is es vs) {v : α} (hv : v ∈ vs) : ∃ e, is [e] v := by
  obtain ⟨i, hi, rfl⟩ := List.getElem_of_mem hv
  have h2 := (List.forall₂_iff_get.mp h).2 i ((List.forall₂_iff_get.mp h).1 ▸ hi) hi
  exact ⟨_, h2⟩

theorem maybe_some {α : Type} {is : List (Str × List Node) → α → Prop} {es : List (Str × List Node)} {v : Option α} {x : α}
    (h : Maybe is es v) (hx : v = some x) : is es x ∧ es ≠ [] := by
  rcases h with ⟨-, h⟩ | ⟨hne, y, h, hy⟩
  · rw [hx] at h; cases h
  · rw [hx] at h; cases h; exact ⟨hy, hne⟩

theorem bank_named {env : Env} {nt : NameTable} {bs : List UInt8} {r : Response Message} (h : decodeResponse env nt bs = .ok r)
    {a : BankAcct} (ha : HasBankAcct r a) : a.XMLName = [] ∨ a.XMLName = "BANKACCTFROM".toList := by
  cases ha with
  | listed hm hi hb =>
    obtain ⟨name, cs, hs⟩ := read_message h .signup (by decide) _ hm
    obtain ⟨-, -, -, -, -, hs⟩ := hs
    obtain ⟨e, -, -, -, -, -, -, hs, -⟩ := each_mem hs hi
    obtain ⟨⟨-, hs, -⟩, -⟩ := maybe_some hs hb
    exact last_called _ _ _ _ hs.1
  | statement hm =>
    obtain ⟨name, cs, hs⟩ := read_message h .bank (by decide) _ hm
    obtain ⟨-, -, -, -, -, hs, -⟩ := hs
    exact last_called _ _ _ _ hs.1

theorem card_named {env : Env} {nt : NameTable} {bs : List UInt8} {r : Response Message} (h : decodeResponse env nt bs = .ok r)
    {a : CCAcct} (ha : HasCard r a) : a.XMLName = [] ∨ a.XMLName = "CCACCTFROM".toList := by
  cases ha with
  | listed hm hi hb =>
    obtain ⟨name, cs, hs⟩ := read_message h .signup (by decide) _ hm
    obtain ⟨-, -, -, -, -, hs⟩ := hs
    obtain ⟨e, -, -, -, -, -, -, -, hs, -⟩ := each_mem hs hi
    obtain ⟨⟨-, hs, -⟩, -⟩ := maybe_some hs hb
    exact last_called _ _ _ _ hs.1
  | statement hm =>
    obtain ⟨name, cs, hs⟩ := read_message h .creditCard (by decide) _ hm
    obtain ⟨-, -, -, -, -, hs, -⟩ := hs
    exact last_called _ _ _ _ hs.1

theorem investment_named {env : Env} {nt : NameTable} {bs : List UInt8} {r : Response Message} (h : decodeResponse env nt bs = .ok r)
    {a : InvAcct} (ha : HasInvestment r a) : a.XMLName = [] ∨ a.XMLName = "INVACCTFROM".toList := by
  cases ha with
  | listed hm hi hb =>
    obtain ⟨name, cs, hs⟩ := read_message h .signup (by decide) _ hm
    obtain ⟨-, -, -, -, -, hs⟩ := hs
    obtain ⟨e, -, -, -, -, -, -, -, -, hs⟩ := each_mem hs hi
    obtain ⟨⟨-, hs, -⟩, -⟩ := maybe_some hs hb
    exact last_called _ _ _ _ hs.1
  | statement hm =>
    obtain ⟨name, cs, hs⟩ := read_message h .invStmt (by decide) _ hm
    obtain ⟨-, -, -, -, -, -, hs, -⟩ := hs
    exact last_called _ _ _ _ hs.1

theorem paid_named {env : Env} {nt : NameTable} {bs : List UInt8} {r : Response Message} (h : decodeResponse env nt bs = .ok r)
    {a : BankAcct} (ha : PaidBankAcct r a) : a.XMLName = "BANKACCTTO".toList := by
  obtain ⟨m, l, t, hm, hl, ht, ha⟩ := ha
  obtain ⟨name, cs, hs⟩ := read_message h .bank (by decide) _ hm
  obtain ⟨-, -, -, -, -, -, hs, -⟩ := hs
  obtain ⟨⟨-, -, -, hs⟩, -⟩ := maybe_some hs hl
  obtain ⟨e, hs⟩ := each_mem hs ht
  obtain ⟨-, -, -, -, -, -, -, -, -, -, -, -, -, -, -, -, -, hs, -⟩ := hs
  obtain ⟨hs, hne⟩ := maybe_some hs ha
  rcases last_called _ _ _ _ hs.1 with h0 | h0
  · exfalso
    have h1 := hs.1
    rw [h0, List.getLast?_eq_getLast_of_ne_nil hne] at h1
    have h2 := elementsAt_called _ _ _ _ (List.getLast_mem hne)
    exact absurd (h1.trans h2) (by decide)
  · exact h0

/-- A request with one question. -/
theorem question_written {q : Request Message} {s : MsgSet} {m : Message} {name : String} {node : Node} {d : Doc} (hs : s ≠ .signon)
    (hq : AsksOnly q s m) (hn : (s, name) ∈ requestOrder) (hv : (m.valid q.version).2 = m) (he : m.encode = .ok [node])
    (h : q.marshal.1 = .ok d) : QuestionIs d (.elem name.toList [node]) := by
  obtain ⟨signon, content, hb, -, -, hall⟩ := C25_request_body q d h
  have hsets : q.sets = fun t => if t = s then [m] else [] := funext hq
  obtain ⟨name', hn', hbody⟩ := one_message signon s hs m content
  have hname : ∀ a ∈ requestOrder, ∀ b ∈ requestOrder, a.1 = b.1 → a.2 = b.2 := by decide +kernel
  have : name' = name := hname _ hn' _ hn rfl
  subst this
  rw [hsets, hbody] at hb
  have hf := hall s hs
  rw [hq s, if_pos rfl] at hf
  refine ⟨signon, ?_⟩
  cases hc : content s with
  | nil => rw [hc] at hf; cases hf
  | cons n l =>
    rw [hc] at hf
    cases hf with
    | cons h1 h2 =>
      cases h2
      obtain ⟨cs, -, h1⟩ := h1
      rw [hv, he] at h1
      cases h1
      rw [hb, hc]

theorem question_iff {q : Request Message} {s : MsgSet} {m : Message} (hs : s ≠ .signon) (hq : AsksOnly q s m) (ho : RequestOf s m) :
    (∃ d, q.marshal.1 = .ok d) ↔ GoodSignon q.signon ∧ Passes q.version m := by
  rw [C77_request_written_iff]
  constructor
  · rintro ⟨h1, h2⟩
    exact ⟨h1, (h2 s hs m (by rw [hq s, if_pos rfl]; exact List.mem_singleton.mpr rfl)).2⟩
  · rintro ⟨h1, h2⟩
    refine ⟨h1, fun t ht x hx => ?_⟩
    rw [hq t] at hx
    by_cases h : t = s
    · rw [if_pos h, List.mem_singleton] at hx
      subst h hx
      exact ⟨ho, h2⟩
    · rw [if_neg h] at hx; cases hx

theorem good_kind {a : BankAcct} (h : GoodBankAcct a) : ∃ kind, enumAcctType.string a.AcctType = .ret kind ∧ enumAcctType.valid a.AcctType = true := by
  obtain ⟨n, hn, hk⟩ := h.type
  exact ⟨n.toList, hk, acctType_named.mp h.type⟩

/-- C90 for bank accounts: an account listed in a response that was read, or whose statement is in
it, can be asked about.  The request is written exactly if its signon and id meet the rules and
the account is complete, and the account it asks about is described as it was read.  Missing:
accounts money was transferred to, see below. -/
theorem C90_bank_partial (env : Env) (nt : NameTable) (bs : List UInt8) (r : Response Message) (h : decodeResponse env nt bs = .ok r)
    (a : BankAcct) (ha : HasBankAcct r a) (q : Request Message) (uid : Str) (hq : AsksOnly q .bank (bankQuestion uid a)) :
    ((∃ d, q.marshal.1 = .ok d) ↔ GoodSignon q.signon ∧ GoodUID uid ∧ GoodBankAcct a) ∧
    ∀ d, q.marshal.1 = .ok d → ∃ kind, enumAcctType.string a.AcctType = .ret kind ∧
      QuestionIs d (askBank uid (bankElement "BANKACCTFROM" a kind)) := by
  have hiff : (∃ d, q.marshal.1 = .ok d) ↔ GoodSignon q.signon ∧ GoodUID uid ∧ GoodBankAcct a := by
    rw [question_iff (by decide) hq trivial]
    constructor
    · rintro ⟨h1, h2⟩
      exact ⟨h1, h2.uid, h2.acct⟩
    · rintro ⟨h1, h2, h3⟩
      exact ⟨h1, h2, fun h => Bool.noConfusion h, fun h => Bool.noConfusion h, h3⟩
  refine ⟨hiff, fun d hd => ?_⟩
  obtain ⟨-, -, hg⟩ := hiff.mp ⟨d, hd⟩
  obtain ⟨kind, hk, hv⟩ := good_kind hg
  refine ⟨kind, hk, question_written (by decide) hq (name := "BANKMSGSRQV1") (by decide) rfl (bank_question uid a "BANKACCTFROM" ?_ kind hv hk) hd⟩
  rcases bank_named h ha with h | h
  · rw [if_pos h]
  · rw [h]; rfl

/-- C90 for credit card accounts. -/
theorem C90_card (env : Env) (nt : NameTable) (bs : List UInt8) (r : Response Message) (h : decodeResponse env nt bs = .ok r)
    (a : CCAcct) (ha : HasCard r a) (q : Request Message) (uid : Str) (hq : AsksOnly q .creditCard (cardQuestion uid a)) :
    ((∃ d, q.marshal.1 = .ok d) ↔ GoodSignon q.signon ∧ GoodUID uid) ∧
    ∀ d, q.marshal.1 = .ok d → QuestionIs d (askCard uid (cardElement "CCACCTFROM" a)) := by
  refine ⟨question_iff (by decide) hq trivial, fun d hd => ?_⟩
  refine question_written (by decide) hq (name := "CREDITCARDMSGSRQV1") (by decide) rfl (card_question uid a ?_) hd
  rcases card_named h ha with h | h
  · rw [if_pos h]
  · rw [h]; rfl

/-- C90 for investment accounts. -/
theorem C90_investment (env : Env) (nt : NameTable) (bs : List UInt8) (r : Response Message) (h : decodeResponse env nt bs = .ok r)
    (a : InvAcct) (ha : HasInvestment r a) (q : Request Message) (uid : Str) (hq : AsksOnly q .invStmt (investmentQuestion uid a)) :
    ((∃ d, q.marshal.1 = .ok d) ↔ GoodSignon q.signon ∧ GoodUID uid) ∧
    ∀ d, q.marshal.1 = .ok d → QuestionIs d (askInvestment uid (investmentElement a)) := by
  refine ⟨question_iff (by decide) hq trivial, fun d hd => ?_⟩
  refine question_written (by decide) hq (name := "INVSTMTMSGSRQV1") (by decide) rfl (investment_question uid a ?_) hd
  rcases investment_named h ha with h | h
  · rw [if_pos h]
  · rw [h]; rfl

/-- C90 fails for the accounts money was transferred to: the request is written without error, but
the account is described by an element with which no request can describe an account to ask
about. -/
theorem C90_transfer_target (env : Env) (nt : NameTable) (bs : List UInt8) (r : Response Message) (h : decodeResponse env nt bs = .ok r)
    (a : BankAcct) (ha : PaidBankAcct r a) (q : Request Message) (uid : Str) (hq : AsksOnly q .bank (bankQuestion uid a)) :
    ((∃ d, q.marshal.1 = .ok d) ↔ GoodSignon q.signon ∧ GoodUID uid ∧ GoodBankAcct a) ∧
    ∀ d, q.marshal.1 = .ok d → ∃ kind, QuestionIs d (askBank uid (bankElement "BANKACCTTO" a kind)) := by
  have hiff : (∃ d, q.marshal.1 = .ok d) ↔ GoodSignon q.signon ∧ GoodUID uid ∧ GoodBankAcct a := by
    rw [question_iff (by decide) hq trivial]
    constructor
    · rintro ⟨h1, h2⟩
      exact ⟨h1, h2.uid, h2.acct⟩
    · rintro ⟨h1, h2, h3⟩
      exact ⟨h1, h2, fun h => Bool.noConfusion h, fun h => Bool.noConfusion h, h3⟩
  refine ⟨hiff, fun d hd => ?_⟩
  obtain ⟨-, -, hg⟩ := hiff.mp ⟨d, hd⟩
  obtain ⟨kind, hk, hv⟩ := good_kind hg
  refine ⟨kind, question_written (by decide) hq (name := "BANKMSGSRQV1") (by decide) rfl (bank_question uid a "BANKACCTTO" ?_ kind hv hk) hd⟩
  rw [paid_named h ha]; rfl

theorem parsed_rules {env : Env} {nt : NameTable} {bs : List UInt8} {r : Response Message} (h : parseResponse env nt bs = (some r, none)) :
    decodeResponse env nt bs = .ok r ∧ ∀ s, s ≠ .signon → ∀ m ∈ r.sets s, Passes r.version m := by
  obtain ⟨r', h1, -, h2⟩ := (C77_parsed_iff env nt bs).mp (by rw [h])
  have : r' = r := by
    unfold parseResponse at h
    rw [h1] at h
    exact Option.some.inj (congrArg Prod.fst h)
  subst this
  exact ⟨h1, h2⟩

/-- The account of every statement in a response parsed without error can be asked about. -/
theorem C90_statement (env : Env) (nt : NameTable) (bs : List UInt8) (r : Response Message) (h : parseResponse env nt bs = (some r, none))
    (m : StatementResponse) (hm : .statementResponse m ∈ r.sets .bank) (q : Request Message) (uid : Str)
    (hq : AsksOnly q .bank (bankQuestion uid m.BankAcctFrom)) (hs : GoodSignon q.signon) (hu : GoodUID uid) :
    ∃ d kind, q.marshal.1 = .ok d ∧ enumAcctType.string m.BankAcctFrom.AcctType = .ret kind ∧
      QuestionIs d (askBank uid (bankElement "BANKACCTFROM" m.BankAcctFrom kind)) := by
  have hp := parsed_rules h
  obtain ⟨h1, h2⟩ := C90_bank_partial env nt bs r hp.1 _ (.statement hm) q uid hq
  have hg : GoodBankAcct m.BankAcctFrom := ((hp.2 .bank (by decide) _ hm) : GoodStatement _ _ m).acct
  obtain ⟨d, hd⟩ := h1.mpr ⟨hs, hu, hg⟩
  obtain ⟨kind, hk⟩ := h2 d hd
  exact ⟨d, kind, hd, hk⟩

/-- C90 fails for the commands, which have no flags for branches and keys: of the complete bank
accounts they can ask about exactly those that have neither. -/
theorem C90_command (a : BankAcct) (ha : GoodBankAcct a) (uid : Str) :
    (∃ f kind, enumAcctType.string a.AcctType = .ret kind ∧
      Asks f uid .transactionsBank (askBank uid (bankElement "BANKACCTFROM" a kind))) ↔ a.BranchID = [] ∧ a.AcctKey = [] := by
  constructor
  · rintro ⟨f, kind, -, kind', -, -, h⟩
    unfold askBank bankElement at h
    simp only [Node.elem.injEq, List.cons.injEq, true_and, and_true] at h
    have h := congrArg List.length h
    unfold textIf at h
    by_cases h1 : a.BranchID = [] <;> by_cases h2 : a.AcctKey = []
    · exact ⟨h1, h2⟩
    all_goals simp [h1, h2] at h
  · rintro ⟨h1, h2⟩
    obtain ⟨n, hn, hk⟩ := ha.type
    have hn1 : n.toList ∈ enumAcctType.names := by
      have : ∀ n ∈ ["CHECKING", "SAVINGS", "MONEYMRKT", "CREDITLINE", "CD"], n.toList ∈ enumAcctType.names := by decide
      exact this n hn
    have hn2 : TrimsTo n.toList n.toList := by
      rw [trimsTo_iff]
      have : ∀ n ∈ ["CHECKING", "SAVINGS", "MONEYMRKT", "CREDITLINE", "CD"], trimSpace n.toList = n.toList := by decide +kernel
      exact this n hn
    refine ⟨{ sampleFlags with bankID := a.BankID, acctID := a.AcctID, acctType := n.toList }, n.toList, hk, n.toList, hn1, hn2, ?_⟩
    unfold bankElement askBank
    rw [h1, h2]
    rfl

/-- An account with a branch is complete. -/
example : ¬ ∃ f kind, enumAcctType.string 2 = .ret kind ∧ Asks f "u1".toList .transactionsBank
    (askBank "u1".toList (bankElement "BANKACCTFROM" ⟨[], "121099999".toList, "7".toList, "31337".toList, 2, []⟩ kind)) := by
  intro h
  exact absurd ((C90_command ⟨[], "121099999".toList, "7".toList, "31337".toList, 2, []⟩
    ⟨by decide, by decide, "SAVINGS", by decide, rfl⟩ "u1".toList).mp h).1 (by decide)

/-- A bank statement with a transfer to another account. -/
def payingStatement : StatementResponse :=
  { sampleBankStatement with
    BankTranList := some ⟨sampleDate, sampleDate, [{ sampleTransaction with
      DtPosted := sampleDate, BankAcctTo := some ⟨"BANKACCTTO".toList, "121099999".toList, "7".toList, "31337".toList, 2, []⟩, CCAcctTo := none }]⟩ }

def payingResponse : Response Message :=
  { version := 7, signon := sampleSignonResponse, sets := fun s => if s = .bank then [.statementResponse payingStatement] else [] }

theorem paying_mem {s : MsgSet} {m : Message} (h : m ∈ payingResponse.sets s) : s = .bank ∧ m = .statementResponse payingStatement := by
  have h : m ∈ (if s = .bank then [Message.statementResponse payingStatement] else []) := h
  by_cases hs : s = .bank
  · rw [if_pos hs, List.mem_singleton] at h; exact ⟨hs, h⟩
  · rw [if_neg hs] at h; cases h

theorem paying_read (nt : NameTable) : ∃ bs r, parseResponse sampleEnv nt bs = (some r, none) ∧
    .statementResponse payingStatement ∈ r.sets .bank := by
  have h1 : ∃ d, payingResponse.marshal.1 = .ok d := by
    rw [C26_response_marshal_iff]
    refine ⟨(C23_signon_response_valid_iff 7 _).mp (by decide +kernel), ?_⟩
    intro s hs m hm
    obtain ⟨rfl, rfl⟩ := paying_mem hm
    exact ⟨rfl, by decide +kernel, fun p hp => by cases hp⟩
  obtain ⟨d, hd⟩ := h1
  obtain ⟨r, g1, g2, g3, g4, g5⟩ := written_parsed sampleEnv nt payingResponse d hd (by decide)
    ⟨sampleResponse_exact.1, sampleResponse_clean.1, sampleResponse_exact.2.1⟩ (by
      intro s hs m hm
      obtain ⟨rfl, rfl⟩ := paying_mem hm
      exact ⟨exact_of_check _ _ _ (by decide +kernel), textB_sound _ _ (by decide +kernel), settledB_sound _ _ _ (by decide +kernel)⟩) []
  rw [List.append_nil] at g1
  refine ⟨d.bytes, r, ?_, ?_⟩
  · unfold parseResponse
    rw [g1]; simp only [g2]
  · rw [g5 .bank (by decide)]
    exact List.mem_singleton.mpr rfl

/-- A request with one question. -/
def asking (s : MsgSet) (m : Message) : Request Message := { sampleRequest with sets := fun t => if t = s then [m] else [] }

/-- The account of that statement can be asked about. -/
example (nt : NameTable) : ∃ bs r m, parseResponse sampleEnv nt bs = (some r, none) ∧ .statementResponse m ∈ r.sets .bank ∧
    ∃ d kind, (asking .bank (bankQuestion "u1".toList m.BankAcctFrom)).marshal.1 = .ok d ∧ enumAcctType.string m.BankAcctFrom.AcctType = .ret kind ∧
      QuestionIs d (askBank "u1".toList (bankElement "BANKACCTFROM" m.BankAcctFrom kind)) := by
  obtain ⟨bs, r, h, hm⟩ := paying_read nt
  refine ⟨bs, r, _, h, hm, C90_statement sampleEnv nt bs r h _ hm _ _ (fun t => rfl) ?_ ⟨by decide, by decide⟩⟩
  exact ((C77_request_written_iff sampleRequest).mp sampleRequest_ok).1

/-- The account that was paid cannot: the element describing the account has the wrong name. -/
example (nt : NameTable) : ∃ bs r a, parseResponse sampleEnv nt bs = (some r, none) ∧ PaidBankAcct r a ∧
    ∃ d kind, (asking .bank (bankQuestion "u1".toList a)).marshal.1 = .ok d ∧
      QuestionIs d (askBank "u1".toList (bankElement "BANKACCTTO" a kind)) := by
  obtain ⟨bs, r, h, hm⟩ := paying_read nt
  have hp : PaidBankAcct r ⟨"BANKACCTTO".toList, "121099999".toList, "7".toList, "31337".toList, 2, []⟩ :=
    ⟨_, _, _, hm, rfl, List.mem_singleton.mpr rfl, rfl⟩
  obtain ⟨h1, h2⟩ := C90_transfer_target sampleEnv nt bs r (parsed_rules h).1 _ hp
    (asking .bank (bankQuestion "u1".toList ⟨"BANKACCTTO".toList, "121099999".toList, "7".toList, "31337".toList, 2, []⟩)) "u1".toList (fun t => rfl)
  obtain ⟨d, hd⟩ := h1.mpr ⟨((C77_request_written_iff sampleRequest).mp sampleRequest_ok).1, ⟨by decide, by decide⟩, by decide, by decide, "SAVINGS", by decide, rfl⟩
  obtain ⟨kind, hk⟩ := h2 d hd
  exact ⟨bs, r, _, h, hp, d, kind, hd, hk⟩

def holder (name : String) : HolderInfo := ⟨name.toList, [], [], [], [], [], [], [], [], [], [], [], [], [], 1⟩

/-- A list of three accounts. -/
def accountList : AcctInfoResponse :=
  { TrnUID := "u1".toList, Status := ⟨0, "INFO".toList, []⟩, CltCookie := [], DtAcctUp := sampleDate, AcctInfo := [
    ⟨"savings".toList, [], [], holder "PRIMARYHOLDER", holder "SECONDARYHOLDER",
      some ⟨⟨"BANKACCTFROM".toList, "121099999".toList, "7".toList, "31337".toList, 2, "k".toList⟩, true, true, true, sampleDate, 1, 1, 1, 1, 1⟩, none, none⟩,
    ⟨"card".toList, [], [], holder "PRIMARYHOLDER", holder "SECONDARYHOLDER", none,
      some ⟨⟨"CCACCTFROM".toList, "4111".toList, []⟩, true, true, true, 1, 1⟩, none⟩,
    ⟨"fund".toList, [], [], holder "PRIMARYHOLDER", holder "SECONDARYHOLDER", none, none,
      some ⟨⟨"INVACCTFROM".toList, "broker".toList, "99".toList⟩, 1, true, 1, 1, []⟩⟩] }

def accountListResponse : Response Message :=
  { version := 7, signon := sampleSignonResponse, sets := fun s => if s = .signup then [.acctInfoResponse accountList] else [] }

theorem accountList_mem {s : MsgSet} {m : Message} (h : m ∈ accountListResponse.sets s) : s = .signup ∧ m = .acctInfoResponse accountList := by
  have h : m ∈ (if s = .signup then [Message.acctInfoResponse accountList] else []) := h
  by_cases hs : s = .signup
  · rw [if_pos hs, List.mem_singleton] at h; exact ⟨hs, h⟩
  · rw [if_neg hs] at h; cases h

theorem accountList_read (nt : NameTable) : ∃ bs r, decodeResponse sampleEnv nt bs = .ok r ∧ .acctInfoResponse accountList ∈ r.sets .signup := by
  have h1 : ∃ d, accountListResponse.marshal.1 = .ok d := by
    rw [C26_response_marshal_iff]
    refine ⟨(C23_signon_response_valid_iff 7 _).mp (by decide +kernel), ?_⟩
    intro s hs m hm
    obtain ⟨rfl, rfl⟩ := accountList_mem hm
    exact ⟨rfl, by decide +kernel, fun p hp => by cases hp⟩
  obtain ⟨d, hd⟩ := h1
  obtain ⟨r, g1, g2, g3, g4, g5⟩ := written_parsed sampleEnv nt accountListResponse d hd (by decide)
    ⟨sampleResponse_exact.1, sampleResponse_clean.1, sampleResponse_exact.2.1⟩ (by
      intro s hs m hm
      obtain ⟨rfl, rfl⟩ := accountList_mem hm
      exact ⟨exact_of_check _ _ _ (by decide +kernel), textB_sound _ _ (by decide +kernel), settledB_sound _ _ _ (by decide +kernel)⟩) []
  refine ⟨_, r, g1, ?_⟩
  rw [g5 .signup (by decide)]
  exact List.mem_singleton.mpr rfl

/-- Each of the accounts listed can be asked about. -/
example (nt : NameTable) : ∃ bs r a c i, decodeResponse sampleEnv nt bs = .ok r ∧ HasBankAcct r a ∧ HasCard r c ∧ HasInvestment r i ∧
    (∃ d, (asking .bank (bankQuestion "u2".toList a)).marshal.1 = .ok d) ∧
    (∃ d, (asking .creditCard (cardQuestion "u2".toList c)).marshal.1 = .ok d) ∧
    (∃ d, (asking .invStmt (investmentQuestion "u2".toList i)).marshal.1 = .ok d) := by
  obtain ⟨bs, r, h, hm⟩ := accountList_read nt
  have hso : GoodSignon sampleRequest.signon := ((C77_request_written_iff sampleRequest).mp sampleRequest_ok).1
  have hu : GoodUID "u2".toList := ⟨by decide, by decide⟩
  have h1 : HasBankAcct r _ := .listed hm (List.mem_cons_self ..) rfl
  have h2 : HasCard r _ := .listed hm (List.mem_cons_of_mem _ (List.mem_cons_self ..)) rfl
  have h3 : HasInvestment r _ := .listed hm (List.mem_cons_of_mem _ (List.mem_cons_of_mem _ (List.mem_cons_self ..))) rfl
  exact ⟨bs, r, _, _, _, h, h1, h2, h3,
    (C90_bank_partial _ _ _ _ h _ h1 (asking .bank (bankQuestion "u2".toList _)) _ (fun _ => rfl)).1.mpr
      ⟨hso, hu, by decide, by decide, "SAVINGS", by decide, rfl⟩,
    (C90_card _ _ _ _ h _ h2 (asking .creditCard (cardQuestion "u2".toList _)) _ (fun _ => rfl)).1.mpr ⟨hso, hu⟩,
    (C90_investment _ _ _ _ h _ h3 (asking .invStmt (investmentQuestion "u2".toList _)) _ (fun _ => rfl)).1.mpr ⟨hso, hu⟩⟩

end Ofx.Props
