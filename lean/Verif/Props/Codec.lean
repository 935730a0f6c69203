import Verif.Props.Document
import Verif.Lemmas.MsgSets
import Verif.Lemmas.Loans
import Verif.Lemmas.Shape
/-
Properties C38, C39, C40 and C54: encoding and decoding messages and lists.
-/
namespace Ofx.Props
open Ofx Ofx.Spec

/-! ### C38 -/

/-- C38, for every type `α` of the library that is written as an element (all 95 structs and
the list types): writing a value writes one element, and reading that element gives the same
value.  `TyExact` asks that the leaf values can be carried and that each struct is written
under its declared name.  Missing: 401(k) loans, whose declared name is wrong (C40). -/
theorem C38_roundtrip_partial {α : Type} [OfxType α] (env : Env) (name : Str)
    (hl : ∀ l, OfxType.lit α = some l → l = name) (x : α)
    (h : TyExact env (OfxType.ty α) name (OfxType.toDen x)) :
    ∃ children x', encodeAs name x = .ok [.elem name children] ∧ decodeNew env name children = .ok x' ∧
      TySame (OfxType.ty α) name (OfxType.toDen x) (OfxType.toDen x') ∧
      (TySettled (OfxType.ty α) name (OfxType.toDen x) → x' = x) := by
  obtain ⟨cs, x', h1, h2, h3⟩ := roundtrip_same env name hl x h
  exact ⟨cs, x', h1, h2, h3, fun hs => toDen_inj (ty_settled _ _ _ _ h3 hs)⟩

/-- C38 for the thirteen message types: the element written for a message, read on its own,
is the same message, provided the values it holds can be carried by a document and it does
not hold 401(k) loans. -/
theorem C38_message_roundtrip_partial (env : Env) (m : Message) (h : ReprMessage env m) (hl : NoLoans m) :
    ∃ children m', m.encode = .ok [.elem (elementName m).toList children] ∧ elementName m' = elementName m ∧
      ReadsAs env (elementName m).toList children m' ∧ SameMessage m m' ∧ (SettledMessage m → m' = m) := by
  obtain ⟨cs, m', h1, h2, h3, h4, h5⟩ := message_roundtrip (message_repr env m hl h)
  exact ⟨cs, m', h1, h2, h4, h5, fun hs => same_settled_eq h5 hs⟩

/-- C38 for signon responses. -/
theorem C38_signon_response_roundtrip (env : Env) (s : SignonResponse)
    (h : TyRepr env (OfxType.ty SignonResponse) "SONRS".toList (OfxType.toDen s)) :
    ∃ children s', encodeAs "SONRS".toList s = .ok [.elem "SONRS".toList children] ∧
      decodeNew env "SONRS".toList children = .ok s' ∧ SameSignon s s' := by
  obtain ⟨cs, s', h1, h2, h3⟩ := roundtrip_same env "SONRS".toList (by intro l hl; cases hl) s
    (ty_repr env _ _ _ (by decide +kernel) h)
  exact ⟨cs, s', h1, h2, h3⟩

/-- C38 for signon requests. -/
theorem C38_signon_request_roundtrip (env : Env) (s : SignonRequest)
    (h : TyRepr env (OfxType.ty SignonRequest) "SONRQ".toList (OfxType.toDen s)) :
    ∃ children s', encodeAs "SONRQ".toList s = .ok [.elem "SONRQ".toList children] ∧
      decodeNew env "SONRQ".toList children = .ok s' ∧
      TySame (OfxType.ty SignonRequest) "SONRQ".toList (OfxType.toDen s) (OfxType.toDen s') := by
  obtain ⟨cs, s', h1, h2, h3⟩ := roundtrip_same env "SONRQ".toList (by intro l hl; cases hl) s
    (ty_repr env _ _ _ (by decide +kernel) h)
  exact ⟨cs, s', h1, h2, h3⟩

/-- A bank statement with a transaction meets the hypotheses of C38. -/
example : ∃ children, Message.encode (.statementResponse sampleBankStatement) = .ok [.elem "STMTTRNRS".toList children] ∧
    decodeNew sampleEnv "STMTTRNRS".toList children = .ok sampleBankStatement := by
  obtain ⟨cs, x', h1, h2, -, h3⟩ := C38_roundtrip_partial sampleEnv "STMTTRNRS".toList (by intro l hl; cases hl)
    sampleBankStatement (exact_of_check _ _ _ (by decide +kernel))
  exact ⟨cs, h1, h3 (settledB_sound _ _ _ (by decide +kernel)) ▸ h2⟩

/-! ### C39 -/

/-- C39: a security list is read from elements only (white space aside); there is one
security for each element, in the same order, of the kind named by the element; any other
content is rejected. -/
theorem C39_security_list (env : Env) (name : Str) (cs : List Node) (l : SecurityList) :
    decodeNew env name cs = .ok l ↔
      OnlyElements cs ∧ List.Forall₂ (SecurityReads env) (elems cs) l.Securities := by
  rw [decodeNew_iff, ← interface_dec env Security.alts Security.toDen cs l.Securities (security_dec env)]
  show (Ty.closed "SECLIST".toList false SecurityList.fields).dec env
    (Ty.closed "SECLIST".toList false SecurityList.fields).zero name cs = _ ↔ _
  rw [Ty.dec]; exact Iff.rfl

/-- C39: position lists. -/
theorem C39_position_list (env : Env) (name : Str) (cs : List Node) (l : PositionList) :
    decodeNew env name cs = .ok l ↔ OnlyElements cs ∧ List.Forall₂ (PositionReads env) (elems cs) l := by
  rw [decodeNew_iff, ← interface_dec env Position.alts Position.toDen cs l (position_dec env)]
  show (Ty.closed "INVPOSLIST".toList true PositionList.fields).dec env
    (Ty.closed "INVPOSLIST".toList true PositionList.fields).zero name cs = _ ↔ _
  rw [Ty.dec]; exact Iff.rfl

/-- C39: open order lists. -/
theorem C39_open_order_list (env : Env) (name : Str) (cs : List Node) (l : OOList) :
    decodeNew env name cs = .ok l ↔ OnlyElements cs ∧ List.Forall₂ (OpenOrderReads env) (elems cs) l := by
  rw [decodeNew_iff, ← interface_dec env OpenOrder.alts OpenOrder.toDen cs l (openOrder_dec env)]
  show (Ty.closed "INVOOLIST".toList true OOList.fields).dec env
    (Ty.closed "INVOOLIST".toList true OOList.fields).zero name cs = _ ↔ _
  rw [Ty.dec]; exact Iff.rfl

/-- C39: investment transaction lists.  Besides the two dates, every element is either an
investment transaction of the kind named by the element or a bank transaction; both kinds
keep their order; any other content is rejected. -/
theorem C39_investment_transaction_list (env : Env) (name : Str) (cs : List Node) (l : InvTranList)
    (h : decodeNew env name cs = .ok l) :
    OnlyElements cs ∧
    List.Forall₂ (InvTransactionReads env)
      ((elems cs).filter (fun e => e.1 ∉ [("DTSTART".toList : Str), "DTEND".toList, "INVBANKTRAN".toList]))
      l.InvTransactions ∧
    List.Forall₂ (fun e t => decodeNew env e.1 e.2 = .ok t)
      ((elems cs).filter (fun e => e.1 = "INVBANKTRAN".toList)) l.BankTransactions := by
  rw [decodeNew_iff] at h
  replace h : (Ty.closed "INVTRANLIST".toList false InvTranList.fields).dec env
    (Ty.closed "INVTRANLIST".toList false InvTranList.fields).zero name cs = .ok (InvTranList.toDen l) := h
  rw [Ty.dec] at h
  obtain ⟨h1, h2⟩ := (closed_dec env InvTranList.fields rfl cs _ _).mp h
  obtain ⟨⟨ds, i1, i2⟩, ⟨bs, i3, i4⟩⟩ := runElems_invTran env _ _ _ h2
  refine ⟨(onlyElements_iff cs).mp h1, ?_, ?_⟩
  · have i1 : l.InvTransactions.map InvTransaction.toDen = ds := i1
    subst i1
    rw [List.forall₂_map_right_iff] at i2
    exact i2.imp (fun e x h => (invTransaction_dec env e x).mp h)
  · have i3 : l.BankTransactions.map InvBankTransaction.toDen = bs := i3
    subst i3
    rw [List.forall₂_map_right_iff] at i4
    exact i4.imp (fun e x h => decodeNew_iff.mpr h)

/-- C39: profile message set lists.  One message set for each element, in order, named by
the only element inside. -/
theorem C39_message_set_list (env : Env) (name : Str) (cs : List Node) (l : MessageSetList) :
    decodeNew env name cs = .ok l ↔ OnlyElements cs ∧ List.Forall₂ (MessageSetReads env) (elems cs) l :=
  messageSets_dec env name cs l

/-- C39: each of the five lists is read back as it was, once written. -/
theorem C39_lists_roundtrip (env : Env) :
    (∀ l : SecurityList, TyRepr env (OfxType.ty SecurityList) "SECLIST".toList (OfxType.toDen l) →
      ∃ cs l', encodeAs "SECLIST".toList l = .ok [.elem "SECLIST".toList cs] ∧
        decodeNew env "SECLIST".toList cs = .ok l' ∧
        TySame (OfxType.ty SecurityList) "SECLIST".toList (OfxType.toDen l) (OfxType.toDen l')) ∧
    (∀ l : InvTranList, TyRepr env (OfxType.ty InvTranList) "INVTRANLIST".toList (OfxType.toDen l) →
      ∃ cs l', encodeAs "INVTRANLIST".toList l = .ok [.elem "INVTRANLIST".toList cs] ∧
        decodeNew env "INVTRANLIST".toList cs = .ok l' ∧
        TySame (OfxType.ty InvTranList) "INVTRANLIST".toList (OfxType.toDen l) (OfxType.toDen l')) ∧
    (∀ l : PositionList, TyRepr env (OfxType.ty PositionList) "INVPOSLIST".toList (OfxType.toDen l) →
      ∃ cs l', encodeAs "INVPOSLIST".toList l = .ok [.elem "INVPOSLIST".toList cs] ∧
        decodeNew env "INVPOSLIST".toList cs = .ok l' ∧
        TySame (OfxType.ty PositionList) "INVPOSLIST".toList (OfxType.toDen l) (OfxType.toDen l')) ∧
    (∀ l : OOList, TyRepr env (OfxType.ty OOList) "INVOOLIST".toList (OfxType.toDen l) →
      ∃ cs l', encodeAs "INVOOLIST".toList l = .ok [.elem "INVOOLIST".toList cs] ∧
        decodeNew env "INVOOLIST".toList cs = .ok l' ∧
        TySame (OfxType.ty OOList) "INVOOLIST".toList (OfxType.toDen l) (OfxType.toDen l')) ∧
    (∀ l : MessageSetList, TyRepr env (OfxType.ty MessageSetList) "MSGSETLIST".toList (OfxType.toDen l) →
      ∃ cs l', encodeAs "MSGSETLIST".toList l = .ok [.elem "MSGSETLIST".toList cs] ∧
        decodeNew env "MSGSETLIST".toList cs = .ok l' ∧
        TySame (OfxType.ty MessageSetList) "MSGSETLIST".toList (OfxType.toDen l) (OfxType.toDen l')) := by
  refine ⟨fun l h => ?_, fun l h => ?_, fun l h => ?_, fun l h => ?_, fun l h => ?_⟩ <;>
    exact roundtrip_same env _ (fun n hn => (Option.some.inj hn).symm) l (ty_repr env _ _ _ (by decide +kernel) h)

def sampleSecurities : SecurityList :=
  ⟨[.stockInfo ⟨⟨⟨"037833100".toList, "CUSIP".toList⟩, "Apple".toList, "AAPL".toList, [], [], 190 + 1/4, some sampleDate, none, []⟩,
      1, 1/2, none, 0, []⟩,
    .otherInfo ⟨⟨⟨"1".toList, "CUSIP".toList⟩, "Gold".toList, [], [], [], 0, none, none, []⟩, "coin".toList, 0, []⟩]⟩

/-- A list with a stock and another security is written, read back, and its two elements are
of the right kinds; an unknown kind of element is refused. -/
example : ∃ cs, encodeAs "SECLIST".toList sampleSecurities = .ok [.elem "SECLIST".toList cs] ∧
    decodeNew sampleEnv "SECLIST".toList cs = .ok sampleSecurities ∧
    (elems cs).map Prod.fst = ["STOCKINFO".toList, "OTHERINFO".toList] ∧
    decodeNew sampleEnv "SECLIST".toList (.elem "BONDINFO".toList [] :: cs) ≠ .ok sampleSecurities := by
  obtain ⟨cs, x', h1, h2, -, h3⟩ := C38_roundtrip_partial sampleEnv "SECLIST".toList
    (fun n hn => (Option.some.inj hn).symm) sampleSecurities (exact_of_check _ _ _ (by decide +kernel))
  have h3 := h3 (settledB_sound _ _ _ (by decide +kernel))
  subst h3
  refine ⟨cs, h1, h2, ?_, ?_⟩
  · obtain ⟨-, h⟩ := (C39_security_list sampleEnv _ cs _).mp h2
    generalize elems cs = es at h
    cases h with
    | cons a b =>
      cases b with
      | cons c d => cases d; simp [a.1, c.1]
  · rw [ne_eq, C39_security_list]
    rintro ⟨-, h⟩
    cases h with
    | cons a b => exact absurd a.1 (by decide)

/-! ### C40 -/

/-- C40 is violated: an investment statement whose 401(k) part has a LOANINFO element is
rejected, whatever else it holds. -/
theorem C40_loaninfo_rejected (env : Env) (name : Str) (cs stmt k loan : List Node)
    (h1 : .elem "INVSTMTRS".toList stmt ∈ cs) (h2 : .elem "INV401K".toList k ∈ stmt)
    (h3 : .elem "LOANINFO".toList loan ∈ k) :
    ∃ e, decodeNew (α := InvStatementResponse) env name cs = .error e := by
  obtain ⟨e, he⟩ := invStatement_dec_err env InvStatementResponse.ty.zero name loan k stmt cs h3 h2 h1
  refine ⟨e, ?_⟩
  unfold decodeNew
  rw [show (OfxType.ty InvStatementResponse).dec env (OfxType.ty InvStatementResponse).zero name cs = .error e from he]

/-- C40 is violated when writing too: a loan is written as a VESTINFO element, under any name
asked for. -/
theorem C40_loan_written_as_vestinfo (name : Str) (x : LoanInfo) :
    ∃ cs, encodeAs name x = .ok [.elem "VESTINFO".toList cs] := by
  have hv1 : FieldsV1 LoanInfo.fields (LoanInfo.toDen x).2 := LoanInfo.fields.v1_of_noSets (by decide +kernel) _
  obtain ⟨items, hi⟩ := (LoanInfo.fields.enc_ok (LoanInfo.toDen x).2).mpr hv1
  refine ⟨emit LoanInfo.fields.depth items, ?_⟩
  have key : ∀ v : (Ty.struct (.tag "VESTINFO".toList) LoanInfo.fields).Den, LoanInfo.fields.enc v.2 = .ok items →
      (Ty.struct (.tag "VESTINFO".toList) LoanInfo.fields).enc name false v =
        .ok [.elem "VESTINFO".toList (emit LoanInfo.fields.depth items)] := by
    intro v hv
    rw [Ty.enc, hv]
    rfl
  exact key _ hi

/-- C40, the part that holds: 401(k) statements without loans are read back as they were. -/
theorem C40_no_loans_partial (env : Env) (k : Inv401K) (hl : k.LoanInfo = [])
    (h : TyRepr env (OfxType.ty Inv401K) "INV401K".toList (OfxType.toDen k)) :
    ∃ cs k', encodeAs "INV401K".toList k = .ok [.elem "INV401K".toList cs] ∧
      decodeNew env "INV401K".toList cs = .ok k' ∧
      TySame (OfxType.ty Inv401K) "INV401K".toList (OfxType.toDen k) (OfxType.toDen k') :=
  roundtrip_same env _ (by intro l h; cases h) k (inv401k_ok env k hl h)

def sampleLoan : LoanInfo :=
  ⟨"L1".toList, [], 1000, none, 900, none, 5, 20, 0, 60, 50, none, 0, 0, none⟩

def sample401K : Inv401K :=
  ⟨"ACME".toList, [], none, [], [], 0, 0, 0, 0, 0, none, 0, 0, [], 0, [], [], ⟨[], sampleDate, sampleDate, none, none, none⟩, none, none⟩

/-- A 401(k) statement without loans meets the hypotheses; one with a loan is written but cannot
be read back: the loan comes out as vesting information. -/
example : TyRepr sampleEnv (OfxType.ty Inv401K) "INV401K".toList (OfxType.toDen sample401K) ∧
    ∃ cs, encodeAs "INV401K".toList { sample401K with LoanInfo := [sampleLoan] } = .ok [.elem "INV401K".toList cs] ∧
      "VESTINFO".toList ∈ (elems cs).map Prod.fst ∧ "LOANINFO".toList ∉ (elems cs).map Prod.fst := by
  constructor
  · exact ty_exact_repr _ _ _ _ (exact_of_check sampleEnv "INV401K".toList sample401K (by decide +kernel))
  · have : ∃ cs, encodeAs "INV401K".toList { sample401K with LoanInfo := [sampleLoan] } = .ok [.elem "INV401K".toList cs] ∧
      (elems cs).map Prod.fst = ["EMPLOYERNAME", "DEFERPCTPRETAX", "DEFERPCTAFTERTAX", "MATCHINFO", "CONTRIBINTO", "CURRENTVESTPCT",
        "VESTINFO", "INV401KSUMMARY"].map String.toList := ⟨_, rfl, by decide +kernel⟩
    obtain ⟨cs, h1, h2⟩ := this
    exact ⟨cs, h1, by rw [h2]; decide, by rw [h2]; decide⟩

/-! ### C54 -/

/-- C54: encoding fails exactly if some set's name does not end in V1. -/
theorem C54_encode_iff (l : MessageSetList) :
    (∃ ns, encodeAs "MSGSETLIST".toList l = .ok ns) ↔ ∀ m ∈ l, ∃ short, short ≠ [] ∧ m.Name = short ++ "V1".toList := by
  have h := ((OfxType.ty MessageSetList).enc_ok "MSGSETLIST".toList false (OfxType.toDen l)).1 rfl
  refine h.trans ?_
  constructor
  · intro h m hm
    exact (h (MessageSet.toDen m) (List.mem_map_of_mem hm)).1
  · intro h x hx
    obtain ⟨m, hm, rfl⟩ := List.mem_map.mp (show x ∈ List.map MessageSet.toDen l from hx)
    exact ⟨h m hm, MessageSet.tagged.v1_of_noSets (by decide +kernel) _⟩

theorem forall₂_eq {α : Type} {l l' : List α} (h : List.Forall₂ (fun a b => b = a) l l') : l' = l := by
  induction h with
  | nil => rfl
  | cons a _ ih => rw [a, ih]

theorem set_same {m m' : MessageSet} (h1 : m'.XMLName = m.Name) (h2 : m'.Name = m.Name)
    (h : FieldsSame MessageSet.tagged (MessageSet.toDen m).2.2 (MessageSet.toDen m').2.2) :
    m' = { m with XMLName := m.Name } := by
  obtain ⟨g1, g2, g3, g4, g5, g6, g7, g8, g9, g10, -⟩ := h
  obtain ⟨x, n, a1, a2, a3, a4, a5, a6, a7, a8, a9, a10⟩ := m
  obtain ⟨x', n', b1, b2, b3, b4, b5, b6, b7, b8, b9, b10⟩ := m'
  rw [MessageSet.mk.injEq]
  exact ⟨h1, h2, g1, g2, g3, g4, g5, forall₂_eq g6, g7, g8, g9, g10⟩

/-- C54: a list of version 1 sets is written as one element, which is read back as the same
sets in the same order (with XMLName set to the name of the set). -/
theorem C54_roundtrip (env : Env) (l : MessageSetList) (hv : ∀ m ∈ l, ∃ short, short ≠ [] ∧ m.Name = short ++ "V1".toList)
    (hg : ∀ m ∈ l, GoodSet m) :
    ∃ cs, encodeAs "MSGSETLIST".toList l = .ok [.elem "MSGSETLIST".toList cs] ∧
      decodeNew env "MSGSETLIST".toList cs = .ok (l.map (fun m => { m with XMLName := m.Name })) := by
  have hx : TyExact env (OfxType.ty MessageSetList) "MSGSETLIST".toList (OfxType.toDen l) := by
    intro x hx
    obtain ⟨m, hm, rfl⟩ := List.mem_map.mp (show x ∈ List.map MessageSet.toDen l from hx)
    obtain ⟨g1, g2, g3, g4, g5, g6, g7⟩ := hg m hm
    refine ⟨hv m hm, g1, g2, ⟨?_, g3⟩, trivial, g4, g5, ⟨?_, g6⟩, trivial, trivial, g7, trivial⟩
    · simp [allEnums]
    · simp [allEnums]
  obtain ⟨cs, l', h1, h2, h3⟩ := roundtrip_same env "MSGSETLIST".toList (fun n hn => (Option.some.inj hn).symm) l hx
  refine ⟨cs, h1, ?_⟩
  rw [h2]
  congr 1
  replace h3 : List.Forall₂ (fun (a b : MessageSet.Den) => b.1 = a.2.1 ∧ b.2.1 = a.2.1 ∧ FieldsSame MessageSet.tagged a.2.2 b.2.2)
    (List.map MessageSet.toDen l) (List.map MessageSet.toDen l') := h3
  rw [List.forall₂_map_left_iff, List.forall₂_map_right_iff] at h3
  clear h1 h2 hx hv hg
  induction h3 with
  | nil => rfl
  | cons a b ih => rw [ih, set_same a.1 a.2.1 a.2.2]; rfl

/-- A profile with two sets: written and read back, but refused once a set is of version 2. -/
example : GoodSet ⟨[], "BANKMSGSETV1".toList, 1, "https://a.com".toList, 1, true, "R".toList, ["ENG".toList], 2, false, true, []⟩ ∧
    ¬ ∃ ns, encodeAs "MSGSETLIST".toList ([⟨[], "BANKMSGSETV2".toList, 1, [], 0, true, [], [], 0, false, true, []⟩] : MessageSetList) = .ok ns := by
  constructor
  · unfold GoodSet InInt64 IsTrim; decide +kernel
  · rw [C54_encode_iff]
    intro h
    obtain ⟨short, -, hs⟩ := h _ (List.mem_cons_self ..)
    have := congrArg List.getLast? hs
    simp at this

theorem mapE_each {α β : Type} {f : α → Except String β} {l : List α} {ys : List β} (h : mapE f l = .ok ys) :
    List.Forall₂ (fun x y => f x = .ok y) l ys := by
  induction l generalizing ys with
  | nil => simp only [mapE] at h; cases h; exact .nil
  | cons x l ih =>
    simp only [mapE] at h
    cases hx : f x with
    | error e => rw [hx] at h; cases h
    | ok y =>
      rw [hx] at h
      cases hl : mapE f l with
      | error e => rw [hl] at h; cases h
      | ok ys' => rw [hl] at h; cases h; exact .cons hx (ih hl)

/-- C54: what is written for a list of message sets: for each, in order, an element named like
the set without V1, that holds one element with the name of the set. -/
theorem C54_written (l : MessageSetList) (ns : List Node) (h : encodeAs "MSGSETLIST".toList l = .ok ns) :
    ∃ cs, ns = [.elem "MSGSETLIST".toList cs] ∧
      List.Forall₂ (fun (m : MessageSet) n => ∃ short content, m.Name = short ++ "V1".toList ∧
        n = .elem short [.elem m.Name (textNode "Name".toList m.Name :: content)]) l cs := by
  have h : (Ty.msgSets MessageSet.tagged).enc "MSGSETLIST".toList false (List.map MessageSet.toDen l) = .ok ns := h
  simp only [Ty.enc] at h
  erw [if_neg (by simp)] at h
  cases hm : mapE (encMsgSet (fun y => MessageSet.tagged.enc y) MessageSet.tagged.depth)
      (List.map MessageSet.toDen l) with
  | error e => erw [hm] at h; cases h
  | ok cs =>
    erw [hm] at h
    cases h
    refine ⟨cs, rfl, ?_⟩
    have := mapE_each hm
    rw [List.forall₂_map_left_iff] at this
    refine this.imp ?_
    intro m n hn
    unfold encMsgSet at hn
    cases ht : trimV1 (MessageSet.toDen m).2.1 with
    | none => rw [ht] at hn; cases hn
    | some short =>
      rw [ht] at hn
      simp only at hn
      cases he : MessageSet.tagged.enc (MessageSet.toDen m).2.2 with
      | error e => rw [he] at hn; cases hn
      | ok items => rw [he] at hn; cases hn; exact ⟨short, _, trimV1_some ht, rfl⟩
end Ofx.Props
