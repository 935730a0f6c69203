import Verif.Model.Cli
import Verif.Spec.Client
/-
What is said about the command-line client.
-/
namespace Ofx.Spec
open Ofx

/-- The programs detect-settings pretends to be, best first, each with its versions, best first. -/
def programs : List (String × List String) :=
  [("OFXGO", ["0001"]),
   ("QWIN", ["2600", "2500", "2400", "2300", "2200", "2100", "2000", "1900", "1800", "1700", "1600", "1500", "1400"]),
   ("QMOFX", ["1700", "1600", "1500", "1400"]),
   ("QB", ["1800", "1700", "1600", "1500"]),
   ("Money", ["1600", "1500", "1400", "1200", "1100"])]

/-- The OFX versions in the order detect-settings tries them. -/
def ofxVersions : List String :=
  ["203", "103", "200", "201", "202", "210", "211", "102", "151", "160", "220"]

/-- All combinations of settings, in the order they are to be tried. -/
def combinations : List Setting :=
  programs.flatMap fun p => p.2.flatMap fun v => ofxVersions.flatMap fun o =>
    [⟨p.1.toList, v.toList, o.toList, false⟩, ⟨p.1.toList, v.toList, o.toList, true⟩]

/-- The number of an OFX version, e.g. "203". -/
def versionNumber (v : Str) : Nat :=
  (["102", "103", "151", "160", "200", "201", "202", "203", "210", "211", "220"].map String.toList).idxOf v + 1

/-- The client with the settings tried. -/
def settingClient (f : Flags) (s : Setting) : Client :=
  getClient f.serverURL ⟨versionNumber s.version, s.appID, s.appVer, s.noIndent, false, [], none⟩

/-- A request for the profile with the user's login. -/
def profileQuery (w : World) (f : Flags) (uid : Str) : Request Message :=
  { url := f.serverURL, version := 0, indent := false, carriageReturn := false,
    sets := fun s => if s = .prof then [.profileRequest ⟨uid, [], [], [], unixEpoch w⟩] else [],
    signon := ⟨GoTime.zero, f.username, f.password, [], false, [], f.org, f.fid, [], [], f.clientUID⟩ }

/-- The same request with the anonymous login of the OFX specification. -/
def asAnonymous (r : Request Message) : Request Message :=
  { r with signon := { r.signon with
      UserID := "anonymous00000000000000000000000".toList, UserPass := "anonymous00000000000000000000000".toList } }

/-- Trying a combination fails: the request for the profile fails with the user's login, and
then with the anonymous one.  The traces are those before and after. -/
def AttemptFails (w : World) (f : Flags) (s : Setting) (tr tr' : Trace) : Prop :=
  ∃ uid r tr₁ e r' e', randomUID (w.entropy tr) = .ok uid ∧
    (settingClient f s).request w.env w.names w.net (profileQuery w f uid) tr = ((none, some e), r, tr₁) ∧
    (settingClient f s).request w.env w.names w.net (asAnonymous r) tr₁ = ((none, some e'), r', tr')

/-- Trying a combination succeeds: with the user's login, or else with the anonymous one. -/
def AttemptWorks (w : World) (f : Flags) (s : Setting) (tr tr' : Trace) : Prop :=
  ∃ uid, randomUID (w.entropy tr) = .ok uid ∧
    ((∃ x r, (settingClient f s).request w.env w.names w.net (profileQuery w f uid) tr = ((some x, none), r, tr')) ∨
     ∃ e r tr₁ x r', (settingClient f s).request w.env w.names w.net (profileQuery w f uid) tr = ((none, some e), r, tr₁) ∧
      (settingClient f s).request w.env w.names w.net (asAnonymous r) tr₁ = ((some x, none), r', tr'))

/-- How long detect-settings really waits, in nanoseconds: the milliseconds asked for, as a signed
64-bit number of nanoseconds. -/
def waitedNs (ms : Nat) : Int := Int.bmod (ms * 1000000) (2 ^ 64)

/-- Nothing happens on the network: there are pauses at most. -/
def NoNetwork (tr : Trace) : Prop := ∀ e ∈ tr, ∃ n, e = .paused n

/-- The combinations of a list were tried in turn and all failed, with a pause after each. -/
inductive AllFailed (w : World) (f : Flags) : List Setting → Trace → Prop where
  | none : AllFailed w f [] []
  | more {ss tr s tr'} : AllFailed w f ss tr → AttemptFails w f s tr tr' →
      AllFailed w f (ss ++ [s]) (tr' ++ [.paused (waitedNs f.delay)])

/-- What is printed when settings are found. -/
def settingsText (s : Setting) : Str :=
  "The following settings were found to work:\n".toList ++
    "AppID: ".toList ++ s.appID ++ "\n".toList ++ "AppVer: ".toList ++ s.appVer ++ "\n".toList ++
    "OFX Version: ".toList ++ s.version ++ "\n".toList ++
    "noindent: ".toList ++ (if s.noIndent then "true" else "false").toList ++ "\n".toList

/-- What is printed about a failed attempt. -/
def attemptLine (delay n : Nat) (s : Setting) : Str :=
  "Attempt ".toList ++ natStr n ++ " failed (".toList ++ s.appID ++ " ".toList ++ s.appVer ++ " ".toList ++ s.version ++
    (if s.noIndent then " noindent".toList else []) ++ "), trying again after ".toList ++ natStr delay ++ "ms...\n".toList

/-- What is printed about the failed attempts: a line for each, numbered from 1. -/
def attemptLines (delay : Nat) (ss : List Setting) : Str :=
  (ss.zipIdx 1).flatMap fun p => attemptLine delay p.2 p.1

/-- The eight commands that make one request (all but detect-settings). -/
def OneRequest (c : Command) : Prop := c ≠ .detectSettings

/-- The commands that save the response to a file. -/
def Saves (c : Command) : Prop :=
  c = .downloadProfile ∨ c = .downloadBank ∨ c = .downloadCC ∨ c = .downloadInv

/-- The commands that print the response. -/
def Shows (c : Command) : Prop :=
  c = .getAccounts ∨ c = .transactionsBank ∨ c = .transactionsCC ∨ c = .transactionsInv

/-- The documents handed to the network: bodies of posts, and what is written to hand-made
connections. -/
def bodies (tr : Trace) : List (List UInt8) := (posts tr).map (·.body)

/-- The responses a printing command cannot cope with: a list of transactions or balances (or, for
credit cards, a payee of a transaction without name) that is absent, although valid responses
need not have it. -/
def Crashes : Command → Response Message → Prop
  | .transactionsBank, r => ∃ s rest, r.sets .bank = .statementResponse s :: rest ∧ s.BankTranList = none
  | .transactionsCC, r => ∃ s rest, r.sets .creditCard = .ccStatementResponse s :: rest ∧
      (s.BankTranList = none ∨ ∃ l, s.BankTranList = some l ∧ ∃ t ∈ l.Transactions, t.Name = [] ∧ t.Payee = none)
  | .transactionsInv, r => ∃ s rest, r.sets .invStmt = .invStatementResponse s :: rest ∧
      (s.InvBal = none ∨ s.InvTranList = none)
  | _, _ => False

/-- The lines about an account: what kind it is and its identification. -/
def accountLines (a : AcctInfo) (text : Str) : Prop :=
  (∃ b kind, a.BankAcctInfo = some b ∧ enumAcctType.string b.BankAcctFrom.AcctType = .ret kind ∧
    text = "Bank Account:\n\tBankID: \"".toList ++ b.BankAcctFrom.BankID ++ "\"\n\tAcctID: \"".toList ++ b.BankAcctFrom.AcctID ++
      "\"\n\tAcctType: ".toList ++ kind ++ "\n".toList) ∨
  (∃ c, a.BankAcctInfo = none ∧ a.CCAcctInfo = some c ∧
    text = "Credit card:\n\tAcctID: \"".toList ++ c.CCAcctFrom.AcctID ++ "\"\n".toList) ∨
  (∃ i, a.BankAcctInfo = none ∧ a.CCAcctInfo = none ∧ a.InvAcctInfo = some i ∧
    text = "Investment account:\n\tBrokerID: \"".toList ++ i.InvAcctFrom.BrokerID ++ "\"\n\tAcctID: \"".toList ++
      i.InvAcctFrom.AcctID ++ "\"\n".toList) ∨
  (a.BankAcctInfo = none ∧ a.CCAcctInfo = none ∧ a.InvAcctInfo = none ∧
    text = "Unknown type: ".toList ++ a.Name ++ " ".toList ++ a.Desc ++ "\n".toList)

/-- One line about a transaction: date, amount and currency, kind, and name or payee with the
memo; columns are padded with spaces. -/
def transactionLine (default : CurrSymbol) (t : Transaction) (line : Str) : Prop :=
  ∃ (pad1 pad2 : Nat) (kind name : Str), enumTrnType.string t.TrnType = .ret kind ∧
    (name = t.Name ∧ t.Name ≠ [] ∨ t.Name = [] ∧ (∃ p, t.Payee = some p ∧ name = p.Name) ∨
      t.Name = [] ∧ t.Payee = none ∧ name = []) ∧
    line = Date.string t.DtPosted ++ " ".toList ++
      Amount.string t.TrnAmt ++ " ".toList ++ ((t.Currency.map (·.CurSym)).getD default).code ++ List.replicate pad1 ' ' ++
      " ".toList ++ kind ++ List.replicate pad2 ' ' ++ " ".toList ++
      name ++ (if t.Memo = [] then [] else " - ".toList ++ t.Memo) ++ "\n".toList

/-- The line about a balance. -/
def balanceLine (amount : Rat) (currency : CurrSymbol) (asOf : GoTime) : Str :=
  "Balance: ".toList ++ Amount.string amount ++ " ".toList ++ currency.code ++ " (as of ".toList ++ Date.string asOf ++
    ")\n".toList

/-- A template in which each '%' stands for the next of the texts. -/
def fill : Str → List Str → Str
  | [], _ => []
  | c :: template, texts =>
    if c = '%' then
      match texts with
      | t :: texts => t ++ fill template texts
      | [] => []
    else c :: fill template texts

/-- The currency of the amounts of an investment transaction: its own if that is valid, and
otherwise that of the statement. -/
def currencyCode (default : CurrSymbol) (own : Currency) : Str :=
  if own.valid = none then own.CurSym.code else default.code

/-- The line about an investment transaction: the kind, the date of the trade, how much of what it
was about, and the money.  A sale has a blank after the date that a purchase has not. -/
def investmentLine (default : CurrSymbol) : InvTransaction → Str
  | .buyDebt t => fill "BUYDEBT       %% (% %)@% % (Total: %)\n".toList (buyFacts t.InvBuy)
  | .buyMF t => fill "BUYMF         %% (% %)@% % (Total: %)\n".toList (buyFacts t.InvBuy)
  | .buyOpt t => fill "BUYOPT        %% (% %)@% % (Total: %)\n".toList (buyFacts t.InvBuy)
  | .buyOther t => fill "BUYOTHER      %% (% %)@% % (Total: %)\n".toList (buyFacts t.InvBuy)
  | .buyStock t => fill "BUYSTOCK      %% (% %)@% % (Total: %)\n".toList (buyFacts t.InvBuy)
  | .closureOpt t => fill "CLOSUREOPT    %% % contracts (% shares each)\n".toList
      [Date.string t.InvTran.DtTrade, enumText enumOptAction t.OptAction, Amount.string t.Units, intStr t.ShPerCtrct]
  | .income t => fill "INCOME        % % % % (% %)\n".toList
      [Date.string t.InvTran.DtTrade, enumText enumIncomeType t.IncomeType, Amount.string t.Total, currencyCode default t.Currency,
        t.SecID.UniqueIDType, t.SecID.UniqueID]
  | .invExpense t => fill "INVEXPENSE    % % % (% %)\n".toList
      [Date.string t.InvTran.DtTrade, Amount.string t.Total, currencyCode default t.Currency, t.SecID.UniqueIDType, t.SecID.UniqueID]
  | .jrnlFund t => fill "JRNLFUND      % % % (% -> %)\n".toList
      [Date.string t.InvTran.DtTrade, Amount.string t.Total, default.code, enumText enumSubAcctType t.SubAcctFrom,
        enumText enumSubAcctType t.SubAcctTo]
  | .jrnlSec t => fill "JRNLSEC       % % % % (% -> %)\n".toList
      [Date.string t.InvTran.DtTrade, Amount.string t.Units, t.SecID.UniqueIDType, t.SecID.UniqueID,
        enumText enumSubAcctType t.SubAcctFrom, enumText enumSubAcctType t.SubAcctTo]
  | .marginInterest t => fill "MARGININTEREST% % %\n".toList
      [Date.string t.InvTran.DtTrade, Amount.string t.Total, currencyCode default t.Currency]
  | .reinvest t => fill "REINVEST      % % (% %)@% % (Total: %)\n".toList
      [Date.string t.InvTran.DtTrade, Amount.string t.Units, t.SecID.UniqueIDType, t.SecID.UniqueID,
        Amount.string t.UnitPrice, currencyCode default t.Currency, Amount.string t.Total]
  | .retOfCap t => fill "RETOFCAP      % % % (% %)\n".toList
      [Date.string t.InvTran.DtTrade, Amount.string t.Total, currencyCode default t.Currency, t.SecID.UniqueIDType, t.SecID.UniqueID]
  | .sellDebt t => fill "SELLDEBT      % % (% %)@% % (Total: %)\n".toList (sellFacts t.InvSell)
  | .sellMF t => fill "SELLMF        % % (% %)@% % (Total: %)\n".toList (sellFacts t.InvSell)
  | .sellOpt t => fill "SELLOPT       % % (% %)@% % (Total: %)\n".toList (sellFacts t.InvSell)
  | .sellOther t => fill "SELLOTHER     % % (% %)@% % (Total: %)\n".toList (sellFacts t.InvSell)
  | .sellStock t => fill "SELLSTOCK     % % (% %)@% % (Total: %)\n".toList (sellFacts t.InvSell)
  | .split t => fill "SPLIT         % %/% % -> % shares of % % (% % for fractional shares)\n".toList
      [Date.string t.InvTran.DtTrade, intStr t.Numerator, intStr t.Denominator, Amount.string t.OldUnits,
        Amount.string t.NewUnits, t.SecID.UniqueIDType, t.SecID.UniqueID, Amount.string t.FracCash, currencyCode default t.Currency]
  | .transfer t => fill "TRANSFER      % % (% %) %\n".toList
      [Date.string t.InvTran.DtTrade, Amount.string t.Units, t.SecID.UniqueIDType, t.SecID.UniqueID, enumText enumTferAction t.TferAction]
where
  buyFacts (b : InvBuy) : List Str := [Date.string b.InvTran.DtTrade, Amount.string b.Units, b.SecID.UniqueIDType,
    b.SecID.UniqueID, Amount.string b.UnitPrice, currencyCode default b.Currency, Amount.string b.Total]
  sellFacts (b : InvSell) : List Str := [Date.string b.InvTran.DtTrade, Amount.string b.Units, b.SecID.UniqueIDType,
    b.SecID.UniqueID, Amount.string b.UnitPrice, currencyCode default b.Currency, Amount.string b.Total]

/-- The lines about the bank transactions of a sub-account. -/
def subaccountLines (default : CurrSymbol) (b : InvBankTransaction) (text : Str) : Prop :=
  ∃ name lines, enumSubAcctType.string b.SubAcctFund = .ret name ∧
    List.Forall₂ (transactionLine default) b.Transactions lines ∧
    text = "\nBank Transactions for ".toList ++ name ++ " subaccount:\n".toList ++ lines.flatten

/-- What the printing commands are to print for a response: the balance and a line for each
transaction, in order, or the accounts, of the first message received. -/
def Shown : Command → Response Message → Str → Prop
  | .transactionsBank, x, out =>
    (x.sets .bank = [] ∧ out = "No banking messages received\n".toList) ∨
    ∃ s rest l lines, x.sets .bank = .statementResponse s :: rest ∧ s.BankTranList = some l ∧
      List.Forall₂ (transactionLine s.CurDef) l.Transactions lines ∧
      out = balanceLine s.BalAmt s.CurDef s.DtAsOf ++ "Transactions:\n".toList ++ lines.flatten
  | .transactionsCC, x, out =>
    (x.sets .creditCard = [] ∧ out = "No banking messages received\n".toList) ∨
    ∃ s rest l lines, x.sets .creditCard = .ccStatementResponse s :: rest ∧ s.BankTranList = some l ∧
      List.Forall₂ (transactionLine s.CurDef) l.Transactions lines ∧
      out = balanceLine s.BalAmt s.CurDef s.DtAsOf ++ "Transactions:\n".toList ++ lines.flatten
  | .transactionsInv, x, out =>
    (x.sets .invStmt = [] ∧ out = "No investment messages received\n".toList) ∨
    ∃ s rest bal l subs, x.sets .invStmt = .invStatementResponse s :: rest ∧ s.InvBal = some bal ∧
      s.InvTranList = some l ∧ List.Forall₂ (subaccountLines s.CurDef) l.BankTransactions subs ∧
      out = balanceLine bal.AvailCash s.CurDef s.DtAsOf ++ subs.flatten ++ "\nInvestment Transactions:\n".toList ++
        (l.InvTransactions.map (investmentLine s.CurDef)).flatten
  | .getAccounts, x, out =>
    (x.sets .signup = [] ∧ out = "No signup messages received\n".toList) ∨
    ∃ a rest texts, x.sets .signup = .acctInfoResponse a :: rest ∧ List.Forall₂ accountLines a.AcctInfo texts ∧
      out = "\nFound the following accounts:\n\n".toList ++ texts.flatten
  | _, _, _ => False

/-- The flags name everything a command needs. -/
def Complete (c : Command) (f : Flags) : Prop :=
  f.serverURL ≠ [] ∧ (f.username = [] → c = .downloadProfile) ∧ (Saves c → f.filename ≠ [])

/-- The flags with the login in full: profiles may be fetched anonymously, and a password that
was not given is asked for. -/
def LoginOf (w : World) (c : Command) (f f' : Flags) : Prop :=
  (c = .downloadProfile ∧ f.username = [] ∧ f' = { f with
    username := "anonymous00000000000000000000000".toList, password := "anonymous00000000000000000000000".toList }) ∨
  (f.username ≠ [] ∧ f.password ≠ [] ∧ f' = f) ∨
  (f.username ≠ [] ∧ f.password = [] ∧ ∃ p, w.prompt = some p ∧ f' = { f with password := p })

/-- The SONRQ element made from the flags. -/
def signonOf (now : GoTime) (f : Flags) : Node :=
  .elem "SONRQ".toList
    ([textNode "DTCLIENT".toList (Date.marshal now),
      textNode "USERID".toList f.username,
      textNode "USERPASS".toList f.password,
      textNode "LANGUAGE".toList "ENG".toList,
      .elem "FI".toList [textNode "ORG".toList f.org, textNode "FID".toList f.fid],
      textNode "APPID".toList (orDefault f.appID "OFXGO".toList),
      textNode "APPVER".toList (orDefault f.appVer "0001".toList)] ++
     (if f.clientUID = [] then [] else [textNode "CLIENTUID".toList f.clientUID]))

/-- INCTRAN and the like: include everything. -/
def includeAll (name : String) : Node := .elem name.toList [textNode "INCLUDE".toList "Y".toList]

/-- The message set element asking for what a command is about, made from the flags. -/
def Asks (f : Flags) (uid : Str) : Command → Node → Prop
  | .downloadBank, n | .transactionsBank, n => ∃ kind ∈ enumAcctType.names, TrimsTo f.acctType kind ∧
    n = .elem "BANKMSGSRQV1".toList [.elem "STMTTRNRQ".toList [textNode "TRNUID".toList uid,
      .elem "STMTRQ".toList [
        .elem "BANKACCTFROM".toList [textNode "BANKID".toList f.bankID, textNode "ACCTID".toList f.acctID,
          textNode "ACCTTYPE".toList kind],
        includeAll "INCTRAN"]]]
  | .downloadCC, n | .transactionsCC, n =>
    n = .elem "CREDITCARDMSGSRQV1".toList [.elem "CCSTMTTRNRQ".toList [textNode "TRNUID".toList uid,
      .elem "CCSTMTRQ".toList [.elem "CCACCTFROM".toList [textNode "ACCTID".toList f.acctID], includeAll "INCTRAN"]]]
  | .downloadInv, n | .transactionsInv, n =>
    n = .elem "INVSTMTMSGSRQV1".toList [.elem "INVSTMTTRNRQ".toList [textNode "TRNUID".toList uid,
      .elem "INVSTMTRQ".toList [
        .elem "INVACCTFROM".toList [textNode "BROKERID".toList f.brokerID, textNode "ACCTID".toList f.acctID],
        includeAll "INCTRAN", textNode "INCOO".toList "Y".toList, includeAll "INCPOS",
        textNode "INCBAL".toList "Y".toList, textNode "INC401K".toList "Y".toList, textNode "INC401KBAL".toList "Y".toList]]]
  | .getAccounts, n => ∃ epoch : GoTime, epoch.ns = 62135596800 * 1000000000 ∧
    n = .elem "SIGNUPMSGSRQV1".toList [.elem "ACCTINFOTRNRQ".toList [textNode "TRNUID".toList uid,
      .elem "ACCTINFORQ".toList [textNode "DTACCTUP".toList (Date.marshal epoch)]]]
  | .downloadProfile, n =>
    n = .elem "PROFMSGSRQV1".toList [.elem "PROFTRNRQ".toList [textNode "TRNUID".toList uid,
      .elem "PROFRQ".toList [textNode "CLIENTROUTING".toList "NONE".toList,
        textNode "DTPROFUP".toList (Date.marshal GoTime.zero)]]]
  | .detectSettings, _ => False

/-- A document asks for what the flags and the command say: it is a document of the version given,
laid out as asked for, that holds the login and one message with a new random identifier. -/
def AsksDocument (w : World) (c : Command) (f : Flags) (d : Doc) : Prop :=
  ∃ (v : Nat) (version uid : Str) (ask : Node), enumOfxVersion.string v = .ret version ∧ TrimsTo f.ofxVersion version ∧
    writeHeader v f.carriageReturn = some d.header ∧
    d.indent = !f.noIndentRequests ∧ d.carriageReturn = f.carriageReturn ∧ d.openLeaves = decide (v < 5) ∧
    randomUID (w.entropy []) = .ok uid ∧ Asks f uid c ask ∧
    d.body = .elem "OFX".toList [.elem "SIGNONMSGSRQV1".toList [signonOf w.net.now f], ask]

end Ofx.Spec
