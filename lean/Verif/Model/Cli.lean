import Verif.Model.Client
/-
The command-line client, cmd/ofx.  Parsing of flags by package flag is not modelled: a command
starts from the values of its flags.  What is printed is a `Str`.
-/
namespace Ofx

/-- command.go 24-28, bankdownload.go 19, invdownload.go 19, detect_settings.go 19: the
variables set by flags. -/
structure Flags where
  serverURL : Str
  username : Str
  password : Str
  org : Str
  fid : Str
  appID : Str
  appVer : Str
  ofxVersion : Str
  clientUID : Str
  noIndentRequests : Bool
  carriageReturn : Bool
  dryrun : Bool
  userAgent : Str
  filename : Str
  bankID : Str
  acctID : Str
  acctType : Str
  brokerID : Str
  delay : Nat

/-- The environment of commands: that of the decoder and of clients, the entropy source (it may
fail at any time), files that cannot be created, what io.Copy manages to write (`none`: all of
it, `some n`: n bytes and then an error) and the password prompt. cmd/ofx/*.go. -/
structure World where
  env : Env
  names : NameTable
  net : Net
  entropy : Trace → Entropy
  creatable : Str → Bool
  copies : Str → Option Nat
  prompt : Option Str

/-- How a command ends: os.Exit, or a Go panic (nil pointer dereference).
cmd/ofx/main.go 60-82. -/
inductive Fin where
  | exit (code : Nat)
  | panic
deriving DecidableEq

/-- What a command did: its output, end, network events and the files it wrote.
cmd/ofx/main.go 43-58. -/
structure Ran where
  out : Str
  fin : Fin
  trace : Trace
  files : List (Str × List UInt8)

/-- What a piece of printing code did: its output and whether it ended with a panic.
cmd/ofx/banktransactions.go 63-81. -/
structure Printed where
  out : Str
  panics : Bool

/-- fmt.Printf with the resulting text. cmd/ofx/banktransactions.go 65, 75, 76, 100. -/
def say (s : Str) : Printed := ⟨s, false⟩

/-- A nil pointer dereference. cmd/ofx/banktransactions.go 77. -/
def nilDeref : Printed := ⟨[], true⟩

/-- One piece of code after another. cmd/ofx/banktransactions.go 75-79. -/
def Printed.andThen (a b : Printed) : Printed := if a.panics then a else ⟨a.out ++ b.out, b.panics⟩

/-- A `for range` loop. cmd/ofx/banktransactions.go 77-79. -/
def forPrint {α : Type} (f : α → Printed) : List α → Printed
  | [] => say []
  | x :: xs => (f x).andThen (forPrint f xs)

/-- fmt verb `%-ns`: padded on the right to n runes. cmd/ofx/banktransactions.go 100. -/
def padRight (n : Nat) (s : Str) : Str := s ++ List.replicate (n - s.length) ' '

/-- fmt verb `%s` of an enumeration value; its method String does not panic (C10).
cmd/ofx/banktransactions.go 100. -/
def enumText (t : EnumTable) (e : Nat) : Str :=
  match t.string e with
  | .ret s => s
  | .panic => []

/-- cmd/ofx/util.go 9-34 `newRequest`; an error is the text printed before os.Exit(1). -/
def newRequest (f : Flags) : Except Str (Client × Request Message) :=
  match enumOfxVersion.new f.ofxVersion with
  | (_, some e) => .error ("Error creating new OfxVersion enum: ".toList ++ e.toList ++ ['\n'])
  | (ver, none) =>
    .ok (getClient f.serverURL ⟨ver, f.appID, f.appVer, f.noIndentRequests, f.carriageReturn, f.userAgent, none⟩,
      { url := f.serverURL, version := 0, indent := false, carriageReturn := false, sets := fun _ => [],
        signon := ⟨GoTime.zero, f.username, f.password, [], false, [], f.org, f.fid, [], [], f.clientUID⟩ })

/-- cmd/ofx/util.go 36-45 `printRequest`: what it prints. -/
def printRequest (net : Net) (c : Client) (r : Request Message) : Str :=
  match (r.setClientFields net.now c.bc).marshal with
  | (.error e, _) => e.error.toList ++ ['\n']
  | (.ok d, _) => d.text ++ ['\n']

/-- Appending a message to one of the lists of a request. cmd/ofx/banktransactions.go 50. -/
def Request.add (r : Request Message) (set : MsgSet) (m : Message) : Request Message :=
  { r with sets := fun s => if s = set then r.sets s ++ [m] else r.sets s }

/-- The start common to the commands: newRequest, RandomUID and the append of one message.
cmd/ofx/banktransactions.go 26-50. -/
def prepare (w : World) (f : Flags) (set : MsgSet) (msg : Str → Message) : Except Str (Client × Request Message) :=
  match newRequest f with
  | .error e => .error e
  | .ok (c, r) =>
    match randomUID (w.entropy []) with
    | .error e => .error ("Error creating uid for transaction: ".toList ++ e.toList ++ ['\n'])
    | .ok uid => .ok (c, r.add set (msg uid))

/-- time.Unix(0, 0): in the local zone. cmd/ofx/get_accounts.go 34, detect_settings.go 155. -/
def unixEpoch (w : World) : GoTime :=
  ⟨62135596800 * nsPerSec, (w.env.loc 62135596800).1, (w.env.loc 62135596800).2⟩

/-- The account type of bankdownload.go 43-47 and banktransactions.go 28-32, between newRequest
and RandomUID. -/
def prepareBank (w : World) (f : Flags) : Except Str (Client × Request Message) :=
  match newRequest f with
  | .error e => .error e
  | .ok _ =>
    match enumAcctType.new f.acctType with
    | (_, some e) => .error ("Error parsing accttype: ".toList ++ e.toList ++ ['\n'])
    | (t, none) =>
      prepare w f .bank (fun uid => .statementRequest
        ⟨uid, [], [], ⟨[], f.bankID, [], f.acctID, t, []⟩, none, none, true, false, false⟩)

/-- cctransactions.go 26-39, ccdownload.go 39-52. -/
def prepareCC (w : World) (f : Flags) : Except Str (Client × Request Message) :=
  prepare w f .creditCard (fun uid => .ccStatementRequest
    ⟨uid, [], [], ⟨[], f.acctID, []⟩, none, none, true, false, false⟩)

/-- invtransactions.go 27-46, invdownload.go 42-61. -/
def prepareInv (w : World) (f : Flags) : Except Str (Client × Request Message) :=
  prepare w f .invStmt (fun uid => .invStatementRequest
    ⟨uid, [], [], ⟨[], f.brokerID, f.acctID⟩, none, none, true, true, none, true, true, true, true, false⟩)

/-- get_accounts.go 26-36. -/
def prepareAccounts (w : World) (f : Flags) : Except Str (Client × Request Message) :=
  prepare w f .signup (fun uid => .acctInfoRequest ⟨uid, [], [], unixEpoch w⟩)

/-- profiledownload.go 45-55. -/
def prepareProfile (w : World) (f : Flags) : Except Str (Client × Request Message) :=
  prepare w f .prof (fun uid => .profileRequest ⟨uid, [], [], [], GoTime.zero⟩)

/-- banktransactions.go 89-98: the text describing a transaction. -/
def transactionName (tran : Transaction) : Str :=
  let name :=
    if blen tran.Name > 0 then tran.Name
    else
      match tran.Payee with
      | some p => p.Name
      | none => []
  if blen tran.Memo > 0 then name ++ " - ".toList ++ tran.Memo else name

/-- banktransactions.go 84-87: the currency of a transaction. -/
def transactionCurrency (defCurrency : CurrSymbol) (tran : Transaction) : CurrSymbol :=
  match tran.Currency with
  | some c => c.CurSym
  | none => defCurrency

/-- The format of banktransactions.go 100 and cctransactions.go 83. -/
def transactionLine (currency : CurrSymbol) (tran : Transaction) (name : Str) : Str :=
  Date.string tran.DtPosted ++ [' '] ++ padRight 15 (Amount.string tran.TrnAmt ++ [' '] ++ currency.code) ++ [' '] ++
    padRight 11 (enumText enumTrnType tran.TrnType) ++ [' '] ++ name ++ ['\n']

/-- banktransactions.go 83-101 `printTransaction`. -/
def printTransaction (defCurrency : CurrSymbol) (tran : Transaction) : Printed :=
  say (transactionLine (transactionCurrency defCurrency tran) tran (transactionName tran))

/-- The format of banktransactions.go 75, cctransactions.go 64 and invtransactions.go 72. -/
def balanceLine (amount : Rat) (currency : CurrSymbol) (asOf : GoTime) : Str :=
  "Balance: ".toList ++ Amount.string amount ++ [' '] ++ currency.code ++ " (as of ".toList ++ Date.string asOf ++ ")\n".toList

/-- banktransactions.go 69-80. -/
def printBank (r : Response Message) : Printed :=
  match r.sets .bank with
  | [] => say "No banking messages received\n".toList
  | .statementResponse stmt :: _ =>
    (say (balanceLine stmt.BalAmt stmt.CurDef stmt.DtAsOf)).andThen <|
    (say "Transactions:\n".toList).andThen <|
      match stmt.BankTranList with
      | none => nilDeref
      | some l => forPrint (printTransaction stmt.CurDef) l.Transactions
  | _ :: _ => say []

/-- cctransactions.go 67-83: one transaction; the payee is used without a check. -/
def printCCTransaction (curDef : CurrSymbol) (tran : Transaction) : Printed :=
  if blen tran.Name > 0 then printTransaction curDef tran
  else
    match tran.Payee with
    | none => nilDeref
    | some _ => printTransaction curDef tran

/-- cctransactions.go 58-85. -/
def printCC (r : Response Message) : Printed :=
  match r.sets .creditCard with
  | [] => say "No banking messages received\n".toList
  | .ccStatementResponse stmt :: _ =>
    (say (balanceLine stmt.BalAmt stmt.CurDef stmt.DtAsOf)).andThen <|
    (say "Transactions:\n".toList).andThen <|
      match stmt.BankTranList with
      | none => nilDeref
      | some l => forPrint (printCCTransaction stmt.CurDef) l.Transactions
  | _ :: _ => say []

/-- invstmt.go 130-521: the methods `TransactionType`. -/
def InvTransaction.transactionType : InvTransaction → Str
  | .buyDebt _ => "BUYDEBT".toList
  | .buyMF _ => "BUYMF".toList
  | .buyOpt _ => "BUYOPT".toList
  | .buyOther _ => "BUYOTHER".toList
  | .buyStock _ => "BUYSTOCK".toList
  | .closureOpt _ => "CLOSUREOPT".toList
  | .income _ => "INCOME".toList
  | .invExpense _ => "INVEXPENSE".toList
  | .jrnlFund _ => "JRNLFUND".toList
  | .jrnlSec _ => "JRNLSEC".toList
  | .marginInterest _ => "MARGININTEREST".toList
  | .reinvest _ => "REINVEST".toList
  | .retOfCap _ => "RETOFCAP".toList
  | .sellDebt _ => "SELLDEBT".toList
  | .sellMF _ => "SELLMF".toList
  | .sellOpt _ => "SELLOPT".toList
  | .sellOther _ => "SELLOTHER".toList
  | .sellStock _ => "SELLSTOCK".toList
  | .split _ => "SPLIT".toList
  | .transfer _ => "TRANSFER".toList

/-- invtransactions.go 99-102 and the like: the currency of an investment transaction. -/
def invCurrency (curDef : CurrSymbol) (c : Currency) : CurrSymbol :=
  match c.valid with
  | none => c.CurSym
  | some _ => curDef

/-- invtransactions.go 103 and the like: `(%s %s)` of a security. -/
def securityText (s : SecurityID) : Str := s.UniqueIDType ++ [' '] ++ s.UniqueID

/-- invtransactions.go 174-183 `printInvBuy`, with 170-172 `printInvTran`. -/
def printInvBuy (curDef : CurrSymbol) (ib : InvBuy) : Str :=
  Date.string ib.InvTran.DtTrade ++ Amount.string ib.Units ++ " (".toList ++ securityText ib.SecID ++ ")@".toList ++
    Amount.string ib.UnitPrice ++ [' '] ++ (invCurrency curDef ib.Currency).code ++ " (Total: ".toList ++
    Amount.string ib.Total ++ ")\n".toList

/-- invtransactions.go 185-194 `printInvSell`. -/
def printInvSell (curDef : CurrSymbol) (s : InvSell) : Str :=
  Date.string s.InvTran.DtTrade ++ [' '] ++ Amount.string s.Units ++ " (".toList ++ securityText s.SecID ++ ")@".toList ++
    Amount.string s.UnitPrice ++ [' '] ++ (invCurrency curDef s.Currency).code ++ " (Total: ".toList ++
    Amount.string s.Total ++ ")\n".toList

/-- invtransactions.go 83-165: the switch over the kind of transaction. -/
def invTransactionText (curDef : CurrSymbol) : InvTransaction → Str
  | .buyDebt t => printInvBuy curDef t.InvBuy
  | .buyMF t => printInvBuy curDef t.InvBuy
  | .buyOpt t => printInvBuy curDef t.InvBuy
  | .buyOther t => printInvBuy curDef t.InvBuy
  | .buyStock t => printInvBuy curDef t.InvBuy
  | .closureOpt t =>
    Date.string t.InvTran.DtTrade ++ enumText enumOptAction t.OptAction ++ [' '] ++ Amount.string t.Units ++
      " contracts (".toList ++ intStr t.ShPerCtrct ++ " shares each)\n".toList
  | .income t =>
    Date.string t.InvTran.DtTrade ++ [' '] ++ enumText enumIncomeType t.IncomeType ++ [' '] ++ Amount.string t.Total ++
      [' '] ++ (invCurrency curDef t.Currency).code ++ " (".toList ++ securityText t.SecID ++ ")\n".toList
  | .invExpense t =>
    Date.string t.InvTran.DtTrade ++ [' '] ++ Amount.string t.Total ++ [' '] ++ (invCurrency curDef t.Currency).code ++
      " (".toList ++ securityText t.SecID ++ ")\n".toList
  | .jrnlFund t =>
    Date.string t.InvTran.DtTrade ++ [' '] ++ Amount.string t.Total ++ [' '] ++ curDef.code ++ " (".toList ++
      enumText enumSubAcctType t.SubAcctFrom ++ " -> ".toList ++ enumText enumSubAcctType t.SubAcctTo ++ ")\n".toList
  | .jrnlSec t =>
    Date.string t.InvTran.DtTrade ++ [' '] ++ Amount.string t.Units ++ [' '] ++ securityText t.SecID ++ " (".toList ++
      enumText enumSubAcctType t.SubAcctFrom ++ " -> ".toList ++ enumText enumSubAcctType t.SubAcctTo ++ ")\n".toList
  | .marginInterest t =>
    Date.string t.InvTran.DtTrade ++ [' '] ++ Amount.string t.Total ++ [' '] ++ (invCurrency curDef t.Currency).code ++ ['\n']
  | .reinvest t =>
    Date.string t.InvTran.DtTrade ++ [' '] ++ Amount.string t.Units ++ " (".toList ++ securityText t.SecID ++ ")@".toList ++
      Amount.string t.UnitPrice ++ [' '] ++ (invCurrency curDef t.Currency).code ++ " (Total: ".toList ++
      Amount.string t.Total ++ ")\n".toList
  | .retOfCap t =>
    Date.string t.InvTran.DtTrade ++ [' '] ++ Amount.string t.Total ++ [' '] ++ (invCurrency curDef t.Currency).code ++
      " (".toList ++ securityText t.SecID ++ ")\n".toList
  | .sellDebt t => printInvSell curDef t.InvSell
  | .sellMF t => printInvSell curDef t.InvSell
  | .sellOpt t => printInvSell curDef t.InvSell
  | .sellOther t => printInvSell curDef t.InvSell
  | .sellStock t => printInvSell curDef t.InvSell
  | .split t =>
    Date.string t.InvTran.DtTrade ++ [' '] ++ intStr t.Numerator ++ ['/'] ++ intStr t.Denominator ++ [' '] ++
      Amount.string t.OldUnits ++ " -> ".toList ++ Amount.string t.NewUnits ++ " shares of ".toList ++ securityText t.SecID ++
      " (".toList ++ Amount.string t.FracCash ++ [' '] ++ (invCurrency curDef t.Currency).code ++ " for fractional shares)\n".toList
  | .transfer t =>
    Date.string t.InvTran.DtTrade ++ [' '] ++ Amount.string t.Units ++ " (".toList ++ securityText t.SecID ++ ") ".toList ++
      enumText enumTferAction t.TferAction ++ ['\n']

/-- invtransactions.go 81-166: one pass of the loop. -/
def printInvTransaction (curDef : CurrSymbol) (t : InvTransaction) : Printed :=
  say (padRight 14 t.transactionType ++ invTransactionText curDef t)

/-- invtransactions.go 74-79: one pass of the loop. -/
def printInvBankTransaction (curDef : CurrSymbol) (b : InvBankTransaction) : Printed :=
  (say ("\nBank Transactions for ".toList ++ enumText enumSubAcctType b.SubAcctFund ++ " subaccount:\n".toList)).andThen <|
    forPrint (printTransaction curDef) b.Transactions

/-- invtransactions.go 64-167. -/
def printInv (r : Response Message) : Printed :=
  match r.sets .invStmt with
  | [] => say "No investment messages received\n".toList
  | .invStatementResponse stmt :: _ =>
    match stmt.InvBal with
    | none => nilDeref
    | some bal =>
      (say (if bal.AvailCash.den = 1 ∧ bigInt64 bal.AvailCash.num ≠ 0 then
        balanceLine bal.AvailCash stmt.CurDef stmt.DtAsOf else [])).andThen <|
      match stmt.InvTranList with
      | none => nilDeref
      | some l =>
        (forPrint (printInvBankTransaction stmt.CurDef) l.BankTransactions).andThen <|
        (say "\nInvestment Transactions:\n".toList).andThen <|
          forPrint (printInvTransaction stmt.CurDef) l.InvTransactions
  | _ :: _ => say []

/-- get_accounts.go 63-73: one account. -/
def accountText (acct : AcctInfo) : Str :=
  match acct.BankAcctInfo with
  | some b =>
    "Bank Account:\n\tBankID: \"".toList ++ b.BankAcctFrom.BankID ++ "\"\n\tAcctID: \"".toList ++ b.BankAcctFrom.AcctID ++
      "\"\n\tAcctType: ".toList ++ enumText enumAcctType b.BankAcctFrom.AcctType ++ ['\n']
  | none =>
    match acct.CCAcctInfo with
    | some c => "Credit card:\n\tAcctID: \"".toList ++ c.CCAcctFrom.AcctID ++ "\"\n".toList
    | none =>
      match acct.InvAcctInfo with
      | some i =>
        "Investment account:\n\tBrokerID: \"".toList ++ i.InvAcctFrom.BrokerID ++ "\"\n\tAcctID: \"".toList ++ i.InvAcctFrom.AcctID ++ "\"\n".toList
      | none => "Unknown type: ".toList ++ acct.Name ++ [' '] ++ acct.Desc ++ ['\n']

/-- get_accounts.go 55-74. -/
def printAccounts (r : Response Message) : Printed :=
  match r.sets .signup with
  | [] => say "No signup messages received\n".toList
  | m :: _ =>
    (say "\nFound the following accounts:\n\n".toList).andThen <|
      match m with
      | .acctInfoResponse a => forPrint (fun acct => say (accountText acct)) a.AcctInfo
      | _ => say []

/-- The check of the signon status (banktransactions.go 63-67 and the like). -/
def checkSignon (s : Status) : Option Str :=
  if s.Code ≠ 0 then
    let meaning := match s.codeMeaning with
      | .ok m => m.toList
      | .error _ => []
    some ("Nonzero signon status (".toList ++ intStr s.Code ++ ": ".toList ++ meaning ++ ") with message: ".toList ++ s.Message ++ ['\n'])
  else none

/-- The rest of the commands that print a response (banktransactions.go 52-81, cctransactions.go
41-86, invtransactions.go 48-168, get_accounts.go 38-75), with the text printed on errors. -/
def showCommand (w : World) (f : Flags) (query : Except Str (Client × Request Message)) (onError : Err → Str)
    (print : Response Message → Printed) : Ran :=
  match query with
  | .error e => ⟨e, .exit 1, [], []⟩
  | .ok (c, r) =>
    if f.dryrun then ⟨printRequest w.net c r, .exit 0, [], []⟩
    else
      match c.request w.env w.names w.net r [] with
      | ((_, some e), _, tr) => ⟨onError e, .exit 1, tr, []⟩
      | ((none, none), _, tr) => ⟨[], .panic, tr, []⟩
      | ((some resp, none), _, tr) =>
        match checkSignon resp.signon.Status with
        | some e => ⟨e, .exit 1, tr, []⟩
        | none => ⟨(print resp).out, if (print resp).panics then .panic else .exit 0, tr, []⟩

/-- The part of the body that io.Copy writes to the file. cmd/ofx/bankdownload.go 86. -/
def copied (limit : Option Nat) (body : List UInt8) : List UInt8 :=
  match limit with
  | none => body
  | some n => body.take n

/-- The rest of the download commands (bankdownload.go 67-91, ccdownload.go 54-79,
invdownload.go 63-89, profiledownload.go 57-81).  After os.Exit deferred calls are not run. -/
def saveCommand (w : World) (f : Flags) (query : Except Str (Client × Request Message)) (onError : Err → Str) : Ran :=
  match query with
  | .error e => ⟨e, .exit 1, [], []⟩
  | .ok (c, r) =>
    if f.dryrun then ⟨printRequest w.net c r, .exit 0, [], []⟩
    else
      match c.requestNoParse w.net r [] with
      | ((_, some e), _, tr) => ⟨onError e, .exit 1, tr, []⟩
      | ((none, none), _, tr) => ⟨[], .panic, tr, []⟩
      | ((some resp, none), _, tr) =>
        if !w.creatable f.filename then
          ⟨"Error creating file to write to: error\n".toList, .exit 1, tr, []⟩
        else
          let written := copied (w.copies f.filename) resp.body
          if (w.copies f.filename).isSome then
            ⟨"Error writing response to file: error\n".toList, .exit 1, tr, [(f.filename, written)]⟩
          else ⟨[], .exit 0, tr ++ [.closed resp.id], [(f.filename, written)]⟩

/-- The message printed when a statement cannot be obtained. cmd/ofx/banktransactions.go 59. -/
def statementError (e : Err) : Str := "Error requesting account statement: ".toList ++ e.error.toList ++ ['\n']

/-- banktransactions.go 25-81 `bankTransactions`. -/
def bankTransactions (w : World) (f : Flags) : Ran := showCommand w f (prepareBank w f) statementError printBank

/-- cctransactions.go 23-86 `ccTransactions`. -/
def ccTransactions (w : World) (f : Flags) : Ran := showCommand w f (prepareCC w f) statementError printCC

/-- invtransactions.go 24-168 `invTransactions`; errors are not printed (lines 54-56). -/
def invTransactions (w : World) (f : Flags) : Ran := showCommand w f (prepareInv w f) (fun _ => []) printInv

/-- get_accounts.go 23-75 `getAccounts`. -/
def getAccounts (w : World) (f : Flags) : Ran :=
  showCommand w f (prepareAccounts w f)
    (fun e => "Error requesting account information: ".toList ++ e.error.toList ++ ['\n']) printAccounts

/-- bankdownload.go 40-91 `download`. -/
def download (w : World) (f : Flags) : Ran := saveCommand w f (prepareBank w f) statementError

/-- ccdownload.go 36-79 `ccDownload`. -/
def ccDownload (w : World) (f : Flags) : Ran := saveCommand w f (prepareCC w f) statementError

/-- invdownload.go 39-89 `invDownload`. -/
def invDownload (w : World) (f : Flags) : Ran := saveCommand w f (prepareInv w f) statementError

/-- profiledownload.go 42-81 `downloadProfile`. -/
def downloadProfile (w : World) (f : Flags) : Ran :=
  saveCommand w f (prepareProfile w f)
    (fun e => "Error requesting FI profile: ".toList ++ e.error.toList ++ ['\n'])

/-- One combination tried by detect-settings. cmd/ofx/detect_settings.go 95-121. -/
structure Setting where
  appID : Str
  appVer : Str
  version : Str
  noIndent : Bool
deriving DecidableEq

/-- detect_settings.go 33-39 `appIDs`. -/
def appIDs : List Str := ["OFXGO".toList, "QWIN".toList, "QMOFX".toList, "QB".toList, "Money".toList]

/-- detect_settings.go 41-79 `appVersions`. -/
def appVersions (id : Str) : List Str :=
  if id = "OFXGO".toList then ["0001".toList]
  else if id = "QWIN".toList then
    ["2600".toList, "2500".toList, "2400".toList, "2300".toList, "2200".toList, "2100".toList, "2000".toList, "1900".toList, "1800".toList, "1700".toList, "1600".toList,
      "1500".toList, "1400".toList]
  else if id = "QMOFX".toList then ["1700".toList, "1600".toList, "1500".toList, "1400".toList]
  else if id = "QB".toList then ["1800".toList, "1700".toList, "1600".toList, "1500".toList]
  else if id = "Money".toList then ["1600".toList, "1500".toList, "1400".toList, "1200".toList, "1100".toList]
  else []

/-- detect_settings.go 81-93 `versions`. -/
def versions : List Str :=
  ["203".toList, "103".toList, "200".toList, "201".toList, "202".toList, "210".toList, "211".toList, "102".toList, "151".toList, "160".toList, "220".toList]

/-- detect_settings.go 123 `anonymous`. -/
def anonymous : Str := "anonymous00000000000000000000000".toList

/-- detect_settings.go 125-170 `tryProfile`; an error is the text printed before os.Exit(1). -/
def tryProfile (w : World) (f : Flags) (s : Setting) (tr : Trace) : Except Str (Bool × Trace) :=
  match enumOfxVersion.new s.version with
  | (_, some e) => .error ("Error creating new OfxVersion enum: ".toList ++ e.toList ++ ['\n'])
  | (ver, none) =>
    match randomUID (w.entropy tr) with
    | .error e => .error ("Error creating uid for transaction: ".toList ++ e.toList ++ ['\n'])
    | .ok uid =>
      let client := getClient f.serverURL ⟨ver, s.appID, s.appVer, s.noIndent, false, [], none⟩
      let query : Request Message :=
        { url := f.serverURL, version := 0, indent := false, carriageReturn := false,
          sets := fun t => if t = .prof then [.profileRequest ⟨uid, [], [], [], unixEpoch w⟩] else [],
          signon := ⟨GoTime.zero, f.username, f.password, [], false, [], f.org, f.fid, [], [], f.clientUID⟩ }
      match client.request w.env w.names w.net query tr with
      | ((_, none), _, tr) => .ok (true, tr)
      | ((_, some _), query, tr) =>
        match client.request w.env w.names w.net
            { query with signon := { query.signon with UserID := anonymous, UserPass := anonymous } } tr with
        | ((_, err), _, tr) => .ok (err.isNone, tr)

/-- A `for range` loop whose body may end the program. cmd/ofx/detect_settings.go 95-121. -/
def forEach {α S R : Type} (body : α → S → R ⊕ S) : List α → S → R ⊕ S
  | [], s => .inr s
  | x :: xs, s =>
    match body x s with
    | .inl r => .inl r
    | .inr s => forEach body xs s

/-- detect_settings.go 102-106. -/
def foundText (s : Setting) : Str :=
  "The following settings were found to work:\nAppID: ".toList ++ s.appID ++ "\nAppVer: ".toList ++ s.appVer ++
    "\nOFX Version: ".toList ++ s.version ++ "\nnoindent: ".toList ++ (if s.noIndent then "true".toList else "false".toList) ++ ['\n']

/-- detect_settings.go 110-114. -/
def attemptText (delay attempts : Nat) (s : Setting) : Str :=
  "Attempt ".toList ++ natStr attempts ++ " failed (".toList ++ s.appID ++ [' '] ++ s.appVer ++ [' '] ++ s.version ++
    (if s.noIndent then " noindent".toList else []) ++ "), trying again after ".toList ++ natStr delay ++ "ms...\n".toList

/-- The variables of detectSettings: attempts, and what was printed and done so far.
cmd/ofx/detect_settings.go 95-121. -/
structure Detecting where
  attempts : Nat
  out : Str
  trace : Trace

/-- The int64 a number wraps around to. detect_settings.go 115. -/
def wrap64 (n : Int) : Int := (n + 2 ^ 63) % 2 ^ 64 - 2 ^ 63

/-- detect_settings.go 115: time.Duration(delay) * time.Millisecond, in nanoseconds: an int64 that
wraps around.  (time.Sleep returns at once if it is not positive.) -/
def pauseNs (delay : Nat) : Int := wrap64 (wrap64 delay * 1000000)

/-- detect_settings.go 101-116: the body of the innermost loop. -/
def detectStep (w : World) (f : Flags) (s : Setting) (d : Detecting) : Ran ⊕ Detecting :=
  match tryProfile w f s d.trace with
  | .error e => .inl ⟨d.out ++ e, .exit 1, d.trace, []⟩
  | .ok (true, tr) => .inl ⟨d.out ++ foundText s, .exit 0, tr, []⟩
  | .ok (false, tr) => .inr ⟨d.attempts + 1, d.out ++ attemptText f.delay (d.attempts + 1) s, tr ++ [.paused (pauseNs f.delay)]⟩

/-- detect_settings.go 95-121 `detectSettings`; when it returns, main exits with 0. -/
def detectSettings (w : World) (f : Flags) : Ran :=
  match forEach (fun appID => forEach (fun appVer => forEach (fun version => forEach (fun noIndent =>
      detectStep w f ⟨appID, appVer, version, noIndent⟩) [false, true]) versions) (appVersions appID)) appIDs
      ⟨0, [], []⟩ with
  | .inl r => r
  | .inr d => ⟨d.out, .exit 0, d.trace, []⟩

/-- The commands (main.go 9-19). -/
inductive Command where
  | downloadProfile | getAccounts | downloadBank | downloadCC | downloadInv
  | transactionsBank | transactionsCC | transactionsInv | detectSettings
deriving DecidableEq

/-- The fields `Name` of the commands.
bankdownload.go 12, banktransactions.go 11, ccdownload.go 12, cctransactions.go 11, detect_settings.go 12, get_accounts.go 12, invdownload.go 12, invtransactions.go 11, profiledownload.go 12. -/
def Command.name : Command → Str
  | .downloadProfile => "download-profile".toList
  | .getAccounts => "get-accounts".toList
  | .downloadBank => "download-bank".toList
  | .downloadCC => "download-cc".toList
  | .downloadInv => "download-inv".toList
  | .transactionsBank => "transactions-bank".toList
  | .transactionsCC => "transactions-cc".toList
  | .transactionsInv => "transactions-inv".toList
  | .detectSettings => "detect-settings".toList

/-- command.go 46-68 `checkServerFlags`: what it prints, the verdict and the flags afterwards. -/
def checkServerFlags (w : World) (f : Flags) : Str × Bool × Flags :=
  let out1 := if blen f.serverURL = 0 then "Error: Server URL empty\n".toList else []
  let out2 := if blen f.username = 0 then "Error: Username empty\n".toList else []
  let ret := !(blen f.serverURL = 0) && !(blen f.username = 0)
  if ret && blen f.password = 0 then
    let ask := "Password for ".toList ++ f.username ++ ": ".toList
    match w.prompt with
    | none => (out1 ++ out2 ++ ask ++ "Error reading password: error\n".toList, false, f)
    | some p => (out1 ++ out2 ++ ask, ret, { f with password := p })
  else (out1 ++ out2, ret, f)

/-- bankdownload.go 29-38, ccdownload.go 25-34, invdownload.go 28-37. -/
def downloadCheckFlags (w : World) (f : Flags) : Str × Bool × Flags :=
  match checkServerFlags w f with
  | (out, ret, f) =>
    if blen f.filename = 0 then (out ++ "Error: Filename empty\n".toList, false, f) else (out, ret, f)

/-- profiledownload.go 24-40 `downloadProfileCheckFlags`. -/
def downloadProfileCheckFlags (w : World) (f : Flags) : Str × Bool × Flags :=
  downloadCheckFlags w (if blen f.username = 0 then { f with username := anonymous, password := anonymous } else f)

/-- The fields `CheckFlags` of the commands.
bankdownload.go 15, banktransactions.go 14, ccdownload.go 15, cctransactions.go 14, detect_settings.go 15, get_accounts.go 15, invdownload.go 15, invtransactions.go 14, profiledownload.go 15. -/
def Command.checkFlags (w : World) (f : Flags) : Command → Str × Bool × Flags
  | .downloadProfile => downloadProfileCheckFlags w f
  | .downloadBank | .downloadCC | .downloadInv => downloadCheckFlags w f
  | _ => checkServerFlags w f

/-- The fields `Do` of the commands, and main.go 70 `os.Exit(0)` after them. -/
def Command.run (w : World) (f : Flags) : Command → Ran
  | .downloadProfile => Ofx.downloadProfile w f
  | .getAccounts => Ofx.getAccounts w f
  | .downloadBank => download w f
  | .downloadCC => ccDownload w f
  | .downloadInv => invDownload w f
  | .transactionsBank => bankTransactions w f
  | .transactionsCC => ccTransactions w f
  | .transactionsInv => invTransactions w f
  | .detectSettings => Ofx.detectSettings w f

/-- main.go 43-58 `runCmd` after the flags are parsed; `usage` is what the usage message is. -/
def runCmd (w : World) (f : Flags) (usage : Str) (c : Command) : Ran :=
  match c.checkFlags w f with
  | (out, false, _) => ⟨out ++ ['\n'] ++ usage, .exit 1, [], []⟩
  | (out, true, f) => { c.run w f with out := out ++ (c.run w f).out }

end Ofx
