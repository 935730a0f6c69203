import Verif.Model.Marshal
import Verif.Spec.Exact
/-
What the documents written and read by the library look like, independently of how they
are produced.
-/
namespace Ofx.Spec
open Ofx

/-- The message sets after the signon set, in the order of the OFX specification, with the
names of the request set (response set: RS in place of RQ). -/
def requestOrder : List (MsgSet × String) :=
  [(.signup, "SIGNUPMSGSRQV1"), (.bank, "BANKMSGSRQV1"), (.creditCard, "CREDITCARDMSGSRQV1"), (.loan, "LOANMSGSRQV1"),
   (.invStmt, "INVSTMTMSGSRQV1"), (.interXfer, "INTERXFERMSGSRQV1"), (.wireXfer, "WIREXFERMSGSRQV1"),
   (.billpay, "BILLPAYMSGSRQV1"), (.email, "EMAILMSGSRQV1"), (.secList, "SECLISTMSGSRQV1"), (.presDir, "PRESDIRMSGSRQV1"),
   (.presDlv, "PRESDLVMSGSRQV1"), (.prof, "PROFMSGSRQV1"), (.image, "IMAGEMSGSRQV1")]

def responseOrder : List (MsgSet × String) :=
  [(.signup, "SIGNUPMSGSRSV1"), (.bank, "BANKMSGSRSV1"), (.creditCard, "CREDITCARDMSGSRSV1"), (.loan, "LOANMSGSRSV1"),
   (.invStmt, "INVSTMTMSGSRSV1"), (.interXfer, "INTERXFERMSGSRSV1"), (.wireXfer, "WIREXFERMSGSRSV1"),
   (.billpay, "BILLPAYMSGSRSV1"), (.email, "EMAILMSGSRSV1"), (.secList, "SECLISTMSGSRSV1"), (.presDir, "PRESDIRMSGSRSV1"),
   (.presDlv, "PRESDLVMSGSRSV1"), (.prof, "PROFMSGSRSV1"), (.image, "IMAGEMSGSRSV1")]

/-- The body element: the signon set, then one element for each message set that has
messages, whose children are `content` of that set. -/
def bodyOf {M : Type} (order : List (MsgSet × String)) (signonSet : String) (signon : Node) (sets : MsgSet → List M)
    (content : MsgSet → List Node) : Node :=
  .elem "OFX".toList (.elem signonSet.toList [signon] ::
    (order.filter (fun s => (sets s.1).length > 0)).map (fun s => .elem s.2.toList (content s.1)))

/-- The messages and the names of the elements holding them. -/
def elementName : Message → String
  | .statementRequest _ => "STMTTRNRQ"
  | .statementResponse _ => "STMTTRNRS"
  | .ccStatementRequest _ => "CCSTMTTRNRQ"
  | .ccStatementResponse _ => "CCSTMTTRNRS"
  | .invStatementRequest _ => "INVSTMTTRNRQ"
  | .invStatementResponse _ => "INVSTMTTRNRS"
  | .profileRequest _ => "PROFTRNRQ"
  | .profileResponse _ => "PROFTRNRS"
  | .secListRequest _ => "SECLISTTRNRQ"
  | .secListResponse _ => "SECLISTTRNRS"
  | .securityList _ => "SECLIST"
  | .acctInfoRequest _ => "ACCTINFOTRNRQ"
  | .acctInfoResponse _ => "ACCTINFOTRNRS"

/-- The elements among some nodes, with their names and contents. -/
def elems : List Node → List (Str × List Node)
  | [] => []
  | .elem n cs :: rest => (n, cs) :: elems rest
  | _ :: rest => elems rest

/-- The elements directly inside the elements called `name`, in document order. -/
def inside (name : Str) (cs : List Node) : List (Str × List Node) :=
  ((elems cs).filter (fun e => e.1 = name)).flatMap (fun e => elems e.2)

/-- The value held by a message, read on its own from the element `name` with children
`cs`. -/
def ReadsAs (env : Env) (name : Str) (cs : List Node) : Message → Prop
  | .statementRequest m => decodeNew env name cs = .ok m
  | .statementResponse m => decodeNew env name cs = .ok m
  | .ccStatementRequest m => decodeNew env name cs = .ok m
  | .ccStatementResponse m => decodeNew env name cs = .ok m
  | .invStatementRequest m => decodeNew env name cs = .ok m
  | .invStatementResponse m => decodeNew env name cs = .ok m
  | .profileRequest m => decodeNew env name cs = .ok m
  | .profileResponse m => decodeNew env name cs = .ok m
  | .secListRequest m => decodeNew env name cs = .ok m
  | .secListResponse m => decodeNew env name cs = .ok m
  | .securityList m => decodeNew env name cs = .ok m
  | .acctInfoRequest m => decodeNew env name cs = .ok m
  | .acctInfoResponse m => decodeNew env name cs = .ok m

/-- A message all of whose values can be carried exactly by a document. -/
def ExactMessage (env : Env) : Message → Prop
  | .statementRequest m => TyExact env (OfxType.ty StatementRequest) "STMTTRNRQ".toList (OfxType.toDen m)
  | .statementResponse m => TyExact env (OfxType.ty StatementResponse) "STMTTRNRS".toList (OfxType.toDen m)
  | .ccStatementRequest m => TyExact env (OfxType.ty CCStatementRequest) "CCSTMTTRNRQ".toList (OfxType.toDen m)
  | .ccStatementResponse m => TyExact env (OfxType.ty CCStatementResponse) "CCSTMTTRNRS".toList (OfxType.toDen m)
  | .invStatementRequest m => TyExact env (OfxType.ty InvStatementRequest) "INVSTMTTRNRQ".toList (OfxType.toDen m)
  | .invStatementResponse m => TyExact env (OfxType.ty InvStatementResponse) "INVSTMTTRNRS".toList (OfxType.toDen m)
  | .profileRequest m => TyExact env (OfxType.ty ProfileRequest) "PROFTRNRQ".toList (OfxType.toDen m)
  | .profileResponse m => TyExact env (OfxType.ty ProfileResponse) "PROFTRNRS".toList (OfxType.toDen m)
  | .secListRequest m => TyExact env (OfxType.ty SecListRequest) "SECLISTTRNRQ".toList (OfxType.toDen m)
  | .secListResponse m => TyExact env (OfxType.ty SecListResponse) "SECLISTTRNRS".toList (OfxType.toDen m)
  | .securityList m => TyExact env (OfxType.ty SecurityList) "SECLIST".toList (OfxType.toDen m)
  | .acctInfoRequest m => TyExact env (OfxType.ty AcctInfoRequest) "ACCTINFOTRNRQ".toList (OfxType.toDen m)
  | .acctInfoResponse m => TyExact env (OfxType.ty AcctInfoResponse) "ACCTINFOTRNRS".toList (OfxType.toDen m)

/-- Like `ExactMessage`, but only about the values held: texts, numbers, amounts, dates,
currencies and enumerations. -/
def ReprMessage (env : Env) : Message → Prop
  | .statementRequest m => TyRepr env (OfxType.ty StatementRequest) "STMTTRNRQ".toList (OfxType.toDen m)
  | .statementResponse m => TyRepr env (OfxType.ty StatementResponse) "STMTTRNRS".toList (OfxType.toDen m)
  | .ccStatementRequest m => TyRepr env (OfxType.ty CCStatementRequest) "CCSTMTTRNRQ".toList (OfxType.toDen m)
  | .ccStatementResponse m => TyRepr env (OfxType.ty CCStatementResponse) "CCSTMTTRNRS".toList (OfxType.toDen m)
  | .invStatementRequest m => TyRepr env (OfxType.ty InvStatementRequest) "INVSTMTTRNRQ".toList (OfxType.toDen m)
  | .invStatementResponse m => TyRepr env (OfxType.ty InvStatementResponse) "INVSTMTTRNRS".toList (OfxType.toDen m)
  | .profileRequest m => TyRepr env (OfxType.ty ProfileRequest) "PROFTRNRQ".toList (OfxType.toDen m)
  | .profileResponse m => TyRepr env (OfxType.ty ProfileResponse) "PROFTRNRS".toList (OfxType.toDen m)
  | .secListRequest m => TyRepr env (OfxType.ty SecListRequest) "SECLISTTRNRQ".toList (OfxType.toDen m)
  | .secListResponse m => TyRepr env (OfxType.ty SecListResponse) "SECLISTTRNRS".toList (OfxType.toDen m)
  | .securityList m => TyRepr env (OfxType.ty SecurityList) "SECLIST".toList (OfxType.toDen m)
  | .acctInfoRequest m => TyRepr env (OfxType.ty AcctInfoRequest) "ACCTINFOTRNRQ".toList (OfxType.toDen m)
  | .acctInfoResponse m => TyRepr env (OfxType.ty AcctInfoResponse) "ACCTINFOTRNRS".toList (OfxType.toDen m)

/-- No loan information in the 401(k) part of an investment statement. -/
def NoLoans : Message → Prop
  | .invStatementResponse m => ∀ k, m.Inv401K = some k → k.LoanInfo = []
  | _ => True

/-- A message in the form decoding produces (dates name their zone, XMLName is set). -/
def SettledMessage : Message → Prop
  | .statementRequest m => TySettled (OfxType.ty StatementRequest) "STMTTRNRQ".toList (OfxType.toDen m)
  | .statementResponse m => TySettled (OfxType.ty StatementResponse) "STMTTRNRS".toList (OfxType.toDen m)
  | .ccStatementRequest m => TySettled (OfxType.ty CCStatementRequest) "CCSTMTTRNRQ".toList (OfxType.toDen m)
  | .ccStatementResponse m => TySettled (OfxType.ty CCStatementResponse) "CCSTMTTRNRS".toList (OfxType.toDen m)
  | .invStatementRequest m => TySettled (OfxType.ty InvStatementRequest) "INVSTMTTRNRQ".toList (OfxType.toDen m)
  | .invStatementResponse m => TySettled (OfxType.ty InvStatementResponse) "INVSTMTTRNRS".toList (OfxType.toDen m)
  | .profileRequest m => TySettled (OfxType.ty ProfileRequest) "PROFTRNRQ".toList (OfxType.toDen m)
  | .profileResponse m => TySettled (OfxType.ty ProfileResponse) "PROFTRNRS".toList (OfxType.toDen m)
  | .secListRequest m => TySettled (OfxType.ty SecListRequest) "SECLISTTRNRQ".toList (OfxType.toDen m)
  | .secListResponse m => TySettled (OfxType.ty SecListResponse) "SECLISTTRNRS".toList (OfxType.toDen m)
  | .securityList m => TySettled (OfxType.ty SecurityList) "SECLIST".toList (OfxType.toDen m)
  | .acctInfoRequest m => TySettled (OfxType.ty AcctInfoRequest) "ACCTINFOTRNRQ".toList (OfxType.toDen m)
  | .acctInfoResponse m => TySettled (OfxType.ty AcctInfoResponse) "ACCTINFOTRNRS".toList (OfxType.toDen m)

/-- Messages of one type with the same content: same instants, amounts, texts and so on. -/
def SameMessage : Message → Message → Prop
  | .statementRequest m, .statementRequest m' =>
    TySame (OfxType.ty StatementRequest) "STMTTRNRQ".toList (OfxType.toDen m) (OfxType.toDen m')
  | .statementResponse m, .statementResponse m' =>
    TySame (OfxType.ty StatementResponse) "STMTTRNRS".toList (OfxType.toDen m) (OfxType.toDen m')
  | .ccStatementRequest m, .ccStatementRequest m' =>
    TySame (OfxType.ty CCStatementRequest) "CCSTMTTRNRQ".toList (OfxType.toDen m) (OfxType.toDen m')
  | .ccStatementResponse m, .ccStatementResponse m' =>
    TySame (OfxType.ty CCStatementResponse) "CCSTMTTRNRS".toList (OfxType.toDen m) (OfxType.toDen m')
  | .invStatementRequest m, .invStatementRequest m' =>
    TySame (OfxType.ty InvStatementRequest) "INVSTMTTRNRQ".toList (OfxType.toDen m) (OfxType.toDen m')
  | .invStatementResponse m, .invStatementResponse m' =>
    TySame (OfxType.ty InvStatementResponse) "INVSTMTTRNRS".toList (OfxType.toDen m) (OfxType.toDen m')
  | .profileRequest m, .profileRequest m' =>
    TySame (OfxType.ty ProfileRequest) "PROFTRNRQ".toList (OfxType.toDen m) (OfxType.toDen m')
  | .profileResponse m, .profileResponse m' =>
    TySame (OfxType.ty ProfileResponse) "PROFTRNRS".toList (OfxType.toDen m) (OfxType.toDen m')
  | .secListRequest m, .secListRequest m' =>
    TySame (OfxType.ty SecListRequest) "SECLISTTRNRQ".toList (OfxType.toDen m) (OfxType.toDen m')
  | .secListResponse m, .secListResponse m' =>
    TySame (OfxType.ty SecListResponse) "SECLISTTRNRS".toList (OfxType.toDen m) (OfxType.toDen m')
  | .securityList m, .securityList m' =>
    TySame (OfxType.ty SecurityList) "SECLIST".toList (OfxType.toDen m) (OfxType.toDen m')
  | .acctInfoRequest m, .acctInfoRequest m' =>
    TySame (OfxType.ty AcctInfoRequest) "ACCTINFOTRNRQ".toList (OfxType.toDen m) (OfxType.toDen m')
  | .acctInfoResponse m, .acctInfoResponse m' =>
    TySame (OfxType.ty AcctInfoResponse) "ACCTINFOTRNRS".toList (OfxType.toDen m) (OfxType.toDen m')
  | _, _ => False

/-- A signon response all of whose values can be carried exactly. -/
def ExactSignon (env : Env) (s : SignonResponse) : Prop :=
  TyExact env (OfxType.ty SignonResponse) "SONRS".toList (OfxType.toDen s)
def SettledSignon (s : SignonResponse) : Prop :=
  TySettled (OfxType.ty SignonResponse) "SONRS".toList (OfxType.toDen s)
def SameSignon (s s' : SignonResponse) : Prop :=
  TySame (OfxType.ty SignonResponse) "SONRS".toList (OfxType.toDen s) (OfxType.toDen s')

mutual
/-- All errors in an error: the errors of a validation list, at any depth. -/
def leaves : Err → List String
  | .plain m => [m]
  | .invalid es => leavesL es
def leavesL : List Err → List String
  | [] => []
  | e :: es => leaves e ++ leavesL es
end

/-- A list of plain errors, without nested lists. -/
def AllPlain (es : List Err) : Prop := ∀ e ∈ es, ∃ m, e = .plain m

/-- The bytes of an end tag, which may have white space after the name. -/
def EndTag (name : Str) (tag : List UInt8) : Prop :=
  ∃ w : Str, (∀ c ∈ w, c = ' ' ∨ c = '\t' ∨ c = '\n' ∨ c = '\r') ∧ tag = toBytes ("</".toList ++ name ++ w ++ ">".toList)

end Ofx.Spec
