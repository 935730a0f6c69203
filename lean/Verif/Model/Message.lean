import Verif.Model.Valid
import Verif.Gen.Types
/-
Messages and message sets (common.go 49-162) and the thirteen message types.
-/
namespace Ofx

/-- The fifteen message sets (common.go 61-95: `messageType` is one of these for requests
and one for responses). -/
inductive MsgSet where
  | signon | signup | bank | creditCard | loan | invStmt | interXfer | wireXfer | billpay | email | secList | presDir | presDlv | prof | image
deriving DecidableEq, Repr

/-- common.go 58-95 `messageType`. -/
inductive MsgType where
  | rq (s : MsgSet)
  | rs (s : MsgSet)
deriving DecidableEq, Repr

/-- common.go 98-162 `messageType.String`.  (The panic for other numbers is unreachable:
the type is not exported and the library has only these constants.) -/
def MsgType.string : MsgType → Str
  | .rq .signon => "SIGNONMSGSRQV1".toList
  | .rq .signup => "SIGNUPMSGSRQV1".toList
  | .rq .bank => "BANKMSGSRQV1".toList
  | .rq .creditCard => "CREDITCARDMSGSRQV1".toList
  | .rq .loan => "LOANMSGSRQV1".toList
  | .rq .invStmt => "INVSTMTMSGSRQV1".toList
  | .rq .interXfer => "INTERXFERMSGSRQV1".toList
  | .rq .wireXfer => "WIREXFERMSGSRQV1".toList
  | .rq .billpay => "BILLPAYMSGSRQV1".toList
  | .rq .email => "EMAILMSGSRQV1".toList
  | .rq .secList => "SECLISTMSGSRQV1".toList
  | .rq .presDir => "PRESDIRMSGSRQV1".toList
  | .rq .presDlv => "PRESDLVMSGSRQV1".toList
  | .rq .prof => "PROFMSGSRQV1".toList
  | .rq .image => "IMAGEMSGSRQV1".toList
  | .rs .signon => "SIGNONMSGSRSV1".toList
  | .rs .signup => "SIGNUPMSGSRSV1".toList
  | .rs .bank => "BANKMSGSRSV1".toList
  | .rs .creditCard => "CREDITCARDMSGSRSV1".toList
  | .rs .loan => "LOANMSGSRSV1".toList
  | .rs .invStmt => "INVSTMTMSGSRSV1".toList
  | .rs .interXfer => "INTERXFERMSGSRSV1".toList
  | .rs .wireXfer => "WIREXFERMSGSRSV1".toList
  | .rs .billpay => "BILLPAYMSGSRSV1".toList
  | .rs .email => "EMAILMSGSRSV1".toList
  | .rs .secList => "SECLISTMSGSRSV1".toList
  | .rs .presDir => "PRESDIRMSGSRSV1".toList
  | .rs .presDlv => "PRESDLVMSGSRSV1".toList
  | .rs .prof => "PROFMSGSRSV1".toList
  | .rs .image => "IMAGEMSGSRSV1".toList

/-- The message-set lists of Request and Response in the order in which Marshal, Valid and
the struct declarations list them (request.go 117-136, response.go 420-442). -/
def MsgSet.lists : List MsgSet :=
  [.signup, .bank, .creditCard, .loan, .invStmt, .interXfer, .wireXfer, .billpay, .email, .secList, .presDir, .presDlv, .prof, .image]

/-- Errors: a plain error, or the library's list of validation errors (response.go 480
`errInvalid`). -/
inductive Err where
  | plain (msg : String)
  | invalid (errs : List Err)

/-- What encodeMessageSet and Response.Valid use of a message (common.go 50-56 `Message`, and
its encoding by reflection).  `valid` returns the verdict (`none` is (true, nil)) and the
message afterwards, since Valid may modify its receiver. -/
class MessageImpl (M : Type) where
  type : M → MsgType
  valid : Nat → M → Option Err × M
  encode : M → Except String (List Node)

/-- The message types of the library.
The implementations of interface Message, common.go 50-56. -/
inductive Message where
  | statementRequest (m : StatementRequest)
  | statementResponse (m : StatementResponse)
  | ccStatementRequest (m : CCStatementRequest)
  | ccStatementResponse (m : CCStatementResponse)
  | invStatementRequest (m : InvStatementRequest)
  | invStatementResponse (m : InvStatementResponse)
  | profileRequest (m : ProfileRequest)
  | profileResponse (m : ProfileResponse)
  | secListRequest (m : SecListRequest)
  | secListResponse (m : SecListResponse)
  | securityList (m : SecurityList)
  | acctInfoRequest (m : AcctInfoRequest)
  | acctInfoResponse (m : AcctInfoResponse)

/-- The `Type` methods: bank.go 48-50, 364-366; creditcard.go 41-43, 89-91; invstmt.go
47-49, 1519-1521; profile.go 40-42, 204-206; seclist.go 55-57, 89-91, 267-269; signup.go
36-38, 164-166. -/
def Message.type : Message → MsgType
  | .statementRequest _ => .rq .bank
  | .statementResponse _ => .rs .bank
  | .ccStatementRequest _ => .rq .creditCard
  | .ccStatementResponse _ => .rs .creditCard
  | .invStatementRequest _ => .rq .invStmt
  | .invStatementResponse _ => .rs .invStmt
  | .profileRequest _ => .rq .prof
  | .profileResponse _ => .rs .prof
  | .secListRequest _ => .rq .secList
  | .secListResponse _ => .rs .secList
  | .securityList _ => .rs .secList
  | .acctInfoRequest _ => .rq .signup
  | .acctInfoResponse _ => .rs .signup

/-- The `Name` methods: bank.go 27-29, 321-323; creditcard.go 25-27, 74-76; invstmt.go
31-33, 1504-1506; profile.go 23-25, 189-191; seclist.go 39-41, 74-76, 255-257; signup.go
20-22, 149-151; signon.go 27-29, 78-80. -/
def Message.name : Message → Str
  | .statementRequest _ => "STMTTRNRQ".toList
  | .statementResponse _ => "STMTTRNRS".toList
  | .ccStatementRequest _ => "CCSTMTTRNRQ".toList
  | .ccStatementResponse _ => "CCSTMTTRNRS".toList
  | .invStatementRequest _ => "INVSTMTTRNRQ".toList
  | .invStatementResponse _ => "INVSTMTTRNRS".toList
  | .profileRequest _ => "PROFTRNRQ".toList
  | .profileResponse _ => "PROFTRNRS".toList
  | .secListRequest _ => "SECLISTTRNRQ".toList
  | .secListResponse _ => "SECLISTTRNRS".toList
  | .securityList _ => "SECLIST".toList
  | .acctInfoRequest _ => "ACCTINFOTRNRQ".toList
  | .acctInfoResponse _ => "ACCTINFOTRNRS".toList

/-- The `Valid` methods.  Only ProfileRequest modifies its receiver. -/
def Message.valid (version : Nat) : Message → Option String × Message
  | .statementRequest m => (m.valid version, .statementRequest m)
  | .statementResponse m => (m.valid version, .statementResponse m)
  | .ccStatementRequest m => (m.valid version, .ccStatementRequest m)
  | .ccStatementResponse m => (m.valid version, .ccStatementResponse m)
  | .invStatementRequest m => (m.valid version, .invStatementRequest m)
  | .invStatementResponse m => (m.valid version, .invStatementResponse m)
  | .profileRequest m => ((m.valid version).1, .profileRequest (m.valid version).2)
  | .profileResponse m => (m.valid version, .profileResponse m)
  | .secListRequest m => (m.valid version, .secListRequest m)
  | .secListResponse m => (m.valid version, .secListResponse m)
  | .securityList m => (m.valid version, .securityList m)
  | .acctInfoRequest m => (m.valid version, .acctInfoRequest m)
  | .acctInfoResponse m => (m.valid version, .acctInfoResponse m)

/-- `encoder.Encode(message)`: the element is named by the tag of XMLName, or by MarshalXML
for SecurityList. -/
def Message.encode : Message → Except String (List Node)
  | .statementRequest m => encodeAs "STMTTRNRQ".toList m
  | .statementResponse m => encodeAs "STMTTRNRS".toList m
  | .ccStatementRequest m => encodeAs "CCSTMTTRNRQ".toList m
  | .ccStatementResponse m => encodeAs "CCSTMTTRNRS".toList m
  | .invStatementRequest m => encodeAs "INVSTMTTRNRQ".toList m
  | .invStatementResponse m => encodeAs "INVSTMTTRNRS".toList m
  | .profileRequest m => encodeAs "PROFTRNRQ".toList m
  | .profileResponse m => encodeAs "PROFTRNRS".toList m
  | .secListRequest m => encodeAs "SECLISTTRNRQ".toList m
  | .secListResponse m => encodeAs "SECLISTTRNRS".toList m
  | .securityList m => encodeAs "SECLIST".toList m
  | .acctInfoRequest m => encodeAs "ACCTINFOTRNRQ".toList m
  | .acctInfoResponse m => encodeAs "ACCTINFOTRNRS".toList m

instance : MessageImpl Message where
  type := Message.type
  valid := fun v m => ((m.valid v).1.map Err.plain, (m.valid v).2)
  encode := Message.encode

/-- response.go 209-231 `responseTypes` with response.go 246-258: decode an element of a
message set. -/
def decodeMessage (env : Env) (set : MsgSet) (name : Str) (children : List Node) : Except String Message :=
  match set with
  | .signup =>
    if name = "ACCTINFOTRNRS".toList then (decodeNew env name children).map .acctInfoResponse
    else .error "Unsupported response transaction"
  | .bank =>
    if name = "STMTTRNRS".toList then (decodeNew env name children).map .statementResponse
    else .error "Unsupported response transaction"
  | .creditCard =>
    if name = "CCSTMTTRNRS".toList then (decodeNew env name children).map .ccStatementResponse
    else .error "Unsupported response transaction"
  | .invStmt =>
    if name = "INVSTMTTRNRS".toList then (decodeNew env name children).map .invStatementResponse
    else .error "Unsupported response transaction"
  | .secList =>
    if name = "SECLISTTRNRS".toList then (decodeNew env name children).map .secListResponse
    else if name = "SECLIST".toList then (decodeNew env name children).map .securityList
    else .error "Unsupported response transaction"
  | .prof =>
    if name = "PROFTRNRS".toList then (decodeNew env name children).map .profileResponse
    else .error "Unsupported response transaction"
  | _ => .error "Unsupported response transaction"

end Ofx
