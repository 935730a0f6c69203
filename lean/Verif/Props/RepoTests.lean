import Verif.Model.Client
import Verif.Model.NewDate
import Verif.Gen.Types
/-
The project's own tests of the leaf types, of Valid and of the signon request (types_test.go,
common_test.go, bank_test.go, signon_test.go, response_test.go), carried over to the model.
These are tests, not proofs of properties: they are evidence that the model is the program.
(The document tests and the sample files are run against the model by tools/conform.py.)
-/
namespace Ofx.RepoTests

/-- The tests' time zones. -/
def est : Location := fixedZone "EST".toList (-5 * 60 * 60)
def npt : Location := fixedZone "NPT".toList ((5 * 60 + 45) * 60)
def ist : Location := fixedZone "IST".toList ((5 * 60 + 30) * 60)
def nst : Location := fixedZone "NST".toList (-(3 * 60 + 30) * 60)
def nstNodesc : Location := fixedZone [] (-(3 * 60 + 30) * 60)
def utc : Location := fixedZone "UTC".toList 0
def gmtNodesc : Location := fixedZone [] 0

/-- types_test.go 58-65 `TestMarshalInt`. -/
example : Int.marshal 927 = "927".toList ∧ Int.marshal 0 = "0".toList ∧
    Int.marshal (-768276587425) = "-768276587425".toList := by decide +kernel

/-- An unmarshal test: the text is read as the value. -/
def reads {α : Type} (eq : α → α → Bool) (r : Except String α) (want : α) : Bool :=
  match r with
  | .ok v => eq want v
  | .error _ => false

/-- types_test.go 67-77 `TestUnmarshalInt`. -/
example : reads (· == ·) (Int.unmarshal "-48394".toList) (-48394) ∧ reads (· == ·) (Int.unmarshal "0".toList) 0 ∧
    reads (· == ·) (Int.unmarshal "198237198".toList) 198237198 ∧
    reads (· == ·) (Int.unmarshal "198237198\n".toList) 198237198 ∧
    reads (· == ·) (Int.unmarshal "198237198\n\t".toList) 198237198 := by decide +kernel

/-- types_test.go 79-101 `TestMarshalAmount`. -/
example : Amount.marshal 8 = "8".toList ∧ Amount.marshal (1 / 8) = "0.125".toList ∧
    Amount.marshal (-1 / 200) = "-0.005".toList ∧ Amount.marshal 0 = "0".toList ∧
    Amount.marshal (-768276587425) = "-768276587425".toList ∧
    Amount.marshal (1 / 12) = ("0.08".toList ++ List.replicate 98 '3') := by decide +kernel

/-- types_test.go 103-133 `TestUnmarshalAmount`. -/
example : [("12", (12 : Rat)), ("-213.09", -21309 / 100), ("8.192", 8192 / 1000), ("+8.192", 8192 / 1000), ("0", 0), ("+0", 0),
    ("-0", 0), ("-19487135", -19487135), ("-19487135\n", -19487135), ("-19487135\n \t ", -19487135)].all
      (fun p => reads Amount.equal (Amount.unmarshal p.1.toList) p.2) := by decide +kernel

/-- types_test.go 135-160 `TestAmountEqual`. -/
example : Amount.equal (-19487135) (-19487135) ∧ ¬ Amount.equal (-19487135) 19487135 ∧ ¬ Amount.equal (-19487135) 0 ∧
    Amount.equal (-0) 0 ∧ ¬ Amount.equal (1 / 1000000000000000000) (1 / 1000000000000000001) := by decide +kernel

/-- types_test.go 162-202 `TestMarshalDate`. -/
example : [(newDateGMT 2017 3 14 15 9 26 53000000, "20170314150926.053[0:GMT]"),
    (newDate 2017 3 14 15 9 26 53000000 npt, "20170314150926.053[5.75:NPT]"),
    (newDate 2017 3 14 15 9 26 53000000 est, "20170314150926.053[-5:EST]"),
    (newDate 2017 3 14 15 9 26 53000000 utc, "20170314150926.053[0:UTC]"),
    (newDate 2017 3 14 15 9 26 53000000 ist, "20170314150926.053[5.50:IST]"),
    (newDate 9999 11 1 23 59 59 1000 est, "99991101235959.000[-5:EST]"),
    (newDate 0 1 1 0 0 0 0 ist, "00000101000000.000[5.50:IST]"),
    (newDate 1970 1 1 0 0 0 0 utc, "19700101000000.000[0:UTC]"),
    (newDate 2017 3 14 0 0 26 53000000 est, "20170314000026.053[-5:EST]"),
    (newDate 2017 3 14 0 0 26 53000000 nst, "20170314000026.053[-3.50:NST]"),
    (newDate 2017 3 14 15 9 26 53000000 gmtNodesc, "20170314150926.053[0]")].all
      (fun p => Date.marshal p.1 == p.2.toList) := by decide +kernel

/-- The local time zone of the machine that runs the tests. -/
def here : LocalZone := fun _ => ("UTC".toList, 0)

/-- types_test.go 204-273 `TestUnmarshalDate`. -/
example : [("20170314150926.053[0]", newDateGMT 2017 3 14 15 9 26 53000000),
    ("20170314150926.053", newDateGMT 2017 3 14 15 9 26 53000000),
    ("20170314", newDate 2017 3 14 0 0 0 0 gmt),
    ("20170314150926.053[0:GMT]", newDateGMT 2017 3 14 15 9 26 53000000),
    ("20170314150926.053[+0:GMT]", newDateGMT 2017 3 14 15 9 26 53000000),
    ("20170314150926.053[-0:GMT]", newDateGMT 2017 3 14 15 9 26 53000000),
    ("20170314150926.053[+0]", newDateGMT 2017 3 14 15 9 26 53000000),
    ("20170314150926.053[-0]", newDateGMT 2017 3 14 15 9 26 53000000),
    ("20170314150926.053[5.75:NPT]", newDate 2017 3 14 15 9 26 53000000 npt),
    ("20170314150926.053[-5:EST]", newDate 2017 3 14 15 9 26 53000000 est),
    ("20170314150926.053[5.50:IST]", newDate 2017 3 14 15 9 26 53000000 ist),
    ("20181101235958.000[-5:EST]", newDate 2018 11 1 23 59 58 0 est),
    ("00000101000000.000[5.50:IST]", newDate 0 1 1 0 0 0 0 ist),
    ("19700101000000.000[0:GMT]", newDate 1970 1 1 0 0 0 0 gmt),
    ("20170314000026.053[-5:EST]", newDate 2017 3 14 0 0 26 53000000 est),
    ("20170314000026.053[-3.50:NST]", newDate 2017 3 14 0 0 26 53000000 nst),
    ("20170314000026.053[-3.50]", newDate 2017 3 14 0 0 26 53000000 nstNodesc),
    ("20161207160000.000[-5:EST]610900.500[-9:BST]", newDate 2016 12 7 16 0 0 0 est),
    ("20181101235958.000[-5:EST]\n", newDate 2018 11 1 23 59 58 0 est),
    ("20181101235958.000[-5:EST]\n\t", newDate 2018 11 1 23 59 58 0 est)].all
      (fun p => reads Date.equal (Date.unmarshal here p.1.toList) p.2) := by decide +kernel

/-- types_test.go 275-304 `TestDateEqual`. -/
example :
    let gmt1 := newDateGMT 2017 3 14 15 9 26 53000000
    let gmt2 := newDate 2017 3 14 15 9 26 53000000 gmt
    let est1 := newDate 2017 3 14 10 9 26 53000000 est
    let est2 := newDate 2017 3 14 10 9 26 53000001 est
    let est3 := newDate 2017 3 14 15 9 26 53000000 est
    Date.equal gmt1 gmt2 ∧ Date.equal gmt2 gmt1 ∧ Date.equal gmt1 est1 ∧ ¬ Date.equal gmt1 est2 ∧
      ¬ Date.equal est1 est2 ∧ ¬ Date.equal gmt1 est3 := by decide +kernel

/-- types_test.go 306-315 `TestMarshalString`, with the escaping encoding/xml adds. -/
example : escapeText (OString.marshal []) = [] ∧ escapeText (OString.marshal "foo&bar".toList) = "foo&amp;bar".toList ∧
    escapeText (OString.marshal "\n".toList) = "&#xA;".toList ∧
    escapeText (OString.marshal "Some Name".toList) = "Some Name".toList := by decide +kernel

/-- What a String reads from an element's raw text. -/
def readString (raw : String) : Option Str := (textToken true raw.toList).bind fun t => (OString.unmarshal t).toOption

/-- types_test.go 317-331 `TestUnmarshalString`. -/
example : readString "" = some [] ∧ readString "foo&amp;bar" = some "foo&bar".toList ∧
    readString " new&#xA;line&#xA;" = some "new\nline".toList ∧ readString "Some Name" = some "Some Name".toList ∧
    readString "Some Name\n" = some "Some Name".toList ∧ readString "Some Name\n  " = some "Some Name".toList := by
  decide +kernel

/-- types_test.go 340-361 `TestMarshalBoolean`, `TestUnmarshalBoolean`. -/
example : Boolean.marshal true = "Y".toList ∧ Boolean.marshal false = "N".toList ∧
    reads (· == ·) (Boolean.unmarshal "Y".toList) true ∧ reads (· == ·) (Boolean.unmarshal "N".toList) false ∧
    reads (· == ·) (Boolean.unmarshal "N\n".toList) false ∧ reads (· == ·) (Boolean.unmarshal "N\n \t".toList) false := by
  decide +kernel

/-- types_test.go 374-386 `TestMarshalUID`, `TestUnmarshalUID`. -/
example : UID.marshal "d1cf3d3d-9ef9-4a97-b180-81706829cb04".toList = "d1cf3d3d-9ef9-4a97-b180-81706829cb04".toList ∧
    reads (· == ·) (UID.unmarshal "0f94ce83-13b7-7568-e4fc-c02c7b47e7ab\n\t".toList)
      "0f94ce83-13b7-7568-e4fc-c02c7b47e7ab".toList := by decide +kernel

/-- The UID is said to have the recommended format. -/
def recommended (s : String) : Bool :=
  match UID.recommendedFormat s.toList with
  | .ret none => true
  | _ => false

/-- types_test.go 388-405 `TestUIDRecommendedFormat`. -/
example : recommended "d1cf3d3d-9ef9-4a97-b180-81706829cb04" ∧ ¬ recommended "d1cf3d3d-9ef9-4a97-b180-81706829cb0" ∧
    ¬ recommended "d1cf3d3d-9ef94a97-b180-81706829cb04" ∧ ¬ recommended "d1cf3d3d-9ef9-4a97-b180981706829cb04" := by
  decide +kernel

/-- types_test.go 407-420 `TestUIDValid`. -/
example : (UID.valid []).isSome ∧ (UID.valid (List.replicate 37 'a')).isSome ∧
    (UID.valid "7be37076-623a-425f-ae6b-a5465b7e93b0".toList).isNone := by decide +kernel

/-- A currency table with the currencies of the tests. -/
@[instance_reducible] def table : CurrencyTable := ⟨fun c => c.length == 3, by decide⟩

/-- types_test.go 432-505 `TestMarshalCurrSymbol`, `TestUnmarshalCurrSymbol`, `TestCurrSymbolEqual`,
`TestCurrSymbolValid`, `TestNewCurrSymbol`. -/
example : CurrSymbol.marshal ⟨"USD".toList⟩ = "USD".toList ∧
    reads CurrSymbol.equal (@CurrSymbol.unmarshal table "EUR\n\t".toList) ⟨"EUR".toList⟩ ∧
    CurrSymbol.equal ⟨"USD".toList⟩ ⟨"USD".toList⟩ ∧ ¬ CurrSymbol.equal ⟨"USD".toList⟩ ⟨"XXX".toList⟩ ∧
    (CurrSymbol.valid CurrSymbol.zero).isSome ∧ (CurrSymbol.valid ⟨"ARS".toList⟩).isNone ∧
    (CurrSymbol.valid ⟨"XXX".toList⟩).isSome ∧
    reads CurrSymbol.equal (@newCurrSymbol table "GBP".toList) ⟨"GBP".toList⟩ ∧
    (@newCurrSymbol table "BLAH".toList).toOption = none := by decide +kernel

/-- common_test.go 7-31 `TestStatusValid`. -/
example :
    let s : Status := ⟨0, "INFO".toList, "Success".toList⟩
    s.valid.isNone ∧ ({ s with Severity := "INVALID".toList } : Status).valid.isSome ∧
      ({ s with Severity := "WARN".toList } : Status).valid.isSome ∧
      ({ s with Severity := "WARN".toList, Code := 9 } : Status).valid.isSome := by decide +kernel

/-- common_test.go 33-66 `TestStatusCodeMeaning`, `TestStatusCodeConditions`. -/
example :
    (Status.codeMeaning ⟨15500, "ERROR".toList, []⟩).toOption = some "Signon invalid" ∧
    (Status.codeMeaning ⟨999, "ERROR".toList, []⟩).toOption = none ∧
    ((Status.codeConditions ⟨2006, "ERROR".toList, []⟩).toOption.any fun c => c.length != 0) ∧
    (Status.codeConditions ⟨999, "ERROR".toList, []⟩).toOption = none := by decide +kernel

/-- bank_test.go 289-296. -/
def payee : Payee :=
  { Name := "Jane".toList, Addr1 := "Sesame Street".toList, Addr2 := [], Addr3 := [], City := "Mytown".toList,
    State := "AA".toList, PostalCode := "12345".toList, Country := [], Phone := "12345678901".toList }

/-- bank_test.go 288-344 `TestPayeeValid`. -/
example : payee.valid.isNone ∧ ({ payee with Name := [] } : Payee).valid.isSome ∧
    ({ payee with Addr1 := [] } : Payee).valid.isSome ∧ ({ payee with City := [] } : Payee).valid.isSome ∧
    ({ payee with State := [] } : Payee).valid.isSome ∧ ({ payee with PostalCode := [] } : Payee).valid.isSome ∧
    ({ payee with Phone := [] } : Payee).valid.isSome := by decide +kernel

/-- bank_test.go 349-354. -/
def balance : Balance :=
  { (OfxType.ofDen (OfxType.ty Balance).zero : Balance) with
    Name := "Checking".toList, Desc := "Jane's Personal Checking".toList, BalType := 1, Value := 8 }

/-- bank_test.go 346-382 `TestBalanceValid`. -/
example : balance.valid.isNone ∧ ({ balance with Name := [] } : Balance).valid.isSome ∧
    ({ balance with Desc := [] } : Balance).valid.isSome ∧ ({ balance with BalType := 0 } : Balance).valid.isSome := by
  decide +kernel

/-- signon_test.go 8-12. -/
def client : BasicClient :=
  { AppID := "OFXGO".toList, AppVer := "0001".toList, SpecVersion := 8, NoIndent := false, CarriageReturn := false,
    UserAgent := [], HTTPClient := none }

/-- signon_test.go 14-20. -/
def request : Request Message :=
  Request.setClientFields (newDateGMT 2026 1 1 0 0 0 0) client
    { url := [], version := 0, indent := false, carriageReturn := false, sets := fun _ => [],
      signon := { (OfxType.ofDen (OfxType.ty SignonRequest).zero : SignonRequest) with
        UserID := "myusername".toList, UserPass := "Pa$$word".toList, Org := "BNK".toList, Fid := "1987".toList } }

/-- Marshal of the request with the signon altered succeeds. -/
def marshals (f : SignonRequest → SignonRequest) : Bool :=
  match ({ request with signon := f request.signon } : Request Message).marshal.1 with
  | .ok _ => true
  | .error _ => false

/-- The same after SetClientFields with the client altered. -/
def marshalsSet (g : BasicClient → BasicClient) (f : SignonRequest → SignonRequest) : Bool :=
  match (Request.setClientFields (newDateGMT 2026 1 1 0 0 0 0) (g client)
      ({ request with signon := f request.signon } : Request Message)).marshal.1 with
  | .ok _ => true
  | .error _ => false

/-- signon_test.go 7-120 `TestMarshalInvalidSignons`. -/
example : marshals id ∧ ¬ marshals (fun s => { s with UserKey := "mykey".toList }) ∧
    marshals (fun s => { s with UserKey := "mykey".toList, UserPass := [] }) ∧
    ¬ marshals (fun s => { s with UserKey := "mykey".toList, UserPass := [], UserID := [] }) ∧
    ¬ marshals (fun s => { s with UserPass := [], UserKey :=
      "adlfahdslkgahdweoihadf98agrha87rghasdf9hawhra2hrkwahhaguhwaoefajkei23hff".toList }) ∧
    ¬ marshals (fun s => { s with UserPass :=
      "adlfahdslkgahdweoihadf98agrha87rghasdf9hawhra2hrkwahhaguhwaoefajkei23hff".toList }) ∧
    ¬ marshals (fun s => { s with Language := "English".toList }) ∧ ¬ marshals (fun s => { s with Language := "EN".toList }) ∧
    marshals (fun s => { s with Language := [] }) ∧
    ({ request with signon := { request.signon with Language := [] } } : Request Message).marshal.2.signon.Language = "ENG".toList ∧
    ¬ marshals (fun s => { s with AppID := [] }) ∧ marshalsSet id (fun s => { s with AppID := [] }) ∧
    ¬ marshalsSet (fun c => { c with AppID := "ALKHGDH".toList }) id ∧
    ¬ marshals (fun s => { s with AppVer := [] }) ∧ marshalsSet id (fun s => { s with AppVer := [] }) ∧
    ¬ marshalsSet (fun c => { c with AppVer := "00002".toList }) id ∧ marshalsSet id id := by decide +kernel

/-- response_test.go 263-273 `TestErrInvalidError`. -/
example : (Err.invalid [.plain "A", .plain "B", .plain "C"]).error = "Validation failed: A; B; C" := by decide +kernel

/-- response_test.go 275-303 `TestErrInvalidAddErr`. -/
example : (addErr [] none).length = 0 ∧ (addErr [] (some (.plain "some error"))).length = 1 ∧
    (addErr (addErr [] (some (.invalid [.plain "A", .plain "B"]))) (some (.invalid [.plain "C"]))).length = 3 := by
  decide +kernel

/-- response_test.go 305-325 `TestErrInvalidErrOrNil`. -/
example : errOrNil [] = none ∧ errOrNil (addErr [] (some (.plain "some error"))) = some (.invalid [.plain "some error"]) :=
  ⟨rfl, rfl⟩

end Ofx.RepoTests
