import Verif.Model.Checked
import Verif.Props.Document
import Verif.Lemmas.Header
/-
Property C92 (reading does not panic).
-/
namespace Ofx.Props
open Ofx Ofx.Spec

theorem matchAll_length : ∀ (ps : List Piece) (s : Str) (caps : List Str), Matches ps s caps →
    caps.length = (ps.filter (fun p => match p with | .cap _ => true | _ => false)).length
  | [], s, caps, h => by
    obtain ⟨-, rfl⟩ := h
    rfl
  | .lit l :: ps, s, caps, h => by
    obtain ⟨t, -, h⟩ := h
    exact matchAll_length ps t caps h
  | .spaces :: ps, s, caps, h => by
    obtain ⟨w, t, -, -, h⟩ := h
    exact matchAll_length ps t caps h
  | .cap p :: ps, s, caps, h => by
    obtain ⟨v, t, caps', -, -, -, rfl, h⟩ := h
    have := matchAll_length ps t caps' h
    simp only [List.length_cons, List.filter_cons, if_true]
    omega

theorem header_groups {s : Str} {caps : List Str} (h : matchAll headerExp s = some caps) : caps.length = 9 := by
  rw [matchAll_length _ _ _ (matchAll_sound _ _ _ h)]
  rfl

section
variable {found : List Str} {rest : List (String × Nat)} {v i : Nat} {a : Str}

theorem loop_ofxheader (h : sliceAt found (i + 1) = .ret a) : sgmlHeaderLoopC found (("OFXHEADER", i + 1) :: rest) v =
    if a ≠ "100".toList then .ret (.error "OFXHEADER is not 100") else sgmlHeaderLoopC found rest v := by
  rw [sgmlHeaderLoopC, if_neg (by omega), h]
  simp only [Outcome.bind]
  rw [if_pos trivial]

theorem loop_data (h : sliceAt found (i + 1) = .ret a) : sgmlHeaderLoopC found (("DATA", i + 1) :: rest) v =
    if a ≠ "OFXSGML".toList then .ret (.error "OFX DATA header does not contain OFXSGML") else sgmlHeaderLoopC found rest v := by
  rw [sgmlHeaderLoopC, if_neg (by omega), h]
  simp only [Outcome.bind]
  rw [if_neg (by decide), if_pos trivial]

theorem loop_version (h : sliceAt found (i + 1) = .ret a) : sgmlHeaderLoopC found (("VERSION", i + 1) :: rest) v =
    match enumOfxVersion.fromString a with
    | (_, some e) => .ret (.error e)
    | (v, none) => if v > 4 then .ret (.error "OFX VERSION > 160 in SGML header") else sgmlHeaderLoopC found rest v := by
  rw [sgmlHeaderLoopC, if_neg (by omega), h]
  simp only [Outcome.bind]
  rw [if_neg (by decide), if_neg (by decide), if_pos trivial]
  rfl

theorem loop_security (h : sliceAt found (i + 1) = .ret a) : sgmlHeaderLoopC found (("SECURITY", i + 1) :: rest) v =
    if ¬ (a = "NONE".toList ∨ a = "TYPE1".toList) then .ret (.error "OFX SECURITY header must be NONE or TYPE1")
    else sgmlHeaderLoopC found rest v := by
  rw [sgmlHeaderLoopC, if_neg (by omega), h]
  simp only [Outcome.bind]
  rw [if_neg (by decide), if_neg (by decide), if_neg (by decide), if_pos trivial]

theorem loop_compression (h : sliceAt found (i + 1) = .ret a) : sgmlHeaderLoopC found (("COMPRESSION", i + 1) :: rest) v =
    if a ≠ "NONE".toList then .ret (.error "OFX COMPRESSION header not NONE") else sgmlHeaderLoopC found rest v := by
  rw [sgmlHeaderLoopC, if_neg (by omega), h]
  simp only [Outcome.bind]
  rw [if_neg (by decide), if_neg (by decide), if_neg (by decide), if_neg (by decide), if_pos trivial]

theorem loop_other {name : String} (hn : name ∈ ["ENCODING", "CHARSET", "OLDFILEUID", "NEWFILEUID"])
    (h : sliceAt found (i + 1) = .ret a) : sgmlHeaderLoopC found ((name, i + 1) :: rest) v = sgmlHeaderLoopC found rest v := by
  have key : ∀ n ∈ ["ENCODING", "CHARSET", "OLDFILEUID", "NEWFILEUID"],
      n ≠ "OFXHEADER" ∧ n ≠ "DATA" ∧ n ≠ "VERSION" ∧ n ≠ "SECURITY" ∧ n ≠ "COMPRESSION" := by decide
  obtain ⟨h1, h2, h3, h4, h5⟩ := key _ hn
  rw [sgmlHeaderLoopC, if_neg (by omega), h]
  simp only [Outcome.bind]
  rw [if_neg h1, if_neg h2, if_neg h3, if_neg h4, if_neg h5]

end

theorem ret_ite {α : Type} {p : Prop} [Decidable p] (x y : α) : (Outcome.ret (if p then x else y)) = if p then .ret x else .ret y := by
  split_ifs <;> rfl

theorem checkSGMLHeaderC_eq (s : Str) : checkSGMLHeaderC s = .ret (checkSGMLHeader s) := by
  unfold checkSGMLHeaderC checkSGMLHeader headerMatches
  cases h : matchAll headerExp s with
  | none => rfl
  | some caps =>
    have hl := header_groups h
    match caps, hl with
    | [a1, a2, a3, a4, a5, a6, a7, a8, a9], _ =>
      simp only [List.length_cons]
      rw [if_neg (by omega)]
      have e : headerNames.zipIdx = [("", 0), ("OFXHEADER", 1), ("DATA", 2), ("VERSION", 3), ("SECURITY", 4), ("ENCODING", 5),
        ("CHARSET", 6), ("COMPRESSION", 7), ("OLDFILEUID", 8), ("NEWFILEUID", 9)] := rfl
      rw [e, sgmlHeaderLoopC, if_pos rfl, loop_ofxheader (i := 0) (a := a1) rfl, loop_data (i := 1) (a := a2) rfl,
        loop_version (i := 2) (a := a3) rfl, ret_ite, ret_ite]
      congr 1
      congr 1
      cases enumOfxVersion.fromString a3 with
      | mk v err =>
        cases err with
        | some x => rfl
        | none =>
          simp only
          rw [loop_security (i := 3) (a := a4) rfl, loop_other (i := 4) (a := a5) (by decide) rfl,
            loop_other (i := 5) (a := a6) (by decide) rfl, loop_compression (i := 6) (a := a7) rfl,
            loop_other (i := 7) (a := a8) (by decide) rfl, loop_other (i := 8) (a := a9) (by decide) rfl,
            ret_ite, ret_ite, ret_ite]
          rfl

theorem splitN2_none {sep s : Str} (h : cut sep s = none) : splitN2 sep s = [s] := by unfold splitN2; rw [h]
theorem splitN2_some {sep s a b : Str} (h : cut sep s = some (a, b)) : splitN2 sep s = [a, b] := by unfold splitN2; rw [h]

theorem xmlHeaderLoopC_eq : ∀ (fuel : Nat) (seen : Bool) (version : Option Nat) (headers : Str), headers.length < fuel →
    xmlHeaderLoopC fuel seen version headers = .ret (xmlHeaderLoop seen version headers)
  | 0, _, _, _, h => absurd h (Nat.not_lt_zero _)
  | fuel + 1, seen, version, [], _ => by
    unfold xmlHeaderLoopC xmlHeaderLoop
    simp
  | fuel + 1, seen, version, c :: cs, h => by
    rw [xmlHeaderLoop]
    unfold xmlHeaderLoopC
    rw [if_neg (by simp)]
    simp only
    cases h1 : cut "=\"".toList (c :: cs) with
    | none =>
      rw [splitN2_none h1]
      rfl
    | some p =>
      obtain ⟨header, rest⟩ := p
      rw [splitN2_some h1]
      simp only [List.length_cons, List.length_nil, ne_eq, not_true_eq_false, if_false, sliceAt, Outcome.bind,
        List.getElem?_cons_zero, List.getElem?_cons_succ]
      cases h2 : cut "\"".toList rest with
      | none =>
        rw [splitN2_none h2]
        rfl
      | some p =>
        obtain ⟨value, rest'⟩ := p
        rw [splitN2_some h2]
        simp only [List.length_cons, List.length_nil, not_true_eq_false, if_false,
          List.getElem?_cons_zero, List.getElem?_cons_succ]
        have hl : (trimSpace rest').length < fuel := by
          have e1 := congrArg List.length (cut_eq h1)
          have e2 := congrArg List.length (cut_eq h2)
          have e3 := trimSpace_length rest'
          simp at e1 e2 h ⊢
          omega
        have ih := fun seen version => xmlHeaderLoopC_eq fuel seen version (trimSpace rest') hl
        simp only [ih]
        split_ifs <;> first | rfl | (cases enumOfxVersion.fromString value with
          | mk v err => cases err with
            | some x => rfl
            | none => simp only; split_ifs <;> rfl)

theorem checkXMLHeaderC_eq (inst : Str) : checkXMLHeaderC inst = .ret (checkXMLHeader inst) := by
  unfold checkXMLHeaderC checkXMLHeader
  rw [xmlHeaderLoopC_eq _ _ _ _ (Nat.lt_succ_of_le (trimSpace_length inst))]
  simp only [Outcome.bind]
  cases xmlHeaderLoop false none (trimSpace inst) with
  | error e => rfl
  | ok p =>
    obtain ⟨seen, version⟩ := p
    cases seen
    · rfl
    · cases version <;> rfl

theorem readXMLHeadersC_eq (toks : List Tok) : readXMLHeadersC toks = .ret (readXMLHeaders toks) := by
  unfold readXMLHeadersC readXMLHeaders
  cases skipBlank toks with
  | nil => rfl
  | cons t rest =>
    cases t with
    | proc target i =>
      simp only
      rw [ret_ite]
      congr 1
      cases skipBlank rest with
      | nil => rfl
      | cons t rest' =>
        cases t with
        | proc target' inst =>
          simp only
          rw [ret_ite, checkXMLHeaderC_eq]
          congr 1
          simp only [Outcome.bind]
          cases checkXMLHeader inst <;> rfl
        | _ => rfl
    | _ => rfl

theorem splitC_cut (c : Char) (s : Str) : cut [c] s = (match splitC c s with | (a, some b) => some (a, b) | (_, none) => none) ∧
    ((splitC c s).2 = none → (splitC c s).1 = s) := by
  induction s with
  | nil => exact ⟨rfl, fun _ => rfl⟩
  | cons x s ih =>
    unfold cut splitC
    by_cases h : x = c
    · subst h
      simp [List.isPrefixOf]
    · have hp : [c].isPrefixOf (x :: s) = false := by
        simp [List.isPrefixOf]
        exact fun h' => h h'.symm
      rw [if_neg (by rw [hp]; decide), if_neg h]
      cases hs : splitC c s with
      | mk a b =>
        rw [hs] at ih
        cases b with
        | none =>
          refine ⟨by rw [ih.1], fun _ => ?_⟩
          exact congrArg (x :: ·) (ih.2 rfl)
        | some b =>
          refine ⟨by rw [ih.1], fun hn => by cases hn⟩

theorem dateC_eq (loc : LocalZone) (text : Str) : Date.unmarshalC loc text = .ret (Date.unmarshal loc text) := by
  unfold Date.unmarshalC Date.unmarshal
  have h0 : sliceAt (splitN2 [']'] text) 0 = .ret (splitC ']' text).1 := by
    unfold splitN2
    rw [(splitC_cut ']' text).1]
    have := (splitC_cut ']' text).2
    cases hs : splitC ']' text with
    | mk a b =>
      rw [hs] at this
      cases b with
      | none =>
        have e : a = text := this rfl
        simp [sliceAt, e]
      | some b => rfl
  rw [h0]
  simp only [Outcome.bind]
  generalize trimSpace (splitC ']' text).1 = value
  have h1 := (splitC_cut '[' value).1
  cases hs : splitC '[' value with
  | mk v b =>
    rw [hs] at h1
    cases b with
    | none =>
      rw [splitN2_none h1]
      rfl
    | some z =>
      rw [splitN2_some h1]
      simp only [List.length_cons, List.length_nil, if_true, sliceAt, List.getElem?_cons_zero, List.getElem?_cons_succ]
      unfold zoneMatches zoneOf
      cases zoneRegex (trimRightC ']' z) with
      | none => rfl
      | some m =>
        obtain ⟨m1, m3, m5⟩ := m
        simp only [Option.map_some, List.getElem?_cons_zero, List.getElem?_cons_succ]
        cases parseInt64 m1 with
        | none => rfl
        | some zonehours =>
          simp only
          split_ifs <;> rfl

theorem validIfSet_eq {α : Type} (p : Option α) (f : α → Outcome (Option String)) (g : α → Option String)
    (h : ∀ x, f x = .ret (g x)) : validIfSet p f = .ret (p.bind g) := by
  cases p with
  | none => rfl
  | some x => exact h x

theorem transactionC_eq (version : Nat) (t : Transaction) : t.validC version = .ret (t.valid version) := by
  unfold Transaction.validC Transaction.valid
  rw [validIfSet_eq t.Payee _ Payee.valid (fun _ => rfl)]
  have h1 : t.validToC = .ret t.validTo := by
    unfold Transaction.validToC Transaction.validTo
    cases t.BankAcctTo <;> cases t.CCAcctTo <;> rfl
  have h2 : ∀ c, okCurrencyC c = .ret (okCurrency c) := by intro c; cases c <;> rfl
  rw [h1, h2, h2]
  simp only [Outcome.bind]
  cases t.Payee.bind Payee.valid with
  | some e => split_ifs <;> rfl
  | none =>
    cases t.validTo with
    | some e => split_ifs <;> rfl
    | none => split_ifs <;> rfl

theorem firstErrorC_eq {α : Type} (f : α → Outcome (Option String)) (g : α → Option String) (h : ∀ x, f x = .ret (g x)) (l : List α) :
    firstErrorC f l = .ret (firstError g l) := by
  induction l with
  | nil => rfl
  | cons x xs ih =>
    unfold firstErrorC firstError
    rw [h x]
    simp only [Outcome.bind]
    cases g x with
    | none => exact ih
    | some e => rfl

theorem listC_eq (version : Nat) (l : TransactionList) : l.validC version = .ret (l.valid version) := by
  unfold TransactionList.validC TransactionList.valid
  rw [firstErrorC_eq _ _ (transactionC_eq version)]
  split_ifs <;> rfl

theorem statementC_eq (version : Nat) (sr : StatementResponse) : sr.validC version = .ret (sr.valid version) := by
  unfold StatementResponse.validC StatementResponse.valid
  rw [validIfSet_eq sr.BankTranList _ _ (listC_eq version),
    validIfSet_eq sr.BankTranListP _ (fun l => if version < ofxVersion220 then some "StatementResponse.BankTranListP invalid for OFX < 2.2" else l.valid)
      (fun l => by split_ifs <;> rfl)]
  have e : (sr.BankTranListP.bind fun l => if version < ofxVersion220 then some "StatementResponse.BankTranListP invalid for OFX < 2.2" else l.valid) =
      StatementResponse.validPending version sr.BankTranListP := by
    cases sr.BankTranListP <;> rfl
  rw [e]
  simp only [Outcome.bind]
  cases UID.valid sr.TrnUID with
  | some e => rfl
  | none =>
  cases sr.Status.valid with
  | some e => rfl
  | none =>
  cases sr.CurDef.valid with
  | some e => rfl
  | none =>
  cases sr.BankAcctFrom.valid with
  | some e => rfl
  | none =>
    simp only
    split_ifs <;> first | rfl | skip
    cases sr.BankTranList.bind (TransactionList.valid version) with
    | some e => rfl
    | none =>
      simp only
      cases StatementResponse.validPending version sr.BankTranListP <;> rfl

theorem messageC_eq (version : Nat) (m : Message) : m.validC version = .ret (m.valid version).1 := by
  cases m with
  | statementResponse sr => exact statementC_eq version sr
  | _ => rfl

theorem responseC_eq (r : Response Message) : r.validC = .ret r.valid := by
  have h1 : ∀ (ms : List Message) errs, addMessageErrsC r.version errs ms = .ret (addMessageErrs r.version errs ms) := by
    intro ms
    induction ms with
    | nil => intro errs; rfl
    | cons m ms ih =>
      intro errs
      unfold addMessageErrsC addMessageErrs
      rw [messageC_eq]
      exact ih _
  have h2 : ∀ (ss : List MsgSet) errs, addSetErrsC r.version r.sets errs ss = .ret (addSetErrs r.version r.sets errs ss) := by
    intro ss
    induction ss with
    | nil => intro errs; rfl
    | cons s ss ih =>
      intro errs
      unfold addSetErrsC addSetErrs
      rw [h1]
      exact ih _
  unfold Response.validC Response.valid
  rw [h2]
  rfl

theorem decodeResponseC_eq (env : Env) (nt : NameTable) (bs : List UInt8) :
    decodeResponseC env nt bs = .ret (decodeResponse env nt bs) := by
  unfold decodeResponseC decodeResponse
  split_ifs
  · rw [readXMLHeadersC_eq]
    simp only [Outcome.bind]
    cases readXMLHeaders (lex true nt (utf8Decode bs)) <;> rfl
  · cases readSlice bs with
    | error e => rfl
    | ok p =>
      obtain ⟨s, rest⟩ := p
      simp only
      rw [checkSGMLHeaderC_eq]
      simp only [Outcome.bind]
      cases checkSGMLHeader s <;> rfl

/-- C92: whatever the bytes, ParseResponse does not panic; it returns what the rest of the model
says. -/
theorem C92_parse (env : Env) (nt : NameTable) (bs : List UInt8) :
    parseResponseC env nt bs ≠ .panic ∧ parseResponseC env nt bs = .ret (parseResponse env nt bs) := by
  have h : parseResponseC env nt bs = .ret (parseResponse env nt bs) := by
    unfold parseResponseC parseResponse
    rw [decodeResponseC_eq]
    simp only [Outcome.bind]
    cases decodeResponse env nt bs with
    | error e => rfl
    | ok r =>
      simp only
      rw [responseC_eq]
  exact ⟨by rw [h]; exact fun h => (by cases h), h⟩

/-- C92: whatever the text of an element, reading it as a date does not panic. -/
theorem C92_date (loc : LocalZone) (text : Str) :
    Date.unmarshalC loc text ≠ .panic ∧ Date.unmarshalC loc text = .ret (Date.unmarshal loc text) :=
  ⟨by rw [dateC_eq]; exact fun h => (by cases h), dateC_eq loc text⟩

/-- C92: whatever a response holds, whichever of its pointers are nil, Valid does not panic. -/
theorem C92_valid (r : Response Message) : r.validC ≠ .panic ∧ r.validC = .ret r.valid :=
  ⟨by rw [responseC_eq]; exact fun h => (by cases h), responseC_eq r⟩

/-! The definitions can panic: an index past the end, a nil pointer. -/
example : sliceAt ["a".toList] 1 = .panic ∧ deref (none : Option Currency) = .panic := ⟨rfl, rfl⟩
example : sgmlHeaderLoopC ["x".toList] [("OFXHEADER", 1)] 0 = .panic := by decide +kernel
example : xmlHeaderLoopC 1 false none "SECURITY=\"NONE\" SECURITY=\"NONE\"".toList = .panic := by decide +kernel

/-! Broken headers and dates are answered with errors. -/
example : checkXMLHeaderC "OFXHEADER=".toList = .ret (.error "Malformed OFX header") := by decide +kernel
example : checkXMLHeaderC "OFXHEADER=\"200\" VERSION=\"".toList = .ret (.error "Malformed OFX header") := by decide +kernel
example : checkSGMLHeaderC "OFXHEADER:100".toList = .ret (.error "OFX headers malformed") := by decide +kernel
example : Date.unmarshalC (fun _ => ([], 0)) "[".toList = .ret (.error "Invalid OFX Date timezone format") := by decide +kernel
example : Date.unmarshalC (fun _ => ([], 0)) "]20170117[-5:EST]".toList = .ret (Date.unmarshal (fun _ => ([], 0)) []) := by decide +kernel

end Ofx.Props
