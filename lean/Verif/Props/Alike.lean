import Verif.Lemmas.Alike
import Verif.Props.Document
/-
Property C41: unknown elements and the order of elements.
-/
namespace Ofx.Props
open Ofx Ofx.Spec

/-- C41, for every structure and list type `α` of the library: if two contents differ only
by unknown elements, text or comments between elements, by the order of neighbouring
elements with different names, or by the way a value is written, at any depth, then they are
read as the same value (or neither is readable).  `Alike` (Spec/Alike.lean) spells out what may differ. -/
theorem C41_alike {α : Type} [OfxType α] (env : Env) (name : Str) (cs cs' : List Node)
    (h : Alike (OfxType.ty α) cs cs') (x : α) :
    decodeNew env name cs = .ok x ↔ decodeNew env name cs' = .ok x := by
  have := alike_dec h env (OfxType.ty α).zero
  unfold decodeNew
  rcases ok_cases (fun w => this w name) with ⟨y, h1, h2⟩ | ⟨a, b, h1, h2⟩
  · rw [h1, h2]
  · rw [h1, h2]; exact ⟨(by intro hx; cases hx), (by intro hx; cases hx)⟩

theorem isBlank_elem (n : Str) (cs : List Node) : isBlank (.elem n cs) = false := rfl

theorem okMap {α β : Type} {e e' : Except String α} (f : α → β) (h : ∀ x, e = .ok x ↔ e' = .ok x) (y : β) :
    e.map f = .ok y ↔ e'.map f = .ok y := by
  rcases ok_cases h with ⟨x, h1, h2⟩ | ⟨a, b, h1, h2⟩
  · rw [h1, h2]
  · rw [h1, h2]; exact ⟨(by intro hx; cases hx), (by intro hx; cases hx)⟩

theorem decodeMessage_alike (env : Env) (set : MsgSet) (n : Str) (t : Ty) (c c' : List Node)
    (ht : responseTy n = some t) (h : Alike t c c') (m : Message) :
    decodeMessage env set n c = .ok m ↔ decodeMessage env set n c' = .ok m := by
  unfold responseTy at ht
  have e1 : n = "ACCTINFOTRNRS".toList → t = OfxType.ty AcctInfoResponse := by
    rintro rfl; rw [if_pos rfl] at ht; exact (Option.some.inj ht).symm
  have e2 : n = "STMTTRNRS".toList → t = OfxType.ty StatementResponse := by
    rintro rfl; rw [if_neg (by decide), if_pos rfl] at ht; exact (Option.some.inj ht).symm
  have e3 : n = "CCSTMTTRNRS".toList → t = OfxType.ty CCStatementResponse := by
    rintro rfl; rw [if_neg (by decide), if_neg (by decide), if_pos rfl] at ht; exact (Option.some.inj ht).symm
  have e4 : n = "INVSTMTTRNRS".toList → t = OfxType.ty InvStatementResponse := by
    rintro rfl; rw [if_neg (by decide), if_neg (by decide), if_neg (by decide), if_pos rfl] at ht; exact (Option.some.inj ht).symm
  have e5 : n = "SECLISTTRNRS".toList → t = OfxType.ty SecListResponse := by
    rintro rfl
    rw [if_neg (by decide), if_neg (by decide), if_neg (by decide), if_neg (by decide), if_pos rfl] at ht
    exact (Option.some.inj ht).symm
  have e6 : n = "SECLIST".toList → t = OfxType.ty SecurityList := by
    rintro rfl
    rw [if_neg (by decide), if_neg (by decide), if_neg (by decide), if_neg (by decide), if_neg (by decide), if_pos rfl] at ht
    exact (Option.some.inj ht).symm
  have e7 : n = "PROFTRNRS".toList → t = OfxType.ty ProfileResponse := by
    rintro rfl
    rw [if_neg (by decide), if_neg (by decide), if_neg (by decide), if_neg (by decide), if_neg (by decide),
      if_neg (by decide), if_pos rfl] at ht
    exact (Option.some.inj ht).symm
  clear ht
  cases set <;> simp only [decodeMessage]
  case signup =>
    by_cases hn : n = "ACCTINFOTRNRS".toList
    · rw [if_pos hn, if_pos hn]; have := e1 hn; subst this; exact okMap _ (fun x => C41_alike env n c c' h x) m
    · rw [if_neg hn, if_neg hn]
  case bank =>
    by_cases hn : n = "STMTTRNRS".toList
    · rw [if_pos hn, if_pos hn]; have := e2 hn; subst this; exact okMap _ (fun x => C41_alike env n c c' h x) m
    · rw [if_neg hn, if_neg hn]
  case creditCard =>
    by_cases hn : n = "CCSTMTTRNRS".toList
    · rw [if_pos hn, if_pos hn]; have := e3 hn; subst this; exact okMap _ (fun x => C41_alike env n c c' h x) m
    · rw [if_neg hn, if_neg hn]
  case invStmt =>
    by_cases hn : n = "INVSTMTTRNRS".toList
    · rw [if_pos hn, if_pos hn]; have := e4 hn; subst this; exact okMap _ (fun x => C41_alike env n c c' h x) m
    · rw [if_neg hn, if_neg hn]
  case secList =>
    by_cases hn : n = "SECLISTTRNRS".toList
    · rw [if_pos hn, if_pos hn]; have := e5 hn; subst this; exact okMap _ (fun x => C41_alike env n c c' h x) m
    · rw [if_neg hn, if_neg hn]
      by_cases hn : n = "SECLIST".toList
      · rw [if_pos hn, if_pos hn]; have := e6 hn; subst this; exact okMap _ (fun x => C41_alike env n c c' h x) m
      · rw [if_neg hn, if_neg hn]
  case prof =>
    by_cases hn : n = "PROFTRNRS".toList
    · rw [if_pos hn, if_pos hn]; have := e7 hn; subst this; exact okMap _ (fun x => C41_alike env n c c' h x) m
    · rw [if_neg hn, if_neg hn]

theorem decodeSets_alike (env : Env) (set : Str) (d d' : List Node)
    (h : ∀ s ms, decodeMessageSet env s d = .ok ms ↔ decodeMessageSet env s d' = .ok ms) (post : List Node) :
    ∀ (pre : List Node) (f g : MsgSet → List Message), decodeSets env f (pre ++ .elem set d :: post) = .ok g ↔
      decodeSets env f (pre ++ .elem set d' :: post) = .ok g
  | [], f, g => by
    simp only [List.nil_append, decodeSets]
    cases setOfName set with
    | none => exact Iff.rfl
    | some s =>
      rcases ok_cases (h s) with ⟨x, h1, h2⟩ | ⟨a, b, h1, h2⟩
      · simp only [h1, h2]
      · simp only [h1, h2]; exact ⟨(by intro hx; cases hx), (by intro hx; cases hx)⟩
  | .text s :: pre, f, g => by simp only [List.cons_append, decodeSets]
  | .misc :: pre, f, g => by simp only [List.cons_append, decodeSets]
  | .elem n cs :: pre, f, g => by
    simp only [List.cons_append, decodeSets]
    cases setOfName n with
    | none => exact Iff.rfl
    | some s =>
      simp only
      cases h1 : decodeMessageSet env s cs with
      | error e => exact Iff.rfl
      | ok ms => exact decodeSets_alike env set d d' h post pre _ g

theorem firstElem_skip (p rest : List Node) (hp : ∀ x ∈ p, ∀ m d, x ≠ .elem m d) : firstElem (p ++ rest) = firstElem rest := by
  induction p with
  | nil => rfl
  | cons x p ih =>
    have ih := ih (fun y hy => hp y (List.mem_cons_of_mem _ hy))
    cases x with
    | elem m d => exact absurd rfl (hp _ (List.mem_cons_self ..) m d)
    | text s => exact ih
    | misc => exact ih

/-- C41 for whole responses: documents that differ by unknown elements, the order of elements or
the way values are written inside a message structure decode to the same response.  (Steps can be chained.) -/
theorem C41_document (env : Env) (version : Nat) (doc doc' : Node) (h : AlikeDoc doc doc') (r : Response Message) :
    decodeOfx env version doc = .ok r ↔ decodeOfx env version doc' = .ok r := by
  cases h with
  | signon pre post p q hp ha =>
    rename_i n c c'
    simp only [decodeOfx, if_true, List.filter_append, List.filter_cons, isBlank_elem, Bool.not_false]
    generalize List.filter (fun c => !isBlank c) pre = pre'
    generalize List.filter (fun c => !isBlank c) post = post'
    cases pre' with
    | nil =>
      simp only [List.nil_append, decodeOfxChildren]
      have e : "SIGNONMSGSRSV1".toList = (MsgType.rs .signon).string := rfl
      rw [if_pos e, if_pos e]
      have : ∀ so, decodeSignon env (p ++ .elem n c :: q) = .ok so ↔ decodeSignon env (p ++ .elem n c' :: q) = .ok so := by
        intro so
        unfold decodeSignon
        rw [firstElem_skip p _ hp, firstElem_skip p _ hp]
        simp only [firstElem]
        rcases ok_cases (fun x : SignonResponse => C41_alike env n c c' ha x) with ⟨x, h1, h2⟩ | ⟨a, b, h1, h2⟩
        · simp only [h1, h2]
        · simp only [h1, h2]; exact ⟨(by intro hx; cases hx), (by intro hx; cases hx)⟩
      rcases ok_cases this with ⟨x, h1, h2⟩ | ⟨a, b, h1, h2⟩
      · simp only [h1, h2]
      · simp only [h1, h2]; exact ⟨(by intro hx; cases hx), (by intro hx; cases hx)⟩
    | cons x pre'' =>
      have hset : setOfName "SIGNONMSGSRSV1".toList = none := by decide +kernel
      cases x with
      | text s => simp only [List.cons_append, decodeOfxChildren]
      | misc => simp only [List.cons_append, decodeOfxChildren]
      | elem sn sc =>
        simp only [List.cons_append, decodeOfxChildren]
        by_cases hs : sn = (MsgType.rs .signon).string
        · rw [if_pos hs, if_pos hs]
          cases decodeSignon env sc with
          | error e => exact Iff.rfl
          | ok so =>
            have none1 : ∀ (d : List Node) (pre : List Node) (f g : MsgSet → List Message),
                ¬ decodeSets env f (pre ++ .elem "SIGNONMSGSRSV1".toList d :: post') = .ok g := by
              intro d pre
              induction pre with
              | nil =>
                intro f g hg
                simp only [List.nil_append, decodeSets, hset] at hg
                cases hg
              | cons y pre ih =>
                intro f g hg
                cases y with
                | text s => simp only [List.cons_append, decodeSets] at hg; cases hg
                | misc => simp only [List.cons_append, decodeSets] at hg; cases hg
                | elem a b =>
                  simp only [List.cons_append, decodeSets] at hg
                  cases hs : setOfName a with
                  | none => rw [hs] at hg; cases hg
                  | some s =>
                    simp only [hs] at hg
                    cases hm : decodeMessageSet env s b with
                    | error e => rw [hm] at hg; cases hg
                    | ok ms => simp only [hm] at hg; exact ih _ g hg
            have key : ∀ g, decodeSets env (fun _ => []) (pre'' ++ .elem "SIGNONMSGSRSV1".toList (p ++ .elem n c :: q) :: post') = .ok g ↔
                decodeSets env (fun _ => []) (pre'' ++ .elem "SIGNONMSGSRSV1".toList (p ++ .elem n c' :: q) :: post') = .ok g :=
              fun g => ⟨fun hg => absurd hg (none1 _ _ _ _), fun hg => absurd hg (none1 _ _ _ _)⟩
            rcases ok_cases key with ⟨x, h1, h2⟩ | ⟨a, b, h1, h2⟩
            · simp only [h1, h2]
            · simp only [h1, h2]; exact ⟨(by intro hx; cases hx), (by intro hx; cases hx)⟩
        · rw [if_neg hs, if_neg hs]
  | message pre post set p q hset ht ha =>
    rename_i n t c c'
    simp only [decodeOfx, if_true, List.filter_append, List.filter_cons, isBlank_elem, Bool.not_false]
    generalize List.filter (fun c => !isBlank c) pre = pre'
    generalize List.filter (fun c => !isBlank c) post = post'
    have hms : ∀ s ms, decodeMessageSet env s (p ++ .elem n c :: q) = .ok ms ↔ decodeMessageSet env s (p ++ .elem n c' :: q) = .ok ms := by
      intro s ms
      unfold decodeMessageSet
      simp only [List.filter_append, List.filter_cons, isBlank_elem, Bool.not_false, if_true]
      exact mapE_context (decodeMessageNode env s) _ _ (.elem n c) (.elem n c') (fun y => decodeMessage_alike env s n t c c' ht ha y) ms
    cases pre' with
    | nil =>
      simp only [List.nil_append, decodeOfxChildren]
      have e : ¬ set = (MsgType.rs .signon).string := hset
      rw [if_neg e, if_neg e]
    | cons x pre'' =>
      cases x with
      | text s => simp only [List.cons_append, decodeOfxChildren]
      | misc => simp only [List.cons_append, decodeOfxChildren]
      | elem sn sc =>
        simp only [List.cons_append, decodeOfxChildren]
        by_cases hs : sn = (MsgType.rs .signon).string
        · rw [if_pos hs, if_pos hs]
          cases decodeSignon env sc with
          | error e => exact Iff.rfl
          | ok so =>
            rcases ok_cases (fun g => decodeSets_alike env set _ _ hms post' pre'' (fun _ => []) g) with ⟨x, h1, h2⟩ | ⟨a, b, h1, h2⟩
            · simp only [h1, h2]
            · simp only [h1, h2]; exact ⟨(by intro hx; cases hx), (by intro hx; cases hx)⟩
        · rw [if_neg hs, if_neg hs]

/-- An unknown element two levels down and two exchanged elements: still the same status. -/
example : ∃ x : Status,
    decodeNew sampleEnv "STATUS".toList [textNode "CODE".toList "0".toList, textNode "SEVERITY".toList "INFO".toList] = .ok x ∧
    decodeNew sampleEnv "STATUS".toList [textNode "SEVERITY".toList "INFO".toList,
      .elem "X.NEW".toList [textNode "CODE".toList "17".toList], textNode "CODE".toList "0".toList] = .ok x := by
  have hx : Alike (OfxType.ty Status) [textNode "CODE".toList "0".toList, textNode "SEVERITY".toList "INFO".toList]
      [textNode "SEVERITY".toList "INFO".toList, .elem "X.NEW".toList [textNode "CODE".toList "17".toList],
        textNode "CODE".toList "0".toList] := by
    refine .trans (.struct (.swap [] [] _ _ _ _ (by decide) (by decide +kernel))) (.symm (.struct ?_))
    exact .unknown [textNode "SEVERITY".toList "INFO".toList] [textNode "CODE".toList "0".toList] _ _ (by decide +kernel)
  have hd : ∃ x : Status, decodeNew sampleEnv "STATUS".toList
      [textNode "CODE".toList "0".toList, textNode "SEVERITY".toList "INFO".toList] = .ok x :=
    ⟨⟨0, "INFO".toList, []⟩, by rfl⟩
  obtain ⟨x, hd⟩ := hd
  exact ⟨x, hd, (C41_alike _ _ _ _ hx x).mp hd⟩

/-- The code written as " 00" and a comment inside the severity: still the same status. -/
example : ∃ x : Status,
    decodeNew sampleEnv "STATUS".toList [textNode "CODE".toList "0".toList, textNode "SEVERITY".toList "INFO".toList] = .ok x ∧
    decodeNew sampleEnv "STATUS".toList [textNode "CODE".toList " 00".toList,
      .elem "SEVERITY".toList [.text "IN".toList, .misc, .text "FO".toList]] = .ok x := by
  have hc : Alike (.leaf .int) [.text " 00".toList] [.text "0".toList] := by
    refine .value (fun env v => ?_)
    rw [← leaf_says env .int rfl, ← leaf_says env .int rfl]
    exact Iff.of_eq rfl
  have hs : Alike (.leaf .str) [.text "IN".toList, .misc, .text "FO".toList] [.text "INFO".toList] :=
    .trans (.inside [.text "IN".toList] [.text "FO".toList]) (.pieces [] [] "IN".toList "FO".toList)
  have hx : Alike (OfxType.ty Status) [textNode "CODE".toList " 00".toList,
      .elem "SEVERITY".toList [.text "IN".toList, .misc, .text "FO".toList]]
      [textNode "CODE".toList "0".toList, textNode "SEVERITY".toList "INFO".toList] :=
    .trans (.struct (.field [] [.elem "SEVERITY".toList [.text "IN".toList, .misc, .text "FO".toList]] _ rfl hc))
      (.struct (.field [textNode "CODE".toList "0".toList] [] _ rfl hs))
  have hd : ∃ x : Status, decodeNew sampleEnv "STATUS".toList
      [textNode "CODE".toList "0".toList, textNode "SEVERITY".toList "INFO".toList] = .ok x :=
    ⟨⟨0, "INFO".toList, []⟩, by rfl⟩
  obtain ⟨x, hd⟩ := hd
  exact ⟨x, hd, (C41_alike _ _ _ _ hx x).mpr hd⟩

/-- A bank statement with an unknown element inside STMTRS, one level below the message. -/
example (p q r : List Node) : AlikeDoc
    (.elem "OFX".toList (p ++ .elem "BANKMSGSRSV1".toList [.elem "STMTTRNRS".toList
      [.elem "STMTRS".toList (q ++ .elem "CASHBALNEW".toList r :: [])]] :: []))
    (.elem "OFX".toList (p ++ .elem "BANKMSGSRSV1".toList [.elem "STMTTRNRS".toList
      [.elem "STMTRS".toList (q ++ [])]] :: [])) :=
  .message p [] _ [] [] (by decide) (by rfl)
    (.struct (.parent [] [] _ (by decide +kernel) (.unknown q [] _ r (by decide +kernel))))

end Ofx.Props
