import Verif.Lemmas.Lists
/-
Investment statements without loans are representable when their values are; elements that
are always rejected.
-/
namespace Ofx
open Spec

/-- Field by field: the declared names agree, or the value is known to be exact. -/
def FieldsOk (env : Env) : (fs : Fields) → fs.Den → Prop
  | .nil, _ => True
  | .field _ name _ t rest, v =>
    (TyTags t name = true ∨ (TyRepr env t name v.1 → TyExact env t name v.1)) ∧ FieldsOk env rest v.2
  | .alts as rest, v => AltsTags as = true ∧ FieldsOk env rest v.2

theorem fields_ok (env : Env) : (fs : Fields) → ∀ v : fs.Den, FieldsOk env fs v → FieldsRepr env fs v →
    FieldsExact env fs v
  | .nil, _, _, _ => trivial
  | .field _ name _ t rest, v, ho, h => by
    refine ⟨?_, fields_ok env rest v.2 ho.2 h.2⟩
    rcases ho.1 with ht | ht
    · exact ty_repr env t name _ ht h.1
    · exact ht h.1
  | .alts as rest, v, ho, h =>
    ⟨fun x hx => alts_repr env as x ho.1 (h.1 x hx), fields_ok env rest v.2 ho.2 h.2⟩

theorem inv401k_ok (env : Env) (k : Inv401K) (hl : k.LoanInfo = [])
    (h : TyRepr env Inv401K.ty "INV401K".toList (Inv401K.toDen k)) :
    TyExact env Inv401K.ty "INV401K".toList (Inv401K.toDen k) := by
  refine ⟨rfl, fields_ok env Inv401K.fields (Inv401K.toDen k).2 ?_ h.2⟩
  have hl' : (Inv401K.toDen k).2.2.2.2.2.2.2.2.2.2.2.2.2.2.2.2.2.1 = ([] : List LoanInfo.ty.Den) := by
    show List.map LoanInfo.toDen k.LoanInfo = []
    rw [hl]; rfl
  refine ⟨.inl (by decide +kernel), .inl (by decide +kernel), .inl (by decide +kernel), .inl (by decide +kernel),
    .inl (by decide +kernel), .inl (by decide +kernel), .inl (by decide +kernel), .inl (by decide +kernel),
    .inl (by decide +kernel), .inl (by decide +kernel), .inl (by decide +kernel), .inl (by decide +kernel),
    .inl (by decide +kernel), .inl (by decide +kernel), .inl (by decide +kernel), .inl (by decide +kernel),
    .inr ?_, .inl (by decide +kernel), .inl (by decide +kernel), .inl (by decide +kernel), trivial⟩
  intro _ x hx
  have hx : x ∈ (show List LoanInfo.ty.Den from (Inv401K.toDen k).2.2.2.2.2.2.2.2.2.2.2.2.2.2.2.2.2.1) := hx
  rw [show (show List LoanInfo.ty.Den from (Inv401K.toDen k).2.2.2.2.2.2.2.2.2.2.2.2.2.2.2.2.2.1) = [] from hl'] at hx
  cases hx

theorem invStatement_ok (env : Env) (m : InvStatementResponse) (hl : ∀ k, m.Inv401K = some k → k.LoanInfo = [])
    (h : TyRepr env InvStatementResponse.ty "INVSTMTTRNRS".toList (InvStatementResponse.toDen m)) :
    TyExact env InvStatementResponse.ty "INVSTMTTRNRS".toList (InvStatementResponse.toDen m) := by
  refine ⟨rfl, fields_ok env InvStatementResponse.fields (InvStatementResponse.toDen m).2 ?_ h.2⟩
  refine ⟨.inl (by decide +kernel), .inl (by decide +kernel), .inl (by decide +kernel), .inl (by decide +kernel),
    .inl (by decide +kernel), .inl (by decide +kernel), .inl (by decide +kernel), .inl (by decide +kernel),
    .inl (by decide +kernel), .inl (by decide +kernel), .inl (by decide +kernel), .inr ?_,
    .inl (by decide +kernel), trivial⟩
  intro hr x hx
  have hx' : x ∈ Option.map Inv401K.toDen m.Inv401K := hx
  rw [Option.mem_map] at hx'
  obtain ⟨k, hk, rfl⟩ := hx'
  exact inv401k_ok env k (hl k hk) (hr _ hx)

theorem message_repr (env : Env) (m : Message) (hl : NoLoans m) (h : ReprMessage env m) : ExactMessage env m := by
  cases m with
  | invStatementResponse m => exact invStatement_ok env m hl h
  | _ => exact ty_repr env _ _ _ (by decide +kernel) h

/-! ### Elements that are always rejected -/

theorem runEvents_err {α : Type} {strict : Bool} {step : α → List Str → Str → List Node → Except String α}
    {p : List Str} {n : Str} {cs : List Node} (hs : ∀ v, ∃ e, step v p n cs = .error e) :
    ∀ (es : List Ev) (v : α), .hit p n cs ∈ es → ∃ e, runEvents strict step v es = .error e
  | [], v, h => by cases h
  | .junk :: es, v, h => by
    have h : Ev.hit p n cs ∈ es := by
      rcases List.mem_cons.mp h with h | h
      · cases h
      · exact h
    unfold runEvents
    cases strict with
    | true => exact ⟨_, rfl⟩
    | false => exact runEvents_err hs es v h
  | .hit p' n' cs' :: es, v, h => by
    unfold runEvents
    cases hd : step v p' n' cs' with
    | error e => exact ⟨e, rfl⟩
    | ok v' =>
      rcases List.mem_cons.mp h with h | h
      · cases h
        obtain ⟨e, he⟩ := hs v
        rw [hd] at he; cases he
      · exact runEvents_err hs es v' h

theorem hit_mem {fs : Fields} {p : List Str} {n : Str} {c : List Node} (hh : fs.hits p n = true) :
    ∀ cs : List Node, .elem n c ∈ cs → .hit p n c ∈ fs.eventsL p cs
  | [], h => by cases h
  | d :: cs, h => by
    unfold Fields.eventsL
    rw [List.mem_append]
    rcases List.mem_cons.mp h with h | h
    · left; subst h; unfold Fields.events; rw [if_pos hh]; exact List.mem_cons_self ..
    · right; exact hit_mem hh cs h

theorem hit_mem_under {fs : Fields} {p : List Str} {m n : Str} {c d : List Node} (hm : fs.hits p m = false)
    (hu : fs.under (p ++ [m]) = true) (hh : fs.hits (p ++ [m]) n = true) (hc : .elem n c ∈ d) :
    ∀ cs : List Node, .elem m d ∈ cs → .hit (p ++ [m]) n c ∈ fs.eventsL p cs
  | [], h => by cases h
  | x :: cs, h => by
    unfold Fields.eventsL
    rw [List.mem_append]
    rcases List.mem_cons.mp h with h | h
    · left; subst h; unfold Fields.events; rw [if_neg (by simp [hm]), if_pos hu]
      exact hit_mem hh d hc
    · right; exact hit_mem_under hm hu hh hc cs h

/-- The type of the field that an element goes to. -/
def Fields.lookup : Fields → List Str → Str → Option Ty
  | .nil, _, _ => none
  | .field path name _ t rest, p, n => if path == p && name == n then some t else rest.lookup p n
  | .alts as rest, p, n => if p == [] && as.has n then none else rest.lookup p n

theorem dec_err {env : Env} {t : Ty} {p : List Str} {n : Str} {cs : List Node}
    (ht : ∀ v, ∃ e, t.dec env v n cs = .error e) :
    ∀ (fs : Fields) (v : fs.Den), fs.lookup p n = some t → ∃ e, fs.dec env v p n cs = .error e
  | .nil, v, h => by cases h
  | .field path name o t' rest, v, h => by
    unfold Fields.lookup at h
    rw [Fields.dec]
    by_cases hp : (path == p && name == n) = true
    · rw [if_pos hp] at h ⊢
      cases h
      obtain ⟨e, he⟩ := ht v.1
      rw [he]; exact ⟨e, rfl⟩
    · rw [if_neg hp] at h ⊢
      obtain ⟨e, he⟩ := dec_err ht rest v.2 h
      rw [he]; exact ⟨e, rfl⟩
  | .alts as rest, v, h => by
    unfold Fields.lookup at h
    rw [Fields.dec]
    by_cases hp : (p == [] && as.has n) = true
    · rw [if_pos hp] at h; cases h
    · rw [if_neg hp] at h ⊢
      obtain ⟨e, he⟩ := dec_err ht rest v.2 h
      rw [he]; exact ⟨e, rfl⟩

theorem lookup_loaninfo : Inv401K.fields.lookup [] "LOANINFO".toList = some (.slice LoanInfo.ty) := by
  rfl

theorem lookup_inv401k : InvStatementResponse.fields.lookup ["INVSTMTRS".toList] "INV401K".toList =
    some (.ptr Inv401K.ty) := by
  rfl

theorem loan_dec (env : Env) (v : LoanInfo.ty.Den) (cs : List Node) :
    LoanInfo.ty.dec env v "LOANINFO".toList cs = .error "expected element type" := by
  unfold LoanInfo.ty at v ⊢
  rw [Ty.dec, if_neg (by decide)]

theorem inv401k_dec_err (env : Env) (v : Inv401K.ty.Den) (n : Str) (c cs : List Node)
    (h : .elem "LOANINFO".toList c ∈ cs) : ∃ e, Inv401K.ty.dec env v n cs = .error e := by
  have h1 : ∀ w, ∃ e, (Ty.slice LoanInfo.ty).dec env w "LOANINFO".toList c = .error e := by
    intro w
    rw [Ty.dec, loan_dec]
    exact ⟨_, rfl⟩
  have h2 : ∀ w, ∃ e, Inv401K.fields.dec env w [] "LOANINFO".toList c = .error e :=
    fun w => dec_err h1 _ w lookup_loaninfo
  have h3 := hit_mem (fs := Inv401K.fields) (p := []) (by decide +kernel) cs h
  obtain ⟨e, he⟩ := runEvents_err (strict := false) (step := fun v p n c => Inv401K.fields.dec env v p n c) h2 _ v.2 h3
  unfold Inv401K.ty at v ⊢
  rw [Ty.dec]
  by_cases hc : (XName.tag "INV401K".toList).check n = true
  · rw [if_pos hc, he]; exact ⟨_, rfl⟩
  · rw [if_neg hc]; exact ⟨_, rfl⟩

theorem invStatement_dec_err (env : Env) (v : InvStatementResponse.ty.Den) (n : Str) (c d e cs : List Node)
    (h : .elem "LOANINFO".toList c ∈ d) (h' : .elem "INV401K".toList d ∈ e) (h'' : .elem "INVSTMTRS".toList e ∈ cs) :
    ∃ er, InvStatementResponse.ty.dec env v n cs = .error er := by
  have h1 : ∀ w, ∃ er, (Ty.ptr Inv401K.ty).dec env w "INV401K".toList d = .error er := by
    intro w
    obtain ⟨er, her⟩ := inv401k_dec_err env ((show Option Inv401K.ty.Den from w).getD Inv401K.ty.zero) "INV401K".toList c d h
    rw [Ty.dec, her]
    exact ⟨_, rfl⟩
  have h2 : ∀ w, ∃ er, InvStatementResponse.fields.dec env w ["INVSTMTRS".toList] "INV401K".toList d = .error er :=
    fun w => dec_err h1 _ w lookup_inv401k
  have h3 := hit_mem_under (fs := InvStatementResponse.fields) (p := []) (m := "INVSTMTRS".toList) (n := "INV401K".toList)
    (by decide +kernel) (by decide +kernel) (by decide +kernel) h' cs h''
  obtain ⟨er, he⟩ := runEvents_err (strict := false) (step := fun v p n c => InvStatementResponse.fields.dec env v p n c) h2 _ v.2 h3
  unfold InvStatementResponse.ty at v ⊢
  rw [Ty.dec]
  by_cases hc : (XName.tag "INVSTMTTRNRS".toList).check n = true
  · rw [if_pos hc, he]; exact ⟨_, rfl⟩
  · rw [if_neg hc]; exact ⟨_, rfl⟩

end Ofx
