import Verif.Lemmas.SaysMain
import Verif.Props.Document
/-
What a whole response document says.
-/
namespace Ofx
open Spec Props

theorem message_says (env : Env) (name : Str) (cs : List Node) (m : Message) :
    ReadsAs env name cs m ↔ MessageSays env name cs m := by
  cases m with
  | statementRequest m => exact (decodeNew_says env _ _ _ (by decide +kernel)).trans statementRequestIs_iff.symm
  | statementResponse m => exact (decodeNew_says env _ _ _ (by decide +kernel)).trans statementResponseIs_iff.symm
  | ccStatementRequest m => exact (decodeNew_says env _ _ _ (by decide +kernel)).trans cCStatementRequestIs_iff.symm
  | ccStatementResponse m => exact (decodeNew_says env _ _ _ (by decide +kernel)).trans cCStatementResponseIs_iff.symm
  | invStatementRequest m => exact (decodeNew_says env _ _ _ (by decide +kernel)).trans invStatementRequestIs_iff.symm
  | invStatementResponse m => exact (decodeNew_says env _ _ _ (by decide +kernel)).trans invStatementResponseIs_iff.symm
  | profileRequest m => exact (decodeNew_says env _ _ _ (by decide +kernel)).trans profileRequestIs_iff.symm
  | profileResponse m => exact (decodeNew_says env _ _ _ (by decide +kernel)).trans profileResponseIs_iff.symm
  | secListRequest m => exact (decodeNew_says env _ _ _ (by decide +kernel)).trans secListRequestIs_iff.symm
  | secListResponse m => exact (decodeNew_says env _ _ _ (by decide +kernel)).trans secListResponseIs_iff.symm
  | securityList m => exact (decodeNew_says env _ _ _ (by decide +kernel)).trans securityListIs_iff.symm
  | acctInfoRequest m => exact (decodeNew_says env _ _ _ (by decide +kernel)).trans acctInfoRequestIs_iff.symm
  | acctInfoResponse m => exact (decodeNew_says env _ _ _ (by decide +kernel)).trans acctInfoResponseIs_iff.symm

theorem all_blank (cs : List Node) : cs.all isBlank = true ↔ ∀ c ∈ cs, ∃ s, c = .text s ∧ IsPadding s := by
  rw [List.all_eq_true]
  refine forall_congr' fun c => imp_congr_right fun _ => ?_
  cases c with
  | elem n ch => simp [isBlank]
  | text s =>
    rw [isBlank_text]
    exact ⟨fun h => ⟨s, rfl, h⟩, fun ⟨s', h, hp⟩ => by cases h; exact hp⟩
  | misc => simp [isBlank]

theorem firstElem_iff (cs : List Node) (n : Str) (ch rest : List Node) :
    firstElem cs = some (n, ch, rest) ↔ ∃ pre, cs = pre ++ .elem n ch :: rest ∧ elems pre = [] := by
  induction cs with
  | nil => simp [firstElem]
  | cons c cs ih =>
    cases c with
    | elem a b =>
      simp only [firstElem, Option.some.injEq, Prod.mk.injEq]
      constructor
      · rintro ⟨rfl, rfl, rfl⟩; exact ⟨[], rfl, rfl⟩
      · rintro ⟨pre, h, hp⟩
        cases pre with
        | nil => cases h; exact ⟨rfl, rfl, rfl⟩
        | cons d pre => cases h; simp [elems] at hp
    | text s =>
      simp only [firstElem]
      rw [ih]
      constructor
      · rintro ⟨pre, rfl, hp⟩; exact ⟨.text s :: pre, rfl, hp⟩
      · rintro ⟨pre, h, hp⟩
        cases pre with
        | nil => cases h
        | cons d pre => cases h; exact ⟨pre, rfl, hp⟩
    | misc =>
      simp only [firstElem]
      rw [ih]
      constructor
      · rintro ⟨pre, rfl, hp⟩; exact ⟨.misc :: pre, rfl, hp⟩
      · rintro ⟨pre, h, hp⟩
        cases pre with
        | nil => cases h
        | cons d pre => cases h; exact ⟨pre, rfl, hp⟩

theorem decodeSignon_iff (env : Env) (cs : List Node) (so : SignonResponse) :
    decodeSignon env cs = .ok so ↔ ∃ pre post name ch, cs = pre ++ .elem name ch :: post ∧ elems pre = [] ∧
      (∀ c ∈ post, ∃ s, c = .text s ∧ IsPadding s) ∧
      SignonResponseIs env [(name, ch)] so := by
  have key : ∀ name ch, decodeNew env name ch = .ok so ↔
      SignonResponseIs env [(name, ch)] so :=
    fun name ch => (decodeNew_says env _ _ _ (by decide +kernel)).trans signonResponseIs_iff.symm
  unfold decodeSignon
  constructor
  · intro h
    cases h1 : firstElem cs with
    | none => rw [h1] at h; cases h
    | some x =>
      obtain ⟨name, ch, rest⟩ := x
      rw [h1] at h
      simp only at h
      cases h2 : decodeNew (α := SignonResponse) env name ch with
      | error e => rw [h2] at h; cases h
      | ok so' =>
        rw [h2] at h
        simp only at h
        by_cases hb : rest.all isBlank = true
        · rw [if_pos hb] at h
          cases h
          obtain ⟨pre, he, hp⟩ := (firstElem_iff ..).mp h1
          exact ⟨pre, rest, name, ch, he, hp, (all_blank _).mp hb, (key _ _).mp h2⟩
        · rw [if_neg hb] at h; cases h
  · rintro ⟨pre, post, name, ch, he, hp, hb, hs⟩
    rw [(firstElem_iff cs name ch post).mpr ⟨pre, he, hp⟩]
    simp only
    rw [(key name ch).mpr hs]
    simp only
    rw [if_pos ((all_blank _).mpr hb)]

theorem mem_elems {cs : List Node} {e : Str × List Node} : e ∈ elems cs ↔ Node.elem e.1 e.2 ∈ cs := by
  induction cs with
  | nil => simp [elems]
  | cons c cs ih =>
    cases c with
    | elem a b =>
      simp only [elems, List.mem_cons, ih, Node.elem.injEq]
      exact or_congr_left Prod.ext_iff
    | text t => simp [elems, ih]
    | misc => simp [elems, ih]

theorem filed_says (env : Env) (s : MsgSet) : Filed env s = fun (e : Str × List Node) (m : Message) =>
    e.1 = (elementName m).toList ∧ m.type = .rs s ∧ MessageSays env e.1 e.2 m := by
  funext e m
  unfold Filed
  rw [message_says]

theorem elems_map (l : List (Str × List Node)) : elems (l.map (fun e => Node.elem e.1 e.2)) = l := by
  induction l with
  | nil => rfl
  | cons e l ih => simp [elems, ih]

theorem decodeChildren_iff (env : Env) (version : Nat) (cs : List Node) (r : Response Message) :
    decodeOfxChildren env version cs = .ok r ↔ ∃ sc rest f so, cs = .elem (MsgType.rs .signon).string sc :: rest ∧
      decodeSignon env sc = .ok so ∧ decodeSets env (fun _ => []) rest = .ok f ∧ r = ⟨version, so, f⟩ := by
  constructor
  · intro h
    unfold decodeOfxChildren at h
    cases cs with
    | nil => cases h
    | cons c rest =>
      cases c with
      | text t => cases h
      | misc => cases h
      | elem sn sc =>
        simp only at h
        by_cases hsn : sn = (MsgType.rs .signon).string
        swap
        · rw [if_neg hsn] at h; cases h
        rw [if_pos hsn] at h
        cases h1 : decodeSignon env sc with
        | error e => rw [h1] at h; cases h
        | ok so =>
          rw [h1] at h
          simp only at h
          cases h2 : decodeSets env (fun _ => []) rest with
          | error e => rw [h2] at h; cases h
          | ok f =>
            rw [h2] at h
            cases h
            exact ⟨sc, rest, f, so, by rw [hsn], h1, h2, rfl⟩
  · rintro ⟨sc, rest, f, so, rfl, h1, h2, rfl⟩
    unfold decodeOfxChildren
    simp only
    rw [if_pos trivial, h1]
    simp only
    rw [h2]

theorem response_says (env : Env) (version : Nat) (root : Node) (r : Response Message) :
    decodeOfx env version root = .ok r ↔ r.version = version ∧ ResponseSays env root r.signon r.sets := by
  have hin : ∀ (s : MsgSet), s ≠ .signon → ∀ (cs : List Node) sc rest,
      elems cs = ((MsgType.rs .signon).string, sc) :: rest →
      inside (MsgType.rs s).string cs = inside (MsgType.rs s).string (rest.map (fun e => Node.elem e.1 e.2)) := by
    intro s hs cs sc rest h
    unfold inside
    rw [h, List.filter_cons_of_neg, elems_map]
    simp only [decide_eq_true_eq]
    intro hh
    exact hs (rs_string_inj (s := s) (t := .signon) hs hh.symm)
  have hfiled := fun s => filed_says env s
  constructor
  · intro h
    cases root with
    | text t => cases h
    | misc => cases h
    | elem n cs =>
      unfold decodeOfx at h
      simp only at h
      by_cases hn : n = "OFX".toList
      swap
      · rw [if_neg hn] at h; cases h
      rw [if_pos hn] at h
      obtain ⟨sc, rest, f, so, hf, h1, h2, rfl⟩ := (decodeChildren_iff ..).mp h
      obtain ⟨k1, k2⟩ := (decodeSets_ok rest _ f).mp h2
      have hall : cs.filter (fun c => !isBlank c) =
          (((MsgType.rs .signon).string, sc) :: elems rest).map (fun e => Node.elem e.1 e.2) := by
        rw [hf, List.map_cons]
        congr 1
        have : ∀ l : List Node, (∀ c ∈ l, ∃ a b, c = Node.elem a b) → l = (elems l).map (fun e => Node.elem e.1 e.2) := by
          intro l
          induction l with
          | nil => intro _; rfl
          | cons c l ih =>
            intro hl
            obtain ⟨a, b, rfl⟩ := hl c (List.mem_cons_self ..)
            rw [elems, List.map_cons, ← ih (fun c hc => hl c (List.mem_cons_of_mem _ hc))]
        exact this rest (fun c hc => by obtain ⟨s, ch, he, _⟩ := k1 c hc; exact ⟨_, _, he⟩)
      obtain ⟨ho, he⟩ := mem_nonblank hall
      obtain ⟨pre, post, name, ch, e1, e2, e3, e4⟩ := (decodeSignon_iff ..).mp h1
      refine ⟨rfl, cs, sc, elems rest, pre, post, name, ch, by rw [hn], ho, by rw [he]; rfl, e1, e2, e3, e4, ?_, ?_, ?_⟩
      · intro e hm
        obtain ⟨s, ch', he', hs, hb⟩ := k1 _ (mem_elems.mp hm)
        obtain ⟨e1', e2'⟩ := Node.elem.inj he'
        refine ⟨⟨(s, String.ofList (MsgType.rs s).string), (responseOrder_mem s _).mpr ⟨hs, by simp⟩, by simp [e1']⟩, ?_⟩
        rw [e2']
        exact (onlyElements_iff _).mp hb
      · obtain ⟨ms, q1, q2⟩ := k2 .signon
        rw [if_pos rfl] at q2
        simpa [q2] using q1
      · rintro ⟨s, nm⟩ hs
        obtain ⟨hs1, hs2⟩ := (responseOrder_mem s nm).mp hs
        obtain ⟨ms, q1, q2⟩ := k2 s
        rw [if_neg hs1] at q2
        simp only [List.nil_append] at q1
        simp only
        rw [hs2, q1, hin s hs1 cs sc _ he, ← hfiled s]
        unfold inside
        rw [elems_map]
        exact q2
  · rintro ⟨rfl, cs, first, rest, pre, post, name, ch, rfl, ho, he, e1, e2, e3, e4, hr, hz, hm⟩
    unfold decodeOfx
    simp only [if_true]
    have he' : elems cs = ((MsgType.rs .signon).string, first) :: rest := he
    refine (decodeChildren_iff ..).mpr ⟨first, rest.map (fun e => Node.elem e.1 e.2), r.sets, r.signon, ?_,
      (decodeSignon_iff ..).mpr ⟨pre, post, name, ch, e1, e2, e3, e4⟩, ?_, rfl⟩
    · rw [onlyElements_filter cs ho, he']
      rfl
    · refine (decodeSets_ok ..).mpr ⟨?_, ?_⟩
      · intro c hc
        obtain ⟨e, hmem, rfl⟩ := List.mem_map.mp hc
        obtain ⟨⟨⟨s, nm⟩, hs, hn⟩, hb⟩ := hr e hmem
        obtain ⟨hs1, hs2⟩ := (responseOrder_mem s nm).mp hs
        simp only at hn
        exact ⟨s, e.2, by rw [hn, hs2], hs1, (onlyElements_iff _).mpr hb⟩
      · intro s
        by_cases hs : s = .signon
        · subst hs
          exact ⟨[], by simp [hz], by rw [if_pos rfl]⟩
        · refine ⟨r.sets s, by simp, ?_⟩
          rw [if_neg hs, ← hin s hs cs first rest he', hfiled s]
          have := hm (s, String.ofList (MsgType.rs s).string) ((responseOrder_mem s _).mpr ⟨hs, by simp⟩)
          simpa using this

end Ofx
