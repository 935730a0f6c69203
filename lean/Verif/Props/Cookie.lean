import Verif.Model.Cookie
import Verif.Spec.Cookie
import Verif.Props.Client
import Verif.Lemmas.Url

/-! C99: the Vanguard client returns the cookies the server set. -/
namespace Ofx.Props
open Ofx Spec

/-! ### Reading Set-Cookie lines -/

/-- What net/http trims. -/
def httpSpace (c : Char) : Bool := c == ' ' || c == '\t' || c == '\n' || c == '\r'

theorem trimHttp_eq (s : Str) : trimHttp s = trimRightP httpSpace (trimLeftP httpSpace s) := rfl

theorem trimRight_keep {p : Char → Bool} {x : Char} (h : p x = false) (a b : Str) :
    trimRightP p (a ++ x :: b) = a ++ x :: trimRightP p b := by
  unfold trimRightP
  have e : (a ++ x :: b).reverse = b.reverse ++ x :: a.reverse := by simp
  rw [e]
  generalize b.reverse = c
  induction c with
  | nil => rw [List.nil_append, List.dropWhile_cons_of_neg (by simp [h])]; simp
  | cons y c ih =>
    by_cases hy : p y = true
    · rw [List.cons_append, List.dropWhile_cons_of_pos hy, List.dropWhile_cons_of_pos hy]
      exact ih
    · rw [List.cons_append, List.dropWhile_cons_of_neg hy, List.dropWhile_cons_of_neg hy]
      simp

theorem trimLeft_keep {p : Char → Bool} {x : Char} (h : p x = false) (b : Str) : trimLeftP p (x :: b) = x :: b := by
  unfold trimLeftP
  rw [List.dropWhile_cons_of_neg (by simp [h])]

theorem trimHttp_none {s : Str} (h : ∀ c ∈ s, httpSpace c = false) : trimHttp s = s := by
  rw [trimHttp_eq]
  cases s with
  | nil => rfl
  | cons x s =>
    rw [trimLeft_keep (h x List.mem_cons_self)]
    rcases List.eq_nil_or_concat (x :: s) with h0 | ⟨t, y, h0⟩
    · cases h0
    · rw [h0, List.concat_eq_append] at h ⊢
      rw [trimRight_keep (h y (by simp))]
      rfl

theorem tokenOctet_token {c : Char} (h : tokenOctet c = true) : tokenChar c = true := by
  simp only [tokenOctet, Bool.or_eq_true] at h
  unfold tokenChar
  rcases h with h | h
  · have := alphanum_range h
    unfold isAlnum at this
    rw [this, Bool.true_or]
  · rw [h, Bool.or_true]

theorem token_ne {c : Char} (h : tokenOctet c = true) {d : Char} (hd : tokenOctet d = false) : c ≠ d := by
  rintro rfl
  rw [h] at hd
  cases hd

theorem octet_ne {c : Char} (h : cookieOctet c = true) {d : Char} (hd : cookieOctet d = false) : c ≠ d := by
  rintro rfl
  rw [h] at hd
  cases hd

theorem octet_value {c : Char} (h : cookieOctet c = true) : cookieValueChar c = true := by
  have h1 := octet_ne h (d := '"') (by decide)
  have h2 := octet_ne h (d := ';') (by decide)
  have h3 := octet_ne h (d := '\\') (by decide)
  simp only [cookieOctet, Bool.and_eq_true, decide_eq_true_eq] at h
  simp only [cookieValueChar, Bool.and_eq_true, decide_eq_true_eq, bne_iff_ne]
  exact ⟨⟨⟨⟨by omega, by omega⟩, h1⟩, h2⟩, h3⟩

theorem token_noSpace {c : Char} (h : tokenOctet c = true) : httpSpace c = false := by
  simp only [httpSpace, Bool.or_eq_false_iff, beq_eq_false_iff_ne]
  exact ⟨⟨⟨token_ne h (by decide), token_ne h (by decide)⟩, token_ne h (by decide)⟩, token_ne h (by decide)⟩

theorem octet_noSpace {c : Char} (h : cookieOctet c = true) : httpSpace c = false := by
  simp only [httpSpace, Bool.or_eq_false_iff, beq_eq_false_iff_ne]
  exact ⟨⟨⟨octet_ne h (by decide), octet_ne h (by decide)⟩, octet_ne h (by decide)⟩, octet_ne h (by decide)⟩

theorem written_mem {c : SetCookie} (h : c.ok) {x : Char} (hx : x ∈ c.written) : cookieOctet x = true ∨ x = '"' := by
  unfold SetCookie.written at hx
  split at hx
  · simp only [List.cons_append, List.mem_cons, List.mem_append, List.not_mem_nil, or_false] at hx
    rcases hx with hx | hx | hx
    · exact .inr hx
    · exact .inl (h.value x hx)
    · exact .inr hx
  · exact .inl (h.value x hx)

theorem parseCookieValue_written {c : SetCookie} (h : c.ok) : parseCookieValue c.written = some c.value := by
  have hall : c.value.all cookieValueChar = true := by
    rw [List.all_eq_true]; exact fun x hx => octet_value (h.value x hx)
  unfold parseCookieValue
  have hraw : (if c.written.length > 1 ∧ c.written.head? = some '"' ∧ c.written.getLast? = some '"' then
      (c.written.drop 1).dropLast else c.written) = c.value := by
    unfold SetCookie.written
    cases hq : c.quoted with
    | true =>
      simp only [if_true]
      rw [if_pos]
      · simp
      · refine ⟨by simp, by simp, ?_⟩
        rw [List.cons_append, ← List.cons_append, List.getLast?_append]
        rfl
    | false =>
      simp only [Bool.false_eq_true, if_false]
      rw [if_neg]
      rintro ⟨-, h1, -⟩
      cases hv : c.value with
      | nil => rw [hv] at h1; cases h1
      | cons x v =>
        rw [hv, List.head?_cons, Option.some.injEq] at h1
        exact octet_ne (h.value x (by rw [hv]; exact List.mem_cons_self)) (by decide) h1
  simp only [hraw, hall, if_true]

/-- A cookie that a server sets is read as what it is. -/
theorem readSetCookie_line {c : SetCookie} (h : c.ok) : readSetCookie c.line = some (c.name, c.value) := by
  have hfirst : ∀ x ∈ c.name ++ '=' :: c.written, httpSpace x = false ∧ x ≠ ';' := by
    intro x hx
    rcases List.mem_append.mp hx with hx | hx
    · exact ⟨token_noSpace (h.name.2 x hx), token_ne (h.name.2 x hx) (by decide)⟩
    · rcases List.mem_cons.mp hx with rfl | hx
      · decide
      · rcases written_mem h hx with h0 | rfl
        · exact ⟨octet_noSpace h0, octet_ne h0 (by decide)⟩
        · decide
  have hsplit : (splitC ';' (trimHttp c.line)).1 = c.name ++ '=' :: c.written := by
    unfold SetCookie.line
    cases ha : c.attributes with
    | nil =>
      rw [List.flatMap_nil, List.append_nil, trimHttp_none (fun x hx => (hfirst x hx).1),
        splitC_notMem (fun hm => (hfirst _ hm).2 rfl)]
    | cons a as =>
      have e : (a :: as).flatMap ("; ".toList ++ ·) = ';' :: ' ' :: (a ++ as.flatMap ("; ".toList ++ ·)) := by
        rw [List.flatMap_cons]; rfl
      rw [e]
      have hne : c.name ++ '=' :: c.written ≠ [] := by simp
      generalize hf : c.name ++ '=' :: c.written = f at hfirst hne
      generalize ' ' :: (a ++ as.flatMap ("; ".toList ++ ·)) = r
      cases f with
      | nil => exact absurd rfl hne
      | cons x f =>
        rw [trimHttp_eq, List.cons_append, trimLeft_keep (hfirst x List.mem_cons_self).1, ← List.cons_append,
          trimRight_keep (by decide), splitC_before _ (fun hm => (hfirst _ hm).2 rfl)]
  unfold readSetCookie
  simp only [hsplit]
  rw [trimHttp_none (fun x hx => (hfirst x hx).1),
    splitC_before _ (fun hm => token_ne (h.name.2 _ hm) (d := '=') (by decide) rfl)]
  simp only
  rw [trimHttp_none (fun x hx => token_noSpace (h.name.2 x hx)), if_neg, parseCookieValue_written h]
  · rfl
  · rintro (h0 | h0)
    · exact h.name.1 h0
    · rw [List.all_eq_false] at h0
      obtain ⟨x, hx, h0⟩ := h0
      exact h0 (tokenOctet_token (h.name.2 x hx))

theorem readSetCookies_lines {cs : List SetCookie} (h : ∀ c ∈ cs, c.ok) :
    readSetCookies (cs.map (·.line)) = cs.map fun c => (c.name, c.value) := by
  induction cs with
  | nil => rfl
  | cons c cs ih =>
    unfold readSetCookies at ih ⊢
    rw [List.map_cons, List.filterMap_cons, readSetCookie_line (h c List.mem_cons_self)]
    simp only [List.map_cons, ih (fun d hd => h d (List.mem_cons_of_mem _ hd))]

/-! ### The Cookie line -/

theorem addCookie_ok {c : SetCookie} (h : c.ok) (header : Str) : addCookie header (c.name, c.value) =
    if header ≠ [] then header ++ "; ".toList ++ (c.name ++ '=' :: c.value) else c.name ++ '=' :: c.value := by
  have h1 : sanitizeCookieName c.name = c.name := by
    unfold sanitizeCookieName
    rw [List.map_congr_left (g := id), List.map_id]
    intro x hx
    rw [if_neg]
    · rfl
    · rintro (h0 | h0)
      · exact token_ne (h.name.2 x hx) (by decide) h0
      · exact token_ne (h.name.2 x hx) (by decide) h0
  have h2 : sanitizeCookieValue c.value = c.value := by
    unfold sanitizeCookieValue
    rw [List.filter_eq_self.mpr (fun x hx => octet_value (h.value x hx))]
    simp only
    rw [if_neg]
    rw [Bool.or_eq_true, List.contains_iff_mem, List.contains_iff_mem]
    rintro (h0 | h0)
    · exact octet_ne (h.value _ h0) (d := ' ') (by decide) rfl
    · exact octet_ne (h.value _ h0) (d := ',') (by decide) rfl
  unfold addCookie
  simp only [h1, h2]

/-- Names and values without quotes, as a Cookie line. -/
def unquoted (cs : List SetCookie) : Str := "; ".toList.intercalate (cs.map fun c => c.name ++ '=' :: c.value)

theorem foldl_addCookie {cs : List SetCookie} (h : ∀ c ∈ cs, c.ok) (header : Str) (hh : header ≠ []) :
    (cs.map fun c => (c.name, c.value)).foldl addCookie header =
      header ++ cs.flatMap fun c => "; ".toList ++ (c.name ++ '=' :: c.value) := by
  induction cs generalizing header with
  | nil => simp
  | cons c cs ih =>
    rw [List.map_cons, List.foldl_cons, addCookie_ok (h c List.mem_cons_self), if_pos hh,
      ih (fun d hd => h d (List.mem_cons_of_mem _ hd)) _ (by simp [hh]), List.flatMap_cons]
    simp only [List.append_assoc]

theorem intercalate_flat (s a : Str) (l : List Str) : s.intercalate (a :: l) = a ++ l.flatMap (s ++ ·) := by
  induction l generalizing a with
  | nil => simp [List.intercalate]
  | cons b l ih =>
    have : s.intercalate (a :: b :: l) = a ++ (s ++ s.intercalate (b :: l)) := by
      simp [List.intercalate, List.intersperse]
    rw [this, ih, List.flatMap_cons, List.append_assoc]

theorem cookieLine_lines {cs : List SetCookie} (h : ∀ c ∈ cs, c.ok) :
    cookieLine (readSetCookies (cs.map (·.line))) = unquoted cs := by
  rw [readSetCookies_lines h]
  cases cs with
  | nil => rfl
  | cons c cs =>
    unfold cookieLine unquoted
    rw [List.map_cons, List.foldl_cons, addCookie_ok (h c List.mem_cons_self), if_neg (by simp),
      foldl_addCookie (fun d hd => h d (List.mem_cons_of_mem _ hd)) _ (by simp), List.map_cons, intercalate_flat,
      List.flatMap_map]

/-! ### C99 -/

/-- The second request of a call carries the cookies set by the last response to the first.
`sets` gives the Set-Cookie lines of a response. -/
theorem second_cookies (net : Net) (c : Client) (r : Request Message) (tr evs : Trace)
    (h : (c.requestNoParse net r tr).2.2 = tr ++ evs) {q1 q2 : HttpRequest} (hq : posts evs = [q1, q2]) :
    ∃ e1 e2 resp, evs = e1 ++ e2 ∧ posts e1 = [q1] ∧ posts e2 = [q2] ∧ lastResponse e1 = some resp ∧ q2.cookies = resp.cookies := by
  obtain ⟨-, -, -, -, -, e1, e2, resp, h1, h2, h3, h4, -, -, h5⟩ := (C45_retry_partial net c r tr evs h).2 q1 q2 hq
  exact ⟨e1, e2, resp, h1, h2, h3, h4, h5⟩

/-- C99: if a client asks again, then with the cookies the answer to the first request set, as they were written.
`sets` are the Set-Cookie lines of that answer.  Full statement: whichever cookies were set,
exactly those are returned that RFC 6265 says (`toReturn`).  False of cookies that were replaced or have
expired (`C99_twice`, `C99_expired`) or have values in quotes (`C99_quotes`). -/
theorem C99_returned_partial (net : Net) (c : Client) (r : Request Message) (tr evs : Trace)
    (h : (c.requestNoParse net r tr).2.2 = tr ++ evs) (q1 q2 : HttpRequest) (hq : posts evs = [q1, q2]) :
    q1.cookies = [] ∧ ∃ e1 e2 resp, evs = e1 ++ e2 ∧ posts e1 = [q1] ∧ posts e2 = [q2] ∧ lastResponse e1 = some resp ∧
      ∀ cs : List SetCookie, resp.cookies = readSetCookies (cs.map (·.line)) → (∀ c ∈ cs, c.ok) →
        (∀ c ∈ cs, c.quoted = false) → (cs.map (·.name)).Nodup → (∀ c ∈ cs, ∀ a ∈ c.attributes, ¬ limiting a) →
        toReturn cs cs ∧ cookieLine q2.cookies = returning cs := by
  refine ⟨((C45_retry_partial net c r tr evs h).2 q1 q2 hq).2.2.2.2.1, ?_⟩
  obtain ⟨e1, e2, resp, h1, h2, h3, h4, h5⟩ := second_cookies net c r tr evs h hq
  refine ⟨e1, e2, resp, h1, h2, h3, h4, fun cs hcs hok hquote hnames hlimit => ⟨⟨List.Sublist.refl _, hnames, ?_, ?_⟩, ?_⟩⟩
  · intro c hc hm
    exact hlimit c hc _ hm ⟨"max-age=", by simp, by decide⟩
  · exact fun c hc _ _ => hc
  · rw [h5, hcs, cookieLine_lines hok]
    unfold unquoted returning
    congr 1
    refine List.map_congr_left fun c hc => ?_
    unfold SetCookie.written
    rw [hquote c hc]
    rfl

/-- C99 fails: a cookie the server tells to forget at once is returned all the same. -/
theorem C99_expired (net : Net) (c : Client) (r : Request Message) (tr evs : Trace)
    (h : (c.requestNoParse net r tr).2.2 = tr ++ evs) (q1 q2 : HttpRequest) (hq : posts evs = [q1, q2]) :
    ∃ e1 e2 resp, evs = e1 ++ e2 ∧ posts e1 = [q1] ∧ posts e2 = [q2] ∧ lastResponse e1 = some resp ∧
      ∀ name value, (SetCookie.mk name value false ["Max-Age=0".toList]).ok →
        resp.cookies = readSetCookies [(SetCookie.mk name value false ["Max-Age=0".toList]).line] →
        cookieLine q2.cookies = name ++ '=' :: value ∧
        ∀ kept, toReturn [SetCookie.mk name value false ["Max-Age=0".toList]] kept → cookieLine q2.cookies ≠ returning kept := by
  obtain ⟨e1, e2, resp, h1, h2, h3, h4, h5⟩ := second_cookies net c r tr evs h hq
  refine ⟨e1, e2, resp, h1, h2, h3, h4, fun name value hok hcs => ?_⟩
  have hl : cookieLine q2.cookies = name ++ '=' :: value := by
    have := cookieLine_lines (cs := [SetCookie.mk name value false ["Max-Age=0".toList]])
      (fun c hc => by rw [List.mem_singleton.mp hc]; exact hok)
    rw [h5, hcs]
    rw [List.map_singleton] at this
    rw [this]
    simp [unquoted, List.intercalate]
  refine ⟨hl, fun kept hk he => ?_⟩
  have hk0 : kept = [] := by
    rcases List.sublist_cons_iff.mp hk.1 with h0 | ⟨t, h0, -⟩
    · exact List.sublist_nil.mp h0
    · exact absurd List.mem_cons_self (hk.2.2.1 _ (by rw [h0]; exact List.mem_cons_self))
  rw [hl, hk0] at he
  simp [returning, List.intercalate] at he

/-- C99 fails: if the server sets a cookie and then replaces it, both are returned. -/
theorem C99_twice (net : Net) (c : Client) (r : Request Message) (tr evs : Trace)
    (h : (c.requestNoParse net r tr).2.2 = tr ++ evs) (q1 q2 : HttpRequest) (hq : posts evs = [q1, q2]) :
    ∃ e1 e2 resp, evs = e1 ++ e2 ∧ posts e1 = [q1] ∧ posts e2 = [q2] ∧ lastResponse e1 = some resp ∧
      ∀ name v w, (SetCookie.mk name v false []).ok → (SetCookie.mk name w false []).ok →
        resp.cookies = readSetCookies [(SetCookie.mk name v false []).line, (SetCookie.mk name w false []).line] →
        cookieLine q2.cookies = name ++ '=' :: v ++ "; ".toList ++ name ++ '=' :: w ∧
        ∀ kept, toReturn [SetCookie.mk name v false [], SetCookie.mk name w false []] kept → cookieLine q2.cookies ≠ returning kept := by
  obtain ⟨e1, e2, resp, h1, h2, h3, h4, h5⟩ := second_cookies net c r tr evs h hq
  refine ⟨e1, e2, resp, h1, h2, h3, h4, fun name v w hv hw hcs => ?_⟩
  have hl : cookieLine q2.cookies = name ++ '=' :: v ++ "; ".toList ++ name ++ '=' :: w := by
    have := cookieLine_lines (cs := [SetCookie.mk name v false [], SetCookie.mk name w false []])
      (fun c hc => by
        simp only [List.mem_cons, List.not_mem_nil, or_false] at hc
        rcases hc with rfl | rfl
        · exact hv
        · exact hw)
    rw [h5, hcs]
    rw [List.map_cons, List.map_singleton] at this
    rw [this]
    simp [unquoted, List.intercalate]
  refine ⟨hl, fun kept hk he => ?_⟩
  have hlen := hk.1.length_le
  have hret : ∀ d ∈ [SetCookie.mk name v false [], SetCookie.mk name w false []], returning [d] ≠
      name ++ '=' :: v ++ "; ".toList ++ name ++ '=' :: w := by
    intro d hd he
    simp only [List.mem_cons, List.not_mem_nil, or_false] at hd
    have hsemi : ';' ∈ returning [d] := by rw [he]; simp
    have hmem : ∀ x ∈ returning [d], x ∈ name ∨ x = '=' ∨ x ∈ v ∨ x ∈ w := by
      intro x hx
      rcases hd with rfl | rfl <;>
        simp only [returning, List.intercalate, SetCookie.written, List.map_cons, List.map_nil, List.intersperse,
          List.flatten_cons, List.flatten_nil, List.append_nil, List.mem_append, List.mem_cons, Bool.false_eq_true, if_false] at hx <;>
        tauto
    rcases hmem _ hsemi with h0 | h0 | h0 | h0
    · exact token_ne (hv.name.2 _ h0) (d := ';') (by decide) rfl
    · exact absurd h0 (by decide)
    · exact octet_ne (hv.value _ h0) (d := ';') (by decide) rfl
    · exact octet_ne (hw.value _ h0) (d := ';') (by decide) rfl
  rcases kept with _ | ⟨d, _ | ⟨d', kept⟩⟩
  · rw [hl] at he
    simp [returning, List.intercalate] at he
  · rw [hl] at he
    exact hret d (hk.1.subset List.mem_cons_self) he.symm
  · have h1 := hk.1.subset (List.mem_cons_self)
    have h2 := hk.1.subset (List.mem_cons_of_mem _ List.mem_cons_self : d' ∈ d :: d' :: kept)
    have hn : ∀ x ∈ [SetCookie.mk name v false [], SetCookie.mk name w false []], x.name = name := by
      intro x hx
      simp only [List.mem_cons, List.not_mem_nil, or_false] at hx
      rcases hx with rfl | rfl <;> rfl
    have h3 := hk.2.1
    simp only [List.map_cons, hn d h1, hn d' h2, List.nodup_cons, List.mem_cons, true_or, not_true_eq_false, false_and] at h3

/-- C99 fails: the quotes around a value are left out when it is returned. -/
theorem C99_quotes (net : Net) (c : Client) (r : Request Message) (tr evs : Trace)
    (h : (c.requestNoParse net r tr).2.2 = tr ++ evs) (q1 q2 : HttpRequest) (hq : posts evs = [q1, q2]) :
    ∃ e1 e2 resp, evs = e1 ++ e2 ∧ posts e1 = [q1] ∧ posts e2 = [q2] ∧ lastResponse e1 = some resp ∧
      ∀ name value, (SetCookie.mk name value true []).ok →
        resp.cookies = readSetCookies [(SetCookie.mk name value true []).line] →
        cookieLine q2.cookies = name ++ '=' :: value ∧
        ∀ kept, toReturn [SetCookie.mk name value true []] kept → cookieLine q2.cookies ≠ returning kept := by
  obtain ⟨e1, e2, resp, h1, h2, h3, h4, h5⟩ := second_cookies net c r tr evs h hq
  refine ⟨e1, e2, resp, h1, h2, h3, h4, fun name value hok hcs => ?_⟩
  have hl : cookieLine q2.cookies = name ++ '=' :: value := by
    have := cookieLine_lines (cs := [SetCookie.mk name value true []])
      (fun c hc => by rw [List.mem_singleton.mp hc]; exact hok)
    rw [h5, hcs]
    rw [List.map_singleton] at this
    rw [this]
    simp [unquoted, List.intercalate]
  refine ⟨hl, fun kept hk he => ?_⟩
  rw [hl] at he
  rcases List.sublist_cons_iff.mp hk.1 with h0 | ⟨t, h0, h0'⟩
  · rw [List.sublist_nil.mp h0] at he
    simp [returning, List.intercalate] at he
  · rw [List.sublist_nil.mp h0'] at h0
    rw [h0] at he
    have := congrArg List.length he
    simp [returning, List.intercalate, SetCookie.written] at this

/-- C99 examples: cookies of each kind, and a network in which they are set and a second request is made. -/
example : (SetCookie.mk "JSESSIONID".toList "0000aB-_".toList false ["Secure".toList, "HttpOnly".toList]).ok ∧
    (∀ a ∈ ["Secure".toList, "HttpOnly".toList], ¬ limiting a) ∧
    (SetCookie.mk "a".toList "1".toList false ["Max-Age=0".toList]).ok ∧ (SetCookie.mk "a".toList "1".toList true []).ok := by
  refine ⟨⟨by decide, by decide, by decide⟩, ?_, ⟨by decide, by decide, by decide⟩, ⟨by decide, by decide, by decide⟩⟩
  intro a ha
  simp only [List.mem_cons, List.not_mem_nil, or_false] at ha
  rintro ⟨n, hn, hp⟩
  simp only [List.mem_cons, List.not_mem_nil, or_false] at hn
  rcases ha with rfl | rfl <;> rcases hn with rfl | rfl | rfl | rfl <;> revert hp <;> decide

example (now : GoTime) : ∃ net : Net, ∃ evs q1 q2,
    ((Client.vanguard sampleClient).requestNoParse net sampleRequest []).2.2 = [] ++ evs ∧ posts evs = [q1, q2] ∧
      cookieLine q2.cookies = "a=1; b=2".toList := by
  obtain ⟨d, hd⟩ := sampleClient_ok now
  have hc : readSetCookies ["a=1; Path=/; Secure".toList, "b=2".toList] = [("a".toList, "1".toList), ("b".toList, "2".toList)] := by
    decide
  let a : RawResponse := ⟨200, [], 0, readSetCookies ["a=1; Path=/; Secure".toList, "b=2".toList], [], []⟩
  obtain ⟨evs, h, -⟩ := noParse_effect (constNet now a) (.vanguard sampleClient) sampleRequest []
  obtain ⟨hs1, h1⟩ := constNet_first now a rfl (.vanguard sampleClient) (by intro bc h; cases h) sampleRequest.url (by decide) d.bytes []
  have hlen := C45_retry_made (constNet now a) sampleClient sampleRequest [] evs d hd ⟨a, 1⟩ (by rw [h1]; rfl) (Int.le_refl 0)
    (by simp only [a]; rw [hc]; decide) h
  obtain ⟨q1, q2, hq⟩ : ∃ q1 q2, posts evs = [q1, q2] := by
    rcases hp : posts evs with _ | ⟨q1, _ | ⟨q2, _ | ⟨q3, ps⟩⟩⟩ <;> rw [hp] at hlen <;> simp at hlen
    exact ⟨q1, q2, rfl⟩
  obtain ⟨e1, e2, resp, he, hp1, hp2, hl, hcs⟩ := second_cookies _ _ _ [] evs h hq
  refine ⟨constNet now a, evs, q1, q2, h, hq, ?_⟩
  have hresp : resp.cookies = a.cookies := by
    have hm : resp ∈ responses evs := by
      rw [he, responses_append]
      exact List.mem_append_left _ (List.mem_of_getLast? hl)
    rcases noParse_cases (constNet now a) (.vanguard sampleClient) sampleRequest [] with ⟨e, h', -⟩ | ⟨d', h', h''⟩
    · erw [hd] at h'; cases h'
    erw [hd] at h'
    cases h'
    rw [h1] at h''
    rcases h'' with ⟨-, h''⟩ | ⟨resp', hr', -, h''⟩
    · rw [h''] at h
      rw [← List.append_cancel_left h] at hm
      simp [responses] at hm
      rw [hm]
    · rw [h''] at h
      simp only [vanguardRetry] at h
      rw [if_neg (by decide), constNet_post now _ rfl] at h
      simp only [checkStatus] at h
      rw [if_neg (by decide)] at h
      simp only [List.append_assoc] at h
      rw [← List.append_cancel_left h] at hm
      simp [responses] at hm
      rcases hm with rfl | rfl <;> rfl
  rw [hcs, hresp]
  show cookieLine (readSetCookies _) = _
  rw [hc]
  decide

end Ofx.Props
