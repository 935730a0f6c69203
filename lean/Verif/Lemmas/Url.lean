import Verif.Model.Url
import Verif.Spec.Url
import Verif.Lemmas.Utf8
import Verif.Lemmas.Amount

/-! How net/url takes URLs apart. -/
namespace Ofx
open Spec

theorem splitC_before {c : Char} {a : Str} (b : Str) (h : c ∉ a) : splitC c (a ++ c :: b) = (a, some b) := by
  induction a with
  | nil => simp [splitC]
  | cons x a ih =>
    simp only [List.mem_cons, not_or] at h
    rw [List.cons_append, splitC, if_neg (fun e => h.1 e.symm), ih h.2]

theorem splitC_opt {c : Char} {a : Str} (o : Option Str) (h : c ∉ a) : splitC c (a ++ o.elim [] (c :: ·)) = (a, o) := by
  cases o with
  | none => simpa using splitC_notMem h
  | some b => exact splitC_before b h

theorem lastCut_none {c : Char} {s : Str} (h : c ∉ s) : lastCut c s = none := by
  induction s with
  | nil => rfl
  | cons x s ih =>
    simp only [List.mem_cons, not_or] at h
    rw [lastCut, ih h.2]
    simp only
    rw [if_neg (fun e => h.1 e.symm)]

theorem lastCut_some {c : Char} (a : Str) {b : Str} (h : c ∉ b) : lastCut c (a ++ c :: b) = some (a, b) := by
  induction a with
  | nil =>
    rw [List.nil_append, lastCut, lastCut_none h]
    simp
  | cons x a ih =>
    rw [List.cons_append, lastCut, ih]

theorem lastCut_cases (c : Char) (s : Str) :
    (lastCut c s = none ∧ c ∉ s) ∨ ∃ a b, lastCut c s = some (a, b) ∧ s = a ++ c :: b ∧ c ∉ b := by
  induction s with
  | nil => exact .inl ⟨rfl, by simp⟩
  | cons x s ih =>
    rcases ih with ⟨h1, h2⟩ | ⟨a, b, h1, h2, h3⟩
    · by_cases h : x = c
      · right
        refine ⟨[], s, ?_, by rw [h]; rfl, h2⟩
        rw [lastCut, h1]
        simp [h]
      · left
        refine ⟨?_, by simp only [List.mem_cons, not_or]; exact ⟨fun e => h e.symm, h2⟩⟩
        rw [lastCut, h1]
        simp [h]
    · right
      refine ⟨x :: a, b, by rw [lastCut, h1], by rw [h2]; rfl, h3⟩

theorem cutZone_none {s : Str} (h : '%' ∉ s) : cutZone s = none := by
  induction s with
  | nil => rfl
  | cons x s ih =>
    simp only [List.mem_cons, not_or] at h
    rw [cutZone, ih h.2, if_neg]
    · rfl
    · intro hp
      simp only [hasPrefix, List.isPrefixOf, show "%25".toList = ['%', '2', '5'] from rfl, Bool.and_eq_true, beq_iff_eq] at hp
      exact h.1 hp.1

/-! ### Characters -/

theorem alphanum_range {c : Char} (h : c.isAlphanum = true) : isAlnum c.toNat = true := by
  simp only [Char.isAlphanum, Char.isAlpha, Char.isUpper, Char.isLower, Char.isDigit, Bool.or_eq_true, Bool.and_eq_true,
    decide_eq_true_eq, UInt32.le_iff_toNat_le] at h
  simp only [isAlnum, Bool.or_eq_true, Bool.and_eq_true, decide_eq_true_eq]
  have e : c.toNat = c.val.toNat := rfl
  have e1 : (65 : UInt32).toNat = 65 := rfl
  have e2 : (90 : UInt32).toNat = 90 := rfl
  have e3 : (97 : UInt32).toNat = 97 := rfl
  have e4 : (122 : UInt32).toNat = 122 := rfl
  have e5 : (48 : UInt32).toNat = 48 := rfl
  have e6 : (57 : UInt32).toNat = 57 := rfl
  rw [e]
  rcases h with (h | h) | h
  · have := h.1; have := h.2; left; right; constructor <;> first | exact h.1 | exact h.2
  · right; constructor <;> first | exact h.1 | exact h.2
  · left; left; constructor <;> first | exact h.1 | exact h.2

theorem isAlnum_range {n : Nat} (h : isAlnum n = true) : 48 ≤ n ∧ n < 127 ∧ n ≠ 58 ∧ n ≠ 63 ∧ n ≠ 64 ∧ n ≠ 91 ∧ n ≠ 93 := by
  simp only [isAlnum, Bool.or_eq_true, Bool.and_eq_true, decide_eq_true_eq] at h
  omega

theorem nameChar_host {c : Char} (h : nameChar c = true) : hostByte c.toNat = true := by
  simp only [nameChar, Bool.or_eq_true] at h
  rcases h with h | h
  · simp [hostByte, alphanum_range h]
  · rw [List.contains_iff_mem] at h
    have : ∀ c ∈ "-._~!$&'()*+,;=".toList, hostByte c.toNat = true := by decide
    exact this c h

theorem hexChar_host {c : Char} (h : hexChar c = true) : hostByte c.toNat = true := by
  rw [hexChar, List.contains_iff_mem] at h
  have : ∀ c ∈ "0123456789abcdefABCDEF".toList, hostByte c.toNat = true := by decide
  exact this c h

theorem digit_host {c : Char} (h : isDigit c = true) : hostByte c.toNat = true := by
  simp only [isDigit, Bool.and_eq_true, decide_eq_true_eq] at h
  simp only [hostByte, isAlnum, Bool.or_eq_true, Bool.and_eq_true, decide_eq_true_eq]
  omega

theorem pathChar_range {c : Char} (h : pathChar c = true) : 32 < c.toNat ∧ c.toNat < 127 := by
  simp only [pathChar, nameChar, Bool.or_eq_true] at h
  rcases h with (h | h) | h
  · have := isAlnum_range (alphanum_range h); omega
  · rw [List.contains_iff_mem] at h
    have : ∀ c ∈ "-._~!$&'()*+,;=".toList, 32 < c.toNat ∧ c.toNat < 127 := by decide
    exact this c h
  · rw [List.contains_iff_mem] at h
    have : ∀ c ∈ ":@/".toList, 32 < c.toNat ∧ c.toNat < 127 := by decide
    exact this c h

theorem queryChar_range {c : Char} (h : queryChar c = true) : 32 < c.toNat ∧ c.toNat < 127 := by
  simp only [queryChar, Bool.or_eq_true, beq_iff_eq] at h
  rcases h with h | rfl
  · exact pathChar_range h
  · decide

theorem hexChar_name {c : Char} (h : hexChar c = true) : nameChar c = true := by
  rw [hexChar, List.contains_iff_mem] at h
  have : ∀ c ∈ "0123456789abcdefABCDEF".toList, nameChar c = true := by decide
  exact this c h

theorem digit_name {c : Char} (h : isDigit c = true) : nameChar c = true := by
  simp only [isDigit, Bool.and_eq_true, decide_eq_true_eq] at h
  simp only [nameChar, Char.isAlphanum, Char.isDigit, Bool.or_eq_true, Bool.and_eq_true, decide_eq_true_eq,
    UInt32.le_iff_toNat_le]
  exact .inl (.inr h)

theorem hexChar_unhex {c : Char} (h : hexChar c = true) : ∃ n, unhex c = some n ∧ n < 16 := by
  rw [hexChar, List.contains_iff_mem] at h
  have : ∀ c ∈ "0123456789abcdefABCDEF".toList, ∃ n, unhex c = some n ∧ n < 16 := by
    intro c hc
    simp only [show "0123456789abcdefABCDEF".toList = ['0','1','2','3','4','5','6','7','8','9','a','b','c','d','e','f','A','B','C','D','E','F'] from rfl,
      List.mem_cons, List.not_mem_nil, or_false] at hc
    rcases hc with rfl | rfl | rfl | rfl | rfl | rfl | rfl | rfl | rfl | rfl | rfl | rfl | rfl | rfl | rfl | rfl | rfl | rfl | rfl | rfl | rfl | rfl <;>
      exact ⟨_, rfl, by decide⟩
  exact this c h

theorem escaped_mem {ok : Char → Bool} {s : Str} (h : Escaped ok s) {c : Char} (hc : c ∈ s) :
    ok c = true ∨ c = '%' ∨ hexChar c = true := by
  induction h with
  | nil => cases hc
  | plain h1 h2 ih =>
    rcases List.mem_cons.mp hc with rfl | hc
    · exact .inl h1
    · exact ih hc
  | escape h1 h2 h3 ih =>
    simp only [List.mem_cons] at hc
    rcases hc with rfl | rfl | rfl | hc
    · exact .inr (.inl rfl)
    · exact .inr (.inr h1)
    · exact .inr (.inr h2)
    · exact ih hc

/-! ### Percent signs -/

theorem urlUnescape_cons {mode : UrlMode} {c : Char} (h : c ≠ '%') (s : Str) :
    urlUnescape mode (c :: s) = if mode ≠ .path ∧ c.toNat < 128 ∧ hostByte c.toNat = false then none
      else (urlUnescape mode s).map (String.utf8EncodeChar c ++ ·) := by
  conv_lhs => rw [urlUnescape.eq_def]
  simp only [if_neg h]

theorem unescape_plain {mode : UrlMode} {s : Str} (h : '%' ∉ s) (hm : mode = .path ∨ ∀ c ∈ s, hostByte c.toNat = true) :
    urlUnescape mode s = some (toBytes s) := by
  induction s with
  | nil => rfl
  | cons c s ih =>
    simp only [List.mem_cons, not_or] at h
    have ih := ih h.2 (hm.imp id fun hm c hc => hm c (List.mem_cons_of_mem _ hc))
    rw [urlUnescape_cons (fun e => h.1 e.symm), if_neg, ih]
    · rfl
    · rintro ⟨h1, -, h2⟩
      rcases hm with hm | hm
      · exact h1 hm
      · rw [hm c List.mem_cons_self] at h2; cases h2

theorem unescape_ok {ok : Char → Bool} (hok : ok '%' = false) {s : Str} (h : Escaped ok s) : ∃ bs, urlUnescape .path s = some bs := by
  induction h with
  | nil => exact ⟨_, rfl⟩
  | @plain c s h1 h2 ih =>
    obtain ⟨bs, ih⟩ := ih
    rw [urlUnescape_cons (by rintro rfl; rw [hok] at h1; cases h1), if_neg (fun e => e.1 rfl), ih]
    exact ⟨_, rfl⟩
  | @escape a b s h1 h2 h3 ih =>
    obtain ⟨bs, ih⟩ := ih
    obtain ⟨x, hx, -⟩ := hexChar_unhex h1
    obtain ⟨y, hy, -⟩ := hexChar_unhex h2
    rw [urlUnescape, if_pos rfl]
    simp only [hx, hy, ih, badEscape]
    exact ⟨_, rfl⟩

/-! ### Hosts -/

/-- The host and the port, as written. -/
def hostPortText (u : HttpsUrl) : Str := u.host.text ++ u.port.elim [] (':' :: ·)

/-- The host without brackets. -/
def bareHost : UrlHost → Str
  | .name s => s
  | .ipv6 s => s

theorem port_ok {u : HttpsUrl} (h : u.ok) : validOptionalPort (u.port.elim [] (':' :: ·)) = true := by
  cases hp : u.port with
  | none => rfl
  | some p =>
    simp only [Option.elim, validOptionalPort, Bool.and_eq_true, decide_eq_true_eq, List.all_eq_true]
    exact ⟨trivial, h.port p hp⟩

theorem port_notMem {u : HttpsUrl} (h : u.ok) {c : Char} (hc : c ≠ ':') (hd : isDigit c = false) :
    c ∉ u.port.elim [] (':' :: ·) := by
  cases hp : u.port with
  | none => simp
  | some p =>
    simp only [Option.elim, List.mem_cons, not_or]
    refine ⟨hc, fun hm => ?_⟩
    rw [h.port p hp c hm] at hd
    cases hd

theorem name_notMem {s : Str} (h : ∀ c ∈ s, nameChar c = true) {c : Char} (hc : nameChar c = false) : c ∉ s := by
  intro hm
  rw [h c hm] at hc
  cases hc

theorem hostPort_mem {u : HttpsUrl} (h : u.ok) {c : Char} (hc : c ∈ hostPortText u) :
    nameChar c = true ∨ c = ':' ∨ c = '[' ∨ c = ']' := by
  unfold hostPortText at hc
  rcases List.mem_append.mp hc with hc | hc
  · have hh := h.host
    cases hu : u.host with
    | name s =>
      rw [hu] at hc hh
      exact .inl (hh.2 c hc)
    | ipv6 s =>
      rw [hu] at hc hh
      simp only [UrlHost.text, List.cons_append, List.mem_cons, List.mem_append, List.not_mem_nil, or_false] at hc
      rcases hc with hc | hc | hc
      · exact .inr (.inr (.inl hc))
      · rcases hh.2 c hc with h1 | h1 | h1
        · exact .inl (hexChar_name h1)
        · exact .inr (.inl h1)
        · exact .inl (by rw [h1]; decide)
      · exact .inr (.inr (.inr hc))
  · cases hp : u.port with
    | none => rw [hp] at hc; cases hc
    | some p =>
      rw [hp] at hc
      rcases List.mem_cons.mp hc with hc | hc
      · exact .inr (.inl hc)
      · exact .inl (digit_name (h.port p hp c hc))

theorem hostPort_notMem {u : HttpsUrl} (h : u.ok) {c : Char} (hn : nameChar c = false) (h1 : c ≠ ':') (h2 : c ≠ '[') (h3 : c ≠ ']') :
    c ∉ hostPortText u := by
  intro hc
  rcases hostPort_mem h hc with h0 | h0 | h0 | h0
  · rw [h0] at hn; cases hn
  · exact h1 h0
  · exact h2 h0
  · exact h3 h0

theorem hostPort_bytes {u : HttpsUrl} (h : u.ok) : urlUnescape .host (hostPortText u) = some (toBytes (hostPortText u)) := by
  refine unescape_plain (hostPort_notMem h (by decide) (by decide) (by decide) (by decide)) (.inr fun c hc => ?_)
  rcases hostPort_mem h hc with h0 | rfl | rfl | rfl
  · exact nameChar_host h0
  · decide
  · decide
  · decide

theorem parseHost_url {u : HttpsUrl} (h : u.ok) : parseHost (hostPortText u) = some (toBytes (hostPortText u)) := by
  have hb := hostPort_bytes h
  have hport := port_ok h
  unfold parseHost
  cases hu : u.host with
  | name s =>
    have hh := h.host
    rw [hu] at hh
    have e : hostPortText u = s ++ u.port.elim [] (':' :: ·) := by unfold hostPortText; rw [hu]; rfl
    rw [if_neg, hb]
    · cases hp : u.port with
      | none =>
        rw [hp] at e
        rw [show lastCut ':' (hostPortText u) = none from by
          rw [e]; simp only [Option.elim, List.append_nil]; exact lastCut_none (name_notMem hh.2 (by decide))]
      | some p =>
        rw [hp] at e hport
        rw [show lastCut ':' (hostPortText u) = some (s, p) from by
          rw [e]; exact lastCut_some s (name_notMem (fun c hc => digit_name (h.port p hp c hc)) (by decide))]
        simp only
        rw [if_neg]
        simp only [Option.elim] at hport
        simp [hport]
    · rw [e]
      cases s with
      | nil => exact absurd rfl hh.1
      | cons x s =>
        intro hc
        simp only [hasPrefix, List.isPrefixOf, List.cons_append, Bool.and_true, beq_iff_eq] at hc
        have := hh.2 x List.mem_cons_self
        rw [← hc] at this
        exact absurd this (by decide)
  | ipv6 s =>
    have hh := h.host
    rw [hu] at hh
    have e : hostPortText u = ('[' :: s) ++ ']' :: u.port.elim [] (':' :: ·) := by
      unfold hostPortText; rw [hu]; simp [UrlHost.text]
    rw [if_pos (by rw [e]; rfl), hb]
    rw [show lastCut ']' (hostPortText u) = some ('[' :: s, u.port.elim [] (':' :: ·)) from by
      rw [e]; exact lastCut_some _ (port_notMem h (by decide) (by decide))]
    simp only
    rw [if_neg (by simp [hport]), cutZone_none]
    simp only [List.mem_cons, not_or]
    refine ⟨by decide, fun hm => ?_⟩
    rcases hh.2 _ hm with h0 | h0 | h0
    · exact absurd h0 (by decide)
    · exact absurd h0 (by decide)
    · exact absurd h0 (by decide)

theorem splitHostPort_url {u : HttpsUrl} (h : u.ok) : splitHostPort (hostPortText u) = (bareHost u.host, u.port.getD []) := by
  have hport := port_ok h
  unfold splitHostPort
  cases hu : u.host with
  | name s =>
    have hh := h.host
    rw [hu] at hh
    have e : hostPortText u = s ++ u.port.elim [] (':' :: ·) := by unfold hostPortText; rw [hu]; rfl
    have hb : (hasPrefix ['['] s && hasSuffix [']'] s) = false := by
      cases s with
      | nil => exact absurd rfl hh.1
      | cons x s =>
        have := hh.2 x List.mem_cons_self
        have hx : ('[' == x) = false := by
          rw [beq_eq_false_iff_ne]; rintro rfl; exact absurd this (by decide)
        simp [hasPrefix, List.isPrefixOf, hx]
    cases hp : u.port with
    | none =>
      rw [hp] at e
      rw [show lastCut ':' (hostPortText u) = none from by
        rw [e]; simp only [Option.elim, List.append_nil]; exact lastCut_none (name_notMem hh.2 (by decide))]
      simp only [Option.elim, List.append_nil] at e
      simp only [e, hb]
      rfl
    | some p =>
      rw [hp] at e hport
      rw [show lastCut ':' (hostPortText u) = some (s, p) from by
        rw [e]; exact lastCut_some s (name_notMem (fun c hc => digit_name (h.port p hp c hc)) (by decide))]
      simp only [Option.elim] at hport
      simp only [hport, if_true, hb]
      rfl
  | ipv6 s =>
    have hh := h.host
    rw [hu] at hh
    have hb : (hasPrefix ['['] ('[' :: s ++ [']']) && hasSuffix [']'] ('[' :: s ++ [']'])) = true := by
      rw [Bool.and_eq_true]
      exact ⟨rfl, List.isSuffixOf_iff_suffix.mpr ⟨'[' :: s, rfl⟩⟩
    have hd : (List.drop 1 ('[' :: s ++ [']'])).dropLast = s := by simp
    cases hp : u.port with
    | none =>
      have e : hostPortText u = '[' :: s ++ [']'] := by unfold hostPortText; rw [hu, hp]; simp [UrlHost.text]
      rcases lastCut_cases ':' (hostPortText u) with ⟨h1, -⟩ | ⟨a, b, h1, h2, h3⟩
      · rw [e] at h1 ⊢
        simp only [h1, hb, hd, if_true]
        rfl
      · have h4 : ']' ∈ b := by
          rw [e] at h2
          rcases List.eq_nil_or_concat b with rfl | ⟨b', y, rfl⟩
          · have := (List.append_inj' h2 rfl).2
            exact absurd this (by decide)
          · rw [List.concat_eq_append, ← List.cons_append, ← List.append_assoc] at h2
            have := (List.append_inj' h2 rfl).2
            rw [List.concat_eq_append, ← this]
            simp
        have h5 : ¬ validOptionalPort (':' :: b) = true := by
          intro hv
          simp only [validOptionalPort, Bool.and_eq_true, List.all_eq_true] at hv
          exact absurd (hv.2 _ h4) (by decide)
        rw [e] at h1 ⊢
        simp only [h1, if_neg h5, hb, hd, if_true]
        rfl
    | some p =>
      have e : hostPortText u = ('[' :: s ++ [']']) ++ ':' :: p := by unfold hostPortText; rw [hu, hp]; rfl
      rw [hp] at hport
      rw [show lastCut ':' (hostPortText u) = some ('[' :: s ++ [']'], p) from by
        rw [e]; exact lastCut_some _ (name_notMem (fun c hc => digit_name (h.port p hp c hc)) (by decide))]
      simp only [Option.elim] at hport
      simp only [hport, if_true, hb, hd]
      rfl

/-! ### Whole URLs -/

theorem path_mem {u : HttpsUrl} (h : u.ok) {c : Char} (hc : c ∈ u.path) : pathChar c = true ∨ c = '%' := by
  rcases escaped_mem h.path.2 hc with h0 | h0 | h0
  · exact .inl h0
  · exact .inr h0
  · exact .inl (by simp [pathChar, hexChar_name h0])

theorem query_mem {q : Str} (h : Escaped queryChar q) {c : Char} (hc : c ∈ q) : queryChar c = true ∨ c = '%' := by
  rcases escaped_mem h hc with h0 | h0 | h0
  · exact .inl h0
  · exact .inr h0
  · exact .inl (by simp [queryChar, pathChar, hexChar_name h0])

theorem path_notMem {u : HttpsUrl} (h : u.ok) {c : Char} (hc : pathChar c = false) (hp : c ≠ '%') : c ∉ u.path := by
  intro hm
  rcases path_mem h hm with h0 | h0
  · rw [h0] at hc; cases hc
  · exact hp h0

theorem splitC_path {a p : Str} (ha : '/' ∉ a) (hp : p = [] ∨ p.head? = some '/') :
    ∃ o, splitC '/' (a ++ p) = (a, o) ∧ o.elim [] ('/' :: ·) = p := by
  cases p with
  | nil => exact ⟨none, by simpa using splitC_notMem ha, rfl⟩
  | cons x p =>
    rcases hp with hp | hp
    · cases hp
    · simp only [List.head?_cons, Option.some.injEq] at hp
      subst hp
      exact ⟨some p, splitC_before p ha, rfl⟩

theorem user_mem {q : Str} (h : Escaped userChar q) {c : Char} (hc : c ∈ q) : userChar c = true ∨ c = '%' := by
  rcases escaped_mem h hc with h0 | h0 | h0
  · exact .inl h0
  · exact .inr h0
  · exact .inl (by simp [userChar, hexChar_name h0])

theorem nameChar_userinfo {c : Char} (h : nameChar c = true) : userinfoChar c = true := by
  simp only [nameChar, Bool.or_eq_true] at h
  rcases h with h | h
  · simp [userinfoChar, alphanum_range h]
  · rw [List.contains_iff_mem] at h
    have : ∀ c ∈ "-._~!$&'()*+,;=".toList, userinfoChar c = true := by decide
    exact this c h

/-- How a URL is cut, whatever its host. -/
theorem parseHttps_text {u : HttpsUrl} (hport : ∀ p, u.port = some p → ∀ c ∈ p, isDigit c = true)
    (hpath : (u.path = [] ∨ u.path.head? = some '/') ∧ Escaped pathChar u.path) (hquery : ∀ q, u.query = some q → Escaped queryChar q)
    (hfragment : ∀ f, u.fragment = some f → Escaped queryChar f) (huser : ∀ x, u.user = some x → Escaped userChar x)
    (hhost : ∀ c ∈ u.host.text, nameChar c = true ∨ c ∈ ":[]%".toList) :
    ∃ bs, urlUnescape .path u.path = some bs ∧
      parseHttps u.text = (parseHost (hostPortText u)).map fun h => ⟨h, bs, u.query.getD []⟩ := by
  obtain ⟨bs, hbs⟩ := unescape_ok (by decide) hpath.2
  refine ⟨bs, hbs, ?_⟩
  have hfrag : ∃ fs, urlUnescape .path (u.fragment.getD []) = some fs := by
    cases hf : u.fragment with
    | none => exact ⟨_, rfl⟩
    | some f => exact unescape_ok (by decide) (hfragment f hf)
  obtain ⟨fs, hfs⟩ := hfrag
  have hpm : ∀ c ∈ u.path, pathChar c = true ∨ c = '%' := by
    intro c hc
    rcases escaped_mem hpath.2 hc with h0 | h0 | h0
    · exact .inl h0
    · exact .inr h0
    · exact .inl (by simp [pathChar, hexChar_name h0])
  have hhm : ∀ c ∈ hostPortText u, nameChar c = true ∨ c ∈ ":[]%".toList := by
    intro c hc
    unfold hostPortText at hc
    rcases List.mem_append.mp hc with hc | hc
    · exact hhost c hc
    · cases hp : u.port with
      | none => rw [hp] at hc; cases hc
      | some p =>
        rw [hp] at hc
        rcases List.mem_cons.mp hc with rfl | hc
        · exact .inr (by decide)
        · exact .inl (digit_name (hport p hp c hc))
  have hhn : ∀ c, nameChar c = false → c ∉ ":[]%".toList → c ∉ hostPortText u := by
    intro c h1 h2 hc
    rcases hhm c hc with h0 | h0
    · rw [h0] at h1; cases h1
    · exact h2 h0
  -- the authority
  generalize hauth : u.user.elim [] (· ++ ['@']) ++ hostPortText u = auth
  have ham : ∀ c ∈ auth, nameChar c = true ∨ c ∈ ":[]%@".toList := by
    intro c hc
    rw [← hauth] at hc
    rcases List.mem_append.mp hc with hc | hc
    · cases hx : u.user with
      | none => rw [hx] at hc; cases hc
      | some x =>
        rw [hx] at hc
        rcases List.mem_append.mp hc with hc | hc
        · rcases user_mem (huser x hx) hc with h0 | rfl
          · simp only [userChar, Bool.or_eq_true, beq_iff_eq] at h0
            rcases h0 with h0 | rfl
            · exact .inl h0
            · exact .inr (by decide)
          · exact .inr (by decide)
        · rw [List.mem_singleton.mp hc]; exact .inr (by decide)
    · exact (hhm c hc).imp id fun h => by
        have : ∀ c ∈ ":[]%".toList, c ∈ ":[]%@".toList := by decide
        exact this c h
  have han : ∀ c, nameChar c = false → c ∉ ":[]%@".toList → c ∉ auth := by
    intro c h1 h2 hc
    rcases ham c hc with h0 | h0
    · rw [h0] at h1; cases h1
    · exact h2 h0
  have h4 : parseAuthority auth = parseHost (hostPortText u) := by
    unfold parseAuthority
    cases hx : u.user with
    | none =>
      rw [hx] at hauth
      simp only [Option.elim, List.nil_append] at hauth
      rw [← hauth, lastCut_none (hhn _ (by decide) (by decide))]
    | some x =>
      rw [hx] at hauth
      simp only [Option.elim, List.append_assoc, List.cons_append, List.nil_append] at hauth
      rw [← hauth, lastCut_some _ (hhn _ (by decide) (by decide))]
      simp only
      obtain ⟨xs, hxs⟩ := unescape_ok (by decide) (huser x hx)
      have hall : x.all userinfoChar = true := by
        rw [List.all_eq_true]
        intro c hc
        rcases user_mem (huser x hx) hc with h0 | rfl
        · simp only [userChar, Bool.or_eq_true, beq_iff_eq] at h0
          rcases h0 with h0 | rfl
          · exact nameChar_userinfo h0
          · decide
        · decide
      cases hp : parseHost (hostPortText u) with
      | none => rfl
      | some y =>
        simp only [hall, hxs]
        rfl
  -- everything before the fragment
  have hmem : ∀ c ∈ "https://".toList ++ (auth ++ u.path ++ u.query.elim [] ('?' :: ·)),
      c ≠ '#' ∧ 32 < c.toNat ∧ c.toNat < 127 := by
    intro c hc
    rcases List.mem_append.mp hc with hc | hc
    · have : ∀ c ∈ "https://".toList, c ≠ '#' ∧ 32 < c.toNat ∧ c.toNat < 127 := by decide
      exact this c hc
    rcases List.mem_append.mp hc with hc | hc
    · rcases List.mem_append.mp hc with hc | hc
      · rcases ham c hc with h0 | h0
        · refine ⟨by rintro rfl; exact absurd h0 (by decide), pathChar_range (by simp [pathChar, h0])⟩
        · have : ∀ c ∈ ":[]%@".toList, c ≠ '#' ∧ 32 < c.toNat ∧ c.toNat < 127 := by decide
          exact this c h0
      · rcases hpm c hc with h0 | rfl
        · exact ⟨by rintro rfl; exact absurd h0 (by decide), pathChar_range h0⟩
        · decide
    · cases hq : u.query with
      | none => rw [hq] at hc; cases hc
      | some q =>
        rw [hq] at hc
        rcases List.mem_cons.mp hc with rfl | hc
        · decide
        · rcases query_mem (hquery q hq) hc with h0 | rfl
          · exact ⟨by rintro rfl; exact absurd h0 (by decide), queryChar_range h0⟩
          · decide
  have etext : u.text = ("https://".toList ++ (auth ++ u.path ++ u.query.elim [] ('?' :: ·))) ++
      u.fragment.elim [] ('#' :: ·) := by
    rw [← hauth]
    unfold HttpsUrl.text hostPortText
    generalize "https://".toList = x
    simp only [List.append_assoc]
  have h1 : splitC '#' u.text = ("https://".toList ++ (auth ++ u.path ++ u.query.elim [] ('?' :: ·)), u.fragment) := by
    rw [etext]; exact splitC_opt _ (fun hm => (hmem _ hm).1 rfl)
  have hctl : hasCtl ("https://".toList ++ (auth ++ u.path ++ u.query.elim [] ('?' :: ·))) = false := by
    rw [hasCtl, List.any_eq_false]
    intro c hc
    have := hmem c hc
    simp only [Bool.or_eq_true, decide_eq_true_eq]
    omega
  have h2 : splitC '?' (auth ++ u.path ++ u.query.elim [] ('?' :: ·)) = (auth ++ u.path, u.query) := by
    refine splitC_opt _ fun hm => ?_
    rcases List.mem_append.mp hm with hm | hm
    · exact han _ (by decide) (by decide) hm
    · rcases hpm _ hm with h0 | h0
      · exact absurd h0 (by decide)
      · exact absurd h0 (by decide)
  obtain ⟨o, h3, ho⟩ := splitC_path (p := u.path) (han '/' (by decide) (by decide)) hpath.1
  have hdrop : ("https://".toList ++ (auth ++ u.path ++ u.query.elim [] ('?' :: ·))).drop 8 =
      auth ++ u.path ++ u.query.elim [] ('?' :: ·) := rfl
  unfold parseHttps
  rw [h1]
  simp only [hctl, hdrop, h2, h3, ho, h4, hbs, hfs]
  cases parseHost (hostPortText u) <;> rfl

theorem parseHttps_url {u : HttpsUrl} (h : u.ok) : ∃ bs, urlUnescape .path u.path = some bs ∧
    parseHttps u.text = some ⟨toBytes (hostPortText u), bs, u.query.getD []⟩ := by
  obtain ⟨bs, h1, h2⟩ := parseHttps_text h.port h.path h.query h.fragment h.user fun c hc => by
    rcases hostPort_mem h (c := c) (List.mem_append_left _ hc) with h0 | rfl | rfl | rfl
    · exact .inl h0
    · exact .inr (by decide)
    · exact .inr (by decide)
    · exact .inr (by decide)
  rw [parseHost_url h] at h2
  exact ⟨bs, h1, h2⟩

/-- A percent sign in the name of a host that stands for an ASCII character is an error. -/
theorem unescape_host_bad {p q : Str} {a b : Char} (hp : '%' ∉ p) (ha : a ∈ "01234567".toList) (hab : ¬ (a = '2' ∧ b = '5')) :
    urlUnescape .host (p ++ '%' :: a :: b :: q) = none := by
  induction p with
  | nil =>
    rw [List.nil_append, urlUnescape, if_pos rfl]
    split
    · rename_i x y hx hy
      rw [if_pos]
      have hxy : x < 8 ∧ (x = 2 → a = '2') := by
        have : ∀ a ∈ "01234567".toList, ∀ x, unhex a = some x → x < 8 ∧ (x = 2 → a = '2') := by
          intro a ha x hx
          simp only [show "01234567".toList = ['0','1','2','3','4','5','6','7'] from rfl, List.mem_cons, List.not_mem_nil, or_false] at ha
          rcases ha with rfl | rfl | rfl | rfl | rfl | rfl | rfl | rfl <;> cases hx <;> decide
        exact this a ha x hx
      have hy5 : y = 5 → b = '5' := by
        rintro rfl
        unfold unhex at hy
        split at hy
        · have : b.toNat = 53 := by have := Option.some.inj hy; omega
          exact Char.toNat_inj.mp this
        · split at hy
          · have := Option.some.inj hy; omega
          · split at hy
            · have := Option.some.inj hy; omega
            · cases hy
      simp only [badEscape, Bool.and_eq_true, decide_eq_true_eq, Bool.not_eq_true', Bool.and_eq_false_iff, decide_eq_false_iff_not]
      refine ⟨hxy.1, ?_⟩
      by_cases h2 : x = 2
      · right
        intro h5
        exact hab ⟨hxy.2 h2, hy5 h5⟩
      · exact .inl h2
    · rfl
  | cons c p ih =>
    simp only [List.mem_cons, not_or] at hp
    rw [List.cons_append, urlUnescape_cons (fun e => hp.1 e.symm), ih hp.2]
    split <;> rfl

theorem text_https (u : HttpsUrl) : hasPrefix "https://".toList u.text = true := by
  rw [hasPrefix, List.isPrefixOf_iff_prefix]
  unfold HttpsUrl.text
  generalize "https://".toList = x
  simp only [List.append_assoc]
  exact ⟨_, rfl⟩

/-- What the Discover client is told about a URL. -/
theorem parseURL_url {net : Net} (hn : net.ParsesUrls) {u : HttpsUrl} (h : u.ok) :
    ∃ path, net.parseURL u.text = some ⟨path, hostPortText u, bareHost u.host, u.port.getD []⟩ ∧
      ∀ s, urlUnescape .path u.path = some (toBytes s) → path = s := by
  obtain ⟨bs, hbs, hp⟩ := parseHttps_url h
  have := hn u.text (text_https u)
  rw [hp] at this
  obtain ⟨path, h1, h2⟩ := this _ rfl
  refine ⟨path, ?_, fun s hs => h2 s ?_⟩
  · rw [h1, splitHostPort_url h]
  · rw [hbs] at hs; cases hs; rfl

end Ofx
