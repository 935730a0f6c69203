import Verif.Spec.Loose
import Verif.Props.Url

/-!
C104: which URLs are refused, and where the others lead.
-/
namespace Ofx.Props
open Ofx Spec

/-! ### Characters -/

theorem unhex_hexChar {c : Char} {n : Nat} (h : unhex c = some n) : hexChar c = true := by
  have hlt : c.toNat < 128 := by
    unfold unhex at h
    split at h
    · omega
    · split at h
      · omega
      · split at h
        · omega
        · cases h
  have key : ∀ n < 128, (unhex (Char.ofNat n)).isSome = true → hexChar (Char.ofNat n) = true := by decide +kernel
  have := key c.toNat hlt
  rw [Char.ofNat_toNat, h] at this
  exact this rfl

theorem userinfoChar_iff (c : Char) : userinfoChar c = true ↔ userChar c = true ∨ c = '%' ∨ c = '@' := by
  constructor
  · intro h
    have hlt : c.toNat < 128 := by
      simp only [userinfoChar, Bool.or_eq_true] at h
      rcases h with h | h
      · have := isAlnum_range h; omega
      · rw [List.contains_iff_mem] at h
        have : ∀ c ∈ "-._:~!$&'()*+,;=%@".toList, c.toNat < 128 := by decide
        exact this c h
    have key : ∀ n < 128, userinfoChar (Char.ofNat n) = true →
        userChar (Char.ofNat n) = true ∨ Char.ofNat n = '%' ∨ Char.ofNat n = '@' := by decide +kernel
    have := key c.toNat hlt
    rw [Char.ofNat_toNat] at this
    exact this h
  · rintro (h | rfl | rfl)
    · simp only [userChar, Bool.or_eq_true, beq_iff_eq] at h
      rcases h with h | rfl
      · exact nameChar_userinfo h
      · decide
    · decide
    · decide

theorem unescape_iff : (s : Str) → ((∃ bs, urlUnescape .path s = some bs) ↔ GoodEscapes s)
  | [] => ⟨fun _ => .nil, fun _ => ⟨_, rfl⟩⟩
  | c :: rest => by
    constructor
    · rintro ⟨bs, h⟩
      by_cases hc : c = '%'
      · subst hc
        match rest, h with
        | a :: b :: rest, h =>
          rw [urlUnescape, if_pos rfl] at h
          split at h
          · rename_i x y hx hy
            simp only [badEscape, Bool.false_eq_true, if_false] at h
            cases hr : urlUnescape .path rest with
            | none => rw [hr] at h; cases h
            | some bs => exact .escape (unhex_hexChar hx) (unhex_hexChar hy) ((unescape_iff rest).mp ⟨bs, hr⟩)
          · cases h
        | [_], h => cases h
        | [], h => cases h
      · rw [urlUnescape_cons hc, if_neg (by simp)] at h
        cases hr : urlUnescape .path rest with
        | none => rw [hr] at h; cases h
        | some bs => exact .plain (by simpa using hc) ((unescape_iff rest).mp ⟨bs, hr⟩)
    · exact fun h => unescape_ok (ok := fun c => c != '%') (by decide) h

/-! ### Parsing -/

theorem cut_hostOk {u : HttpsUrl} (h : u.cut) : (⟨u.host, u.port, [], none, none, none⟩ : HttpsUrl).ok :=
  ⟨h.host, h.port, ⟨.inl rfl, .nil⟩, fun _ h => (by cases h), fun _ h => (by cases h), fun _ h => (by cases h)⟩

theorem cut_hostPort {u : HttpsUrl} (h : u.cut) {c : Char} (hn : nameChar c = false) (h1 : c ∉ ":[]".toList) : c ∉ hostPortText u :=
  hostPort_notMem (cut_hostOk h) hn (by rintro rfl; exact h1 (by decide)) (by rintro rfl; exact h1 (by decide))
    (by rintro rfl; exact h1 (by decide))

/-- The authority of a URL. -/
def authorityText (u : HttpsUrl) : Str := u.user.elim [] (· ++ ['@']) ++ hostPortText u

theorem authority_notMem {u : HttpsUrl} (h : u.cut) {c : Char} (hn : nameChar c = false) (h1 : c ∉ ":[]".toList) (h2 : c ≠ '@')
    (h3 : ∀ x, u.user = some x → c ∉ x) : c ∉ authorityText u := by
  unfold authorityText
  rw [List.mem_append]
  rintro (hc | hc)
  · cases hx : u.user with
    | none => rw [hx] at hc; cases hc
    | some x =>
      rw [hx] at hc
      rcases List.mem_append.mp hc with hc | hc
      · exact h3 x hx hc
      · exact h2 (List.mem_singleton.mp hc)
  · exact cut_hostPort h hn h1 hc

/-- What precedes the fragment. -/
def beforeFragment (u : HttpsUrl) : Str := "https://".toList ++ (authorityText u ++ u.path ++ u.query.elim [] ('?' :: ·))

theorem parseHttps_cut {u : HttpsUrl} (h : u.cut) : parseHttps u.text =
    if hasCtl (beforeFragment u) then none
    else match parseAuthority (authorityText u), urlUnescape .path u.path, urlUnescape .path (u.fragment.getD []) with
      | some h, some p, some _ => some ⟨h, p, u.query.getD []⟩
      | _, _, _ => none := by
  have etext : u.text = beforeFragment u ++ u.fragment.elim [] ('#' :: ·) := by
    unfold HttpsUrl.text beforeFragment authorityText hostPortText
    generalize "https://".toList = x
    simp only [List.append_assoc]
  have ha := fun c hn h1 h2 h3 => authority_notMem (c := c) h hn h1 h2 h3
  have h1 : splitC '#' u.text = (beforeFragment u, u.fragment) := by
    rw [etext]
    refine splitC_opt _ fun hm => ?_
    unfold beforeFragment at hm
    rcases List.mem_append.mp hm with hm | hm
    · exact absurd hm (by decide)
    rcases List.mem_append.mp hm with hm | hm
    · rcases List.mem_append.mp hm with hm | hm
      · exact ha '#' (by decide) (by decide) (by decide) (fun x hx => (h.user x hx).2.2) hm
      · exact h.path.2.2 hm
    · cases hq : u.query with
      | none => rw [hq] at hm; cases hm
      | some q =>
        rw [hq] at hm
        rcases List.mem_cons.mp hm with hm | hm
        · exact absurd hm (by decide)
        · exact h.query q hq hm
  have h2 : splitC '?' (authorityText u ++ u.path ++ u.query.elim [] ('?' :: ·)) = (authorityText u ++ u.path, u.query) := by
    refine splitC_opt _ fun hm => ?_
    rcases List.mem_append.mp hm with hm | hm
    · exact ha '?' (by decide) (by decide) (by decide) (fun x hx => (h.user x hx).2.1) hm
    · exact h.path.2.1 hm
  obtain ⟨o, h3, ho⟩ := splitC_path (p := u.path)
    (ha '/' (by decide) (by decide) (by decide) (fun x hx => (h.user x hx).1)) h.path.1
  have hdrop : (beforeFragment u).drop 8 = authorityText u ++ u.path ++ u.query.elim [] ('?' :: ·) := rfl
  unfold parseHttps
  rw [h1]
  simp only [hdrop, h2, h3, ho]
  rfl

theorem hasCtl_cut {u : HttpsUrl} (h : u.cut) : hasCtl (beforeFragment u) = false ↔
    ∀ c ∈ u.user.getD [] ++ u.path ++ u.query.getD [], ¬ Control c := by
  have hc : ∀ c, Control c ↔ (decide (c.toNat < 32) || decide (c.toNat = 127)) = true := fun c => by
    simp [Control]
  unfold hasCtl
  rw [List.any_eq_false]
  constructor
  · intro h0 c hm hcc
    refine h0 c ?_ ((hc c).mp hcc)
    unfold beforeFragment authorityText
    simp only [List.mem_append] at hm ⊢
    rcases hm with (hm | hm) | hm
    · right; left; left; left
      cases hx : u.user with
      | none => rw [hx] at hm; cases hm
      | some x => rw [hx] at hm; exact List.mem_append_left _ hm
    · exact .inr (.inl (.inr hm))
    · right; right
      cases hx : u.query with
      | none => rw [hx] at hm; cases hm
      | some x => rw [hx] at hm; exact List.mem_cons_of_mem _ hm
  · intro h0 c hm hcc
    rw [← hc] at hcc
    have hno : ∀ l : Str, (∀ c ∈ l, (decide (c.toNat < 32) || decide (c.toNat = 127)) = false) → c ∉ l := fun l hl hm => by
      have := (hc c).mp hcc
      rw [hl c hm] at this
      cases this
    unfold beforeFragment authorityText at hm
    simp only [List.mem_append] at hm
    rcases hm with hm | ((hm | hm) | hm) | hm
    · exact hno _ (by decide) hm
    · cases hx : u.user with
      | none => rw [hx] at hm; cases hm
      | some x =>
        rw [hx] at hm
        rcases List.mem_append.mp hm with hm | hm
        · exact h0 c (by simp [hx, hm]) hcc
        · exact hno _ (by decide) hm
    · rcases hostPort_mem (cut_hostOk h) (c := c) hm with h1 | h1 | h1 | h1
      · have := pathChar_range (c := c) (by simp [pathChar, h1])
        rcases hcc with hcc | hcc <;> omega
      · exact hno [c] (by rw [h1]; decide) (by simp)
      · exact hno [c] (by rw [h1]; decide) (by simp)
      · exact hno [c] (by rw [h1]; decide) (by simp)
    · exact h0 c (by simp [hm]) hcc
    · cases hx : u.query with
      | none => rw [hx] at hm; cases hm
      | some x =>
        rw [hx] at hm
        rcases List.mem_cons.mp hm with hm | hm
        · exact hno ['?'] (by decide) (by simp [hm])
        · exact h0 c (by simp [hx, hm]) hcc

theorem parseAuthority_cut {u : HttpsUrl} (h : u.cut) :
    ((∀ x, u.user = some x → GoodEscapes x ∧ ∀ c ∈ x, userChar c = true ∨ c = '%' ∨ c = '@') →
      parseAuthority (authorityText u) = some (toBytes (hostPortText u))) ∧
    (¬ (∀ x, u.user = some x → GoodEscapes x ∧ ∀ c ∈ x, userChar c = true ∨ c = '%' ∨ c = '@') →
      parseAuthority (authorityText u) = none) := by
  have hp : parseHost (hostPortText u) = some (toBytes (hostPortText u)) := by
    have := parseHost_url (cut_hostOk h)
    exact this
  have hat : '@' ∉ hostPortText u := cut_hostPort h (by decide) (by decide)
  unfold parseAuthority authorityText
  cases hx : u.user with
  | none =>
    simp only [Option.elim, List.nil_append, lastCut_none hat, hp]
    exact ⟨fun _ => trivial, fun h0 => absurd (fun x hx => by cases hx) h0⟩
  | some x =>
    simp only [Option.elim, List.append_assoc, List.cons_append, List.nil_append, lastCut_some _ hat, hp]
    have h1 : (!x.all userinfoChar || (urlUnescape .path x).isNone) = false ↔
        GoodEscapes x ∧ ∀ c ∈ x, userChar c = true ∨ c = '%' ∨ c = '@' := by
      rw [← unescape_iff, Bool.or_eq_false_iff, Bool.not_eq_false', List.all_eq_true]
      simp only [userinfoChar_iff]
      constructor
      · rintro ⟨h1, h2⟩
        refine ⟨?_, h1⟩
        cases hu : urlUnescape .path x with
        | none => rw [hu] at h2; cases h2
        | some bs => exact ⟨bs, rfl⟩
      · rintro ⟨⟨bs, h2⟩, h1⟩
        rw [h2]
        exact ⟨h1, rfl⟩
    constructor
    · intro h0
      rw [if_neg (by rw [h1.mpr (h0 x rfl)]; decide)]
    · intro h0
      rw [if_pos]
      by_contra hn
      exact h0 fun y hy => by cases hy; exact h1.mp (Bool.not_eq_true _ ▸ hn)

theorem parse_tidy {u : HttpsUrl} (h : u.cut) (ht : u.tidy) : ∃ bs, urlUnescape .path u.path = some bs ∧
    parseHttps u.text = some ⟨toBytes (hostPortText u), bs, u.query.getD []⟩ := by
  obtain ⟨bs, h1⟩ := (unescape_iff _).mpr ht.path
  obtain ⟨fs, h2⟩ := (unescape_iff _).mpr ht.fragment
  refine ⟨bs, h1, ?_⟩
  rw [parseHttps_cut h, if_neg (by rw [(hasCtl_cut h).mpr ht.controls]; decide), (parseAuthority_cut h).1 ht.user, h1, h2]

theorem parse_untidy {u : HttpsUrl} (h : u.cut) (ht : ¬ u.tidy) : parseHttps u.text = none := by
  rw [parseHttps_cut h]
  by_cases hc : hasCtl (beforeFragment u) = true
  · rw [if_pos hc]
  rw [if_neg hc]
  by_cases hu : ∀ x, u.user = some x → GoodEscapes x ∧ ∀ c ∈ x, userChar c = true ∨ c = '%' ∨ c = '@'
  · cases hp : urlUnescape .path u.path with
    | none => rw [(parseAuthority_cut h).1 hu]
    | some bs =>
      cases hf : urlUnescape .path (u.fragment.getD []) with
      | none => rw [(parseAuthority_cut h).1 hu]
      | some fs =>
        exact absurd ⟨(hasCtl_cut h).mp (Bool.not_eq_true _ ▸ hc), (unescape_iff _).mp ⟨bs, hp⟩, (unescape_iff _).mp ⟨fs, hf⟩, hu⟩ ht
  · rw [(parseAuthority_cut h).2 hu]

/-! ### C104 -/

/-- C104: a URL with control characters before its fragment, with percent signs that are not followed by two hexadecimal digits,
or with other characters in a user name than are allowed, is refused before anything is sent or connected to. -/
theorem C104_refused (net : Net) (hn : net.ParsesUrls) (c : Client) (u : HttpsUrl) (hu : u.cut) (ht : ¬ u.tidy)
    (body : List UInt8) (tr : Trace) : ∃ e, c.rawRequest net u.text body tr = ((none, some e), tr) := by
  have h := hn u.text (text_https u)
  rw [parse_untidy hu ht] at h
  simp only at h
  cases c with
  | basic bc =>
    simp only [Client.rawRequest, BasicClient.rawRequest]
    rw [if_neg (by rw [text_https]; decide)]
    unfold post
    rw [h]
    exact ⟨_, rfl⟩
  | vanguard bc =>
    simp only [Client.rawRequest, vanguardRawRequest]
    rw [if_neg (by rw [text_https]; decide)]
    unfold post
    rw [h]
    exact ⟨_, rfl⟩
  | discover bc =>
    simp only [Client.rawRequest, discoverRawRequest]
    rw [if_neg (by rw [text_https]; decide)]
    unfold discoverPost
    rw [h]
    exact ⟨_, rfl⟩

theorem parseURL_tidy {net : Net} (hn : net.ParsesUrls) {u : HttpsUrl} (h : u.cut) (ht : u.tidy) :
    ∃ path, net.parseURL u.text = some ⟨path, hostPortText u, bareHost u.host, u.port.getD []⟩ := by
  obtain ⟨bs, hbs, hp⟩ := parse_tidy h ht
  have h1 := hn u.text (text_https u)
  rw [hp] at h1
  obtain ⟨path, h2, h3⟩ := h1 (hostPortText u) rfl
  rw [show hostPortText u = hostPortText (⟨u.host, u.port, [], none, none, none⟩ : HttpsUrl) from rfl,
    splitHostPort_url (cut_hostOk h)] at h2
  exact ⟨path, h2⟩

/-- C104: all others are not refused: net/http is given a request for that URL, as it is. -/
theorem C104_posted (net : Net) (hn : net.ParsesUrls) (c : Client) (hc : ∀ bc, c ≠ .discover bc) (u : HttpsUrl) (hu : u.cut) (ht : u.tidy)
    (body : List UInt8) (tr evs : Trace) (h : (c.rawRequest net u.text body tr).2 = tr ++ evs) :
    ∃ q, posts evs = [q] ∧ q.url = u.text ∧ q.body = body := by
  obtain ⟨path, h1⟩ := parseURL_tidy hn hu ht
  have key : ∀ hc hs, (post net hc u.text hs [] body tr).2 = tr ++ evs → ∃ q, posts evs = [q] ∧ q.url = u.text ∧ q.body = body := by
    intro hc hs h
    obtain ⟨evs', g1, -, -, g2⟩ := post_effect net hc u.text hs [] body tr (hasPrefix_prefix.mp (text_https u))
    rw [h] at g1
    have := List.append_cancel_left g1
    subst this
    rcases g2 with ⟨-, g3, -⟩ | ⟨-, g3⟩
    · rw [h1] at g3; cases g3
    · exact ⟨_, g3, rfl, rfl⟩
  cases c with
  | basic bc =>
    simp only [Client.rawRequest, BasicClient.rawRequest] at h
    rw [if_neg (by rw [text_https]; decide)] at h
    exact key _ _ h
  | vanguard bc =>
    simp only [Client.rawRequest, vanguardRawRequest] at h
    rw [if_neg (by rw [text_https]; decide)] at h
    exact key _ _ h
  | discover bc => exact absurd rfl (hc bc)

/-- C104: and the Discover client connects to the host and the port, whatever the user name, the path, the query and the fragment
contain: what follows the last '@' before the path. -/
theorem C104_connects (net : Net) (hn : net.ParsesUrls) (bc : BasicClient) (u : HttpsUrl) (hu : u.cut) (ht : u.tidy)
    (hp : u.port ≠ some []) (body : List UInt8) (tr evs : Trace)
    (h : ((Client.discover bc).rawRequest net u.text body tr).2 = tr ++ evs) : dialled evs = [u.address] := by
  obtain ⟨path, h1⟩ := parseURL_tidy hn hu ht
  rw [discover_dials net u.text body tr evs _ (text_https u) h1 h]
  unfold HttpsUrl.address hostPortText
  cases hport : u.port with
  | none => simp only [Option.getD, if_true, Option.elim, List.append_nil]; rfl
  | some p =>
    have : p ≠ [] := by rintro rfl; exact hp hport
    simp only [Option.getD, Option.elim, if_neg this]

/-! ### Examples -/

/-- "https://ofx.bank.com@evil.example/a b?x#y" leads to evil.example. -/
def strangeUrl : HttpsUrl := ⟨.name "evil.example".toList, none, "/a b".toList, some "x=%".toList, some "y".toList, some "a@ofx.bank.com".toList⟩

theorem strange_cut : strangeUrl.cut :=
  ⟨⟨by decide, by decide⟩, fun _ h => (by cases h), ⟨.inr rfl, by decide, by decide⟩, fun _ h => (by cases h; decide),
    fun _ h => (by cases h; decide)⟩

theorem goodEscapes_plain {s : Str} (h : '%' ∉ s) : GoodEscapes s := by
  induction s with
  | nil => exact .nil
  | cons c s ih =>
    simp only [List.mem_cons, not_or] at h
    exact .plain (by simpa using fun e => h.1 e.symm) (ih h.2)

theorem strange_tidy : strangeUrl.tidy := by
  refine ⟨?_, goodEscapes_plain (by decide), goodEscapes_plain (by decide), ?_⟩
  · unfold Control; decide
  · rintro x ⟨⟩
    exact ⟨goodEscapes_plain (by decide), by decide⟩

example (net : Net) (hn : net.ParsesUrls) (bc : BasicClient) (body : List UInt8) (evs : Trace)
    (h : ((Client.discover bc).rawRequest net "https://a@ofx.bank.com@evil.example/a b?x=%#y".toList body []).2 = evs) :
    dialled evs = ["evil.example:443".toList] :=
  C104_connects net hn bc strangeUrl strange_cut strange_tidy (by decide) body [] evs h

/-- A line break in the path, a percent sign in the user name. -/
example (net : Net) (hn : net.ParsesUrls) (c : Client) (body : List UInt8) :
    (∃ e, c.rawRequest net "https://a.b/x\r\ny".toList body [] = ((none, some e), [])) ∧
    (∃ e, c.rawRequest net "https://50%@a.b".toList body [] = ((none, some e), [])) ∧
    ∃ e, c.rawRequest net "https://a b@a.b".toList body [] = ((none, some e), []) := by
  have hh : UrlHost.ok (.name "a.b".toList) := ⟨by decide, by decide⟩
  refine ⟨C104_refused net hn c ⟨.name "a.b".toList, none, "/x\r\ny".toList, none, none, none⟩
    ⟨hh, fun _ h => (by cases h), ⟨.inr rfl, by decide, by decide⟩, fun _ h => (by cases h), fun _ h => (by cases h)⟩
    (fun h => h.controls '\r' (by decide) (by unfold Control; decide)) body [],
    C104_refused net hn c ⟨.name "a.b".toList, none, [], none, none, some "50%".toList⟩
    ⟨hh, fun _ h => (by cases h), ⟨.inl rfl, by decide, by decide⟩, fun _ h => (by cases h), fun _ h => (by cases h; decide)⟩
    (fun h => ?_) body [],
    C104_refused net hn c ⟨.name "a.b".toList, none, [], none, none, some "a b".toList⟩
    ⟨hh, fun _ h => (by cases h), ⟨.inl rfl, by decide, by decide⟩, fun _ h => (by cases h), fun _ h => (by cases h; decide)⟩
    (fun h => ?_) body []⟩
  · obtain ⟨bs, h1⟩ := (unescape_iff _).mpr (h.user _ rfl).1
    cases h1
  · exact absurd ((h.user _ rfl).2 ' ' (by decide)) (by decide)

end Ofx.Props
