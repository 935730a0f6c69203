import Verif.Lemmas.Url
import Verif.Props.Client

/-!
C98: what the Discover client asks for.  `net` parses URLs as net/url does (`Net.ParsesUrls`).
-/
namespace Ofx.Props
open Ofx Spec

/-! ### The lines of a message -/

theorem hasLines_unique {bytes : List UInt8} {l1 l2 : List Str} (h1 : HasLines bytes l1) (h2 : HasLines bytes l2) : l1 = l2 := by
  obtain ⟨a1, r1, e1⟩ := h1
  obtain ⟨a2, r2, e2⟩ := h2
  have e := congrArg utf8Decode (e1.symm.trans e2)
  rw [utf8Decode_append, utf8Decode_append] at e
  clear e1 e2
  generalize utf8Decode r1 = x1 at e
  generalize utf8Decode r2 = x2 at e
  have hcr : "\r\n".toList = ['\r', '\n'] := rfl
  rw [hcr] at e
  have key : ∀ {l : Str} {ls : List Str} {x y : Str}, l ≠ [] → '\r' ∉ l →
      (List.flatMap (fun l => l ++ ['\r', '\n']) ([] : List Str) ++ ['\r', '\n']) ++ x ≠
      (List.flatMap (fun l => l ++ ['\r', '\n']) (l :: ls) ++ ['\r', '\n']) ++ y := by
    intro l ls x y h0 hl he
    cases l with
    | nil => exact h0 rfl
    | cons c l =>
      simp only [List.flatMap_nil, List.nil_append, List.flatMap_cons, List.cons_append, List.cons.injEq] at he
      exact hl (by rw [← he.1]; exact List.mem_cons_self)
  induction l1 generalizing l2 with
  | nil =>
    cases l2 with
    | nil => rfl
    | cons l ls => exact absurd e (key (a2 l List.mem_cons_self).1 (a2 l List.mem_cons_self).2.1)
  | cons l ls ih =>
    cases l2 with
    | nil => exact absurd e.symm (key (a1 l List.mem_cons_self).1 (a1 l List.mem_cons_self).2.1)
    | cons m ms =>
      simp only [List.flatMap_cons, List.append_assoc, List.cons_append, List.nil_append] at e
      obtain ⟨h3, h4⟩ := cut_cr (a1 l List.mem_cons_self).2.1 (a2 m List.mem_cons_self).2.1 e
      simp only [List.cons.injEq, true_and] at h4
      rw [h3, ih (fun l hl => a1 l (List.mem_cons_of_mem _ hl)) (fun l hl => a2 l (List.mem_cons_of_mem _ hl))
        (by simpa only [List.append_assoc, List.cons_append, List.nil_append] using h4)]

theorem discover_hasLines (path hostname : Str) (body : List UInt8) (hp : '\r' ∉ path ∧ '\n' ∉ path)
    (hh : '\r' ∉ hostname ∧ '\n' ∉ hostname) :
    HasLines (toBytes (discoverHeaders path hostname body.length) ++ body) (discoverLines path hostname body.length) := by
  refine ⟨?_, body, by rw [discoverHeaders_lines]⟩
  have hd := natStr_digits body.length
  have hno : ∀ c : Char, isDigit c = false → c ∉ natStr body.length := by
    intro c hc hm
    rw [hd c hm] at hc
    cases hc
  intro l hl
  simp only [discoverLines, List.mem_cons, List.not_mem_nil, or_false] at hl
  rcases hl with rfl | rfl | rfl | rfl | rfl
  · refine ⟨by simp, ?_, ?_⟩ <;> simp only [List.mem_append, not_or]
    · exact ⟨⟨by decide, hp.1⟩, by decide⟩
    · exact ⟨⟨by decide, hp.2⟩, by decide⟩
  · decide
  · refine ⟨by simp, ?_, ?_⟩ <;> simp only [List.mem_append, not_or]
    · exact ⟨by decide, hh.1⟩
    · exact ⟨by decide, hh.2⟩
  · refine ⟨by simp, ?_, ?_⟩ <;> simp only [List.mem_append, not_or]
    · exact ⟨by decide, hno _ (by decide)⟩
    · exact ⟨by decide, hno _ (by decide)⟩
  · decide

theorem discover_hostLine (hostname : Str) (n : Nat) :
    (["Content-Type: application/x-ofx".toList, "Host: ".toList ++ hostname, "Content-Length: ".toList ++ natStr n,
      "Connection: Keep-Alive".toList]).filter (fun l => "Host:".toList.isPrefixOf l) = ["Host: ".toList ++ hostname] := by
  have h1 : "Host:".toList.isPrefixOf "Content-Type: application/x-ofx".toList = false := by decide
  have h2 : "Host:".toList.isPrefixOf ("Host: ".toList ++ hostname) = true := by
    rw [List.isPrefixOf_iff_prefix]; exact ⟨' ' :: hostname, rfl⟩
  have h3 : "Host:".toList.isPrefixOf ("Content-Length: ".toList ++ natStr n) = false := rfl
  have h4 : "Host:".toList.isPrefixOf "Connection: Keep-Alive".toList = false := by decide
  simp only [List.filter_cons, h1, h2, h3, h4, List.filter_nil]
  rfl

/-- A message of the Discover client posts to a URL only if it has the right first line and names
the right host. -/
theorem discover_postsTo (u : HttpsUrl) (path hostname : Str) (body : List UInt8) (hp : '\r' ∉ path ∧ '\n' ∉ path)
    (hh : '\r' ∉ hostname ∧ '\n' ∉ hostname) :
    PostsTo u (toBytes (discoverHeaders path hostname body.length) ++ body) ↔ path = u.target ∧ hostname = u.hostField := by
  have hl := discover_hasLines path hostname body hp hh
  constructor
  · rintro ⟨lines, h1, h2⟩
    have := hasLines_unique hl h1
    unfold discoverLines at this
    injection this with e1 e2
    subst e2
    rw [discover_hostLine] at h2
    injection h2 with h2 _
    refine ⟨?_, List.append_cancel_left h2⟩
    simp only [List.append_assoc] at e1
    exact List.append_cancel_right (List.append_cancel_left e1)
  · rintro ⟨rfl, rfl⟩
    exact ⟨_, hl, discover_hostLine _ _⟩

/-! ### What the Discover client does with a URL -/

theorem discover_dials (net : Net) (url : Str) (body : List UInt8) (tr evs : Trace) (u : UrlParts)
    (hs : hasPrefix "https://".toList url = true) (hu : net.parseURL url = some u)
    (h : (discoverRawRequest net url body tr).2 = tr ++ evs) :
    dialled evs = [if u.port = [] then u.host ++ ":443".toList else u.host] := by
  unfold discoverRawRequest at h
  rw [if_neg (by simpa using hs)] at h
  unfold discoverPost at h
  rw [hu] at h
  simp only at h
  generalize (if u.port = [] then u.host ++ ":443".toList else u.host) = host at h ⊢
  cases hc : net.dial tr host with
  | none =>
    rw [hc] at h
    simp only at h
    rw [← List.append_cancel_left h]
    rfl
  | some conn =>
    rw [hc] at h
    simp only at h
    generalize conn.transmits _ = w at h
    generalize (toBytes (discoverHeaders (if u.path = [] then ['/'] else u.path) u.hostname body.length)).length + body.length = n at h
    by_cases hb : body ≠ [] ∧ w.length < n
    · rw [if_pos hb] at h
      simp only at h
      rw [← List.append_cancel_left h]
      rfl
    · rw [if_neg hb] at h
      cases ha : conn.answer w with
      | none =>
        rw [ha] at h
        simp only at h
        rw [← List.append_cancel_left h]
        rfl
      | some r =>
        rw [ha] at h
        simp only at h
        split at h <;> simp only [List.append_assoc] at h <;> rw [← List.append_cancel_left h] <;> rfl

theorem discover_writes (net : Net) (url : Str) (body : List UInt8) (tr evs : Trace) (u : UrlParts)
    (hu : net.parseURL url = some u) (h : (discoverRawRequest net url body tr).2 = tr ++ evs) :
    let full := toBytes (discoverHeaders (if u.path = [] then ['/'] else u.path) u.hostname body.length) ++ body
    (written evs = [] ∧ responses evs = []) ∨ ∃ w, written evs = [w] ∧ w <+: full ∧ (responses evs ≠ [] → body ≠ [] → w = full) := by
  simp only
  rcases discover_cases net url body tr with ⟨e, h2⟩ | ⟨u', host, h1, -, h2⟩
  · rw [h2] at h
    have := List.append_right_eq_self.mp h.symm
    subst this
    exact .inl ⟨rfl, rfl⟩
  rw [hu] at h1
  cases h1
  rcases h2 with ⟨e, h2⟩ | ⟨w, hw, h2⟩
  · rw [h2] at h
    rw [← List.append_cancel_left h]
    exact .inl ⟨rfl, rfl⟩
  right
  refine ⟨w, ?_, hw, ?_⟩
  · rcases h2 with ⟨e, h2⟩ | ⟨resp, -, -, h2, -⟩ <;> rw [h2] at h <;> rw [← List.append_cancel_left h] <;> rfl
  · intro hr hb
    rcases h2 with ⟨e, h2⟩ | ⟨resp, -, h3, -⟩
    · rw [h2] at h
      rw [← List.append_cancel_left h] at hr
      exact absurd rfl hr
    · exact h3 hb

/-! ### C98 -/

/-- C98: the Discover client makes one connection, to the host and the port of the URL, 443 if it
has none.  Full statement: for every URL.  A URL with a colon and no port after it is
misread (`C98_empty_port`). -/
theorem C98_connects_partial (net : Net) (hn : net.ParsesUrls) (bc : BasicClient) (u : HttpsUrl) (hu : u.ok)
    (hp : u.port ≠ some []) (body : List UInt8) (tr evs : Trace)
    (h : ((Client.discover bc).rawRequest net u.text body tr).2 = tr ++ evs) :
    dialled evs = [u.address] := by
  obtain ⟨path, h1, -⟩ := parseURL_url hn hu
  rw [discover_dials net u.text body tr evs _ (text_https u) h1 h]
  unfold HttpsUrl.address hostPortText
  cases hport : u.port with
  | none => simp only [Option.getD, if_true, Option.elim, List.append_nil]; rfl
  | some p =>
    have : p ≠ [] := by rintro rfl; exact hp hport
    simp only [Option.getD, Option.elim, if_neg this]

theorem bare_noBreak {u : HttpsUrl} (hu : u.ok) : '\r' ∉ bareHost u.host ∧ '\n' ∉ bareHost u.host := by
  have hh := hu.host
  cases he : u.host with
  | name s =>
    rw [he] at hh
    exact ⟨name_notMem hh.2 (by decide), name_notMem hh.2 (by decide)⟩
  | ipv6 s =>
    rw [he] at hh
    have : ∀ c, hexChar c = false → c ≠ ':' → c ≠ '.' → c ∉ s := by
      intro c h1 h2 h3 hm
      rcases hh.2 c hm with h | h | h
      · rw [h] at h1; cases h1
      · exact h2 h
      · exact h3 h
    exact ⟨this _ (by decide) (by decide) (by decide), this _ (by decide) (by decide) (by decide)⟩

/-- What is said about a call: at most one message is written; it begins as `full` does and is all
of `full` if a response was read. -/
def WritesOne (evs : Trace) (body full : List UInt8) : Prop :=
  (written evs = [] ∧ responses evs = []) ∨ ∃ w, written evs = [w] ∧ w <+: full ∧ (responses evs ≠ [] → body ≠ [] → w = full)

/-- C98: the Discover client posts the body to the URL.  Full statement: for every URL.  False of URLs with
a query (`C98_query_lost`), with percent signs in the path (`C98_space`, `C98_question`), with a port that is
not 443 (`C98_port_unsaid`) or with an IPv6 address (`C98_brackets`). -/
theorem C98_asks_partial (net : Net) (hn : net.ParsesUrls) (bc : BasicClient) (u : HttpsUrl) (hu : u.ok)
    (hh : ∃ s, u.host = .name s) (hport : u.port = none ∨ u.port = some "443".toList) (hpath : '%' ∉ u.path)
    (hq : u.query = none) (body : List UInt8) (tr evs : Trace)
    (h : ((Client.discover bc).rawRequest net u.text body tr).2 = tr ++ evs) :
    ∃ full, WritesOne evs body full ∧ PostsTo u full ∧ Framed full body := by
  obtain ⟨path, h1, h2⟩ := parseURL_url hn hu
  have := h2 u.path (unescape_plain hpath (.inl rfl))
  subst this
  obtain ⟨s, hh⟩ := hh
  have hbreak : '\r' ∉ (if u.path = [] then ['/'] else u.path) ∧ '\n' ∉ (if u.path = [] then ['/'] else u.path) := by
    by_cases h0 : u.path = []
    · rw [if_pos h0]; decide
    · rw [if_neg h0]; exact ⟨path_notMem hu (by decide) (by decide), path_notMem hu (by decide) (by decide)⟩
  refine ⟨_, discover_writes net u.text body tr evs _ h1 h, ?_, discover_framed _ _ body hbreak (bare_noBreak hu)⟩
  rw [discover_postsTo u _ _ body hbreak (bare_noBreak hu)]
  constructor
  · simp only [HttpsUrl.target, hq, Option.elim, List.append_nil]
  · unfold HttpsUrl.hostField
    rw [hh]
    rw [if_pos]
    · simp only [bareHost, UrlHost.text, List.append_nil]
    · rcases hport with h0 | h0
      · left; rw [h0]; rfl
      · exact .inr h0

/-- C98: a Discover client that GetClient chose for a URL either refuses it or connects to
ofx.discovercard.com:443 and posts the body to the URL, correctly framed. -/
theorem C98_discover (net : Net) (hn : net.ParsesUrls) (bc : BasicClient) (url : Str)
    (hc : getClient url bc = .discover bc) (body : List UInt8) (tr evs : Trace)
    (h : ((getClient url bc).rawRequest net url body tr).2 = tr ++ evs) :
    evs = [] ∨ dialled evs = ["ofx.discovercard.com:443".toList] ∧
      ∃ u : HttpsUrl, u.text = url ∧ ∃ full, WritesOne evs body full ∧ PostsTo u full ∧ Framed full body := by
  obtain ⟨a, b, hab⟩ := (C44_getClient url bc).1.mp hc
  rw [hc] at h
  cases a with
  | succ a =>
    left
    simp only [Client.rawRequest, discoverRawRequest] at h
    rw [if_pos] at h
    · exact List.append_right_eq_self.mp h.symm
    · rw [hab]
      rfl
  | zero =>
    right
    let u : HttpsUrl := ⟨.name "ofx.discovercard.com".toList, none, List.replicate b '/', none, none, none⟩
    have htext : u.text = url := by
      rw [hab]
      unfold HttpsUrl.text
      simp only [u, UrlHost.text, Option.elim, List.append_nil, List.replicate_zero, List.nil_append]
      rfl
    have hmem : ∀ c ∈ List.replicate b '/', c = '/' := fun c hc => (List.mem_replicate.mp hc).2
    have hesc : ∀ n, Escaped pathChar (List.replicate n '/') := by
      intro n
      induction n with
      | zero => exact .nil
      | succ n ih => exact .plain (by decide) ih
    have hu : u.ok := by
      refine ⟨⟨by decide, by decide⟩, fun p hp => (by cases hp), ⟨?_, hesc b⟩, fun p hp => (by cases hp), fun p hp => (by cases hp), fun p hp => (by cases hp)⟩
      cases b with
      | zero => exact .inl rfl
      | succ b => exact .inr rfl
    rw [← htext] at h
    constructor
    · rw [C98_connects_partial net hn bc u hu (by simp [u]) body tr evs h]
      rfl
    · exact ⟨u, htext, C98_asks_partial net hn bc u hu ⟨_, rfl⟩ (.inl rfl)
        (fun hm => absurd (hmem _ hm) (by decide)) rfl body tr evs h⟩

/-! ### URLs that are misread -/

/-- C98 fails: the query of a URL is not sent.  Whatever it is, everything happens as if it were not
there. -/
theorem C98_query_lost (net : Net) (hn : net.ParsesUrls) (bc : BasicClient) (u : HttpsUrl) (hu : u.ok) (hpath : '%' ∉ u.path)
    (body : List UInt8) (tr : Trace) :
    (Client.discover bc).rawRequest net u.text body tr =
      (Client.discover bc).rawRequest net { u with query := none }.text body tr := by
  have hu' : ({ u with query := none } : HttpsUrl).ok := ⟨hu.host, hu.port, hu.path, fun q hq => (by cases hq), hu.fragment, hu.user⟩
  obtain ⟨p1, h1, h2⟩ := parseURL_url hn hu
  obtain ⟨p2, h3, h4⟩ := parseURL_url hn hu'
  rw [h2 u.path (unescape_plain hpath (.inl rfl))] at h1
  rw [h4 u.path (unescape_plain hpath (.inl rfl))] at h3
  simp only [Client.rawRequest, discoverRawRequest]
  rw [if_neg (by rw [text_https]; decide), if_neg (by rw [text_https]; decide)]
  unfold discoverPost
  rw [h1, h3]
  rfl

/-- What is written in full is not a post to the URL. -/
theorem not_posts {net : Net} (hn : net.ParsesUrls) {bc : BasicClient} {u : HttpsUrl} (hu : u.ok) {path : Str}
    (hpath : urlUnescape .path u.path = some (toBytes path)) (hb : '\r' ∉ path ∧ '\n' ∉ path)
    (hne : (if path = [] then ['/'] else path) ≠ u.target ∨ bareHost u.host ≠ u.hostField)
    {body : List UInt8} {tr evs : Trace} (h : ((Client.discover bc).rawRequest net u.text body tr).2 = tr ++ evs)
    (hr : responses evs ≠ []) (hbody : body ≠ []) : ∀ w ∈ written evs, ¬ PostsTo u w := by
  obtain ⟨p, h1, h2⟩ := parseURL_url hn hu
  have := h2 path hpath
  subst this
  intro w hw hpost
  rcases discover_writes net u.text body tr evs _ h1 h with ⟨h3, -⟩ | ⟨w', h3, -, h4⟩
  · rw [h3] at hw; cases hw
  rw [h3, List.mem_singleton] at hw
  subst hw
  rw [h4 hr hbody] at hpost
  have hbreak : '\r' ∉ (if p = [] then ['/'] else p) ∧ '\n' ∉ (if p = [] then ['/'] else p) := by
    by_cases h0 : p = []
    · rw [if_pos h0]; decide
    · rw [if_neg h0]; exact hb
  rw [discover_postsTo u _ _ body hbreak (bare_noBreak hu)] at hpost
  rcases hne with hne | hne
  · exact hne hpost.1
  · exact hne hpost.2

/-- C98 fails: a port other than 443 is not named in the Host line, so that a message that was written and
answered is not a post to the URL. -/
theorem C98_port_unsaid (net : Net) (hn : net.ParsesUrls) (bc : BasicClient) (u : HttpsUrl) (hu : u.ok) (hpath : '%' ∉ u.path)
    (p : Str) (hp : u.port = some p) (hp0 : p ≠ []) (hp443 : p ≠ "443".toList) (body : List UInt8) (hbody : body ≠ [])
    (tr evs : Trace) (h : ((Client.discover bc).rawRequest net u.text body tr).2 = tr ++ evs) (hr : responses evs ≠ []) :
    ∀ w ∈ written evs, ¬ PostsTo u w := by
  refine not_posts hn hu (unescape_plain hpath (.inl rfl))
    ⟨path_notMem hu (by decide) (by decide), path_notMem hu (by decide) (by decide)⟩ (.inr fun he => ?_) h hr hbody
  unfold HttpsUrl.hostField at he
  rw [hp] at he
  rw [if_neg (by simp only [Option.getD, Option.some.injEq, not_or]; exact ⟨hp0, hp443⟩)] at he
  have hl := congrArg List.length he
  cases hh : u.host with
  | name s => rw [hh] at hl; simp [bareHost, UrlHost.text] at hl
  | ipv6 s => rw [hh] at hl; simp [bareHost, UrlHost.text] at hl; omega

/-- C98 fails: the brackets around an IPv6 address are left out of the Host line. -/
theorem C98_brackets (net : Net) (hn : net.ParsesUrls) (bc : BasicClient) (u : HttpsUrl) (hu : u.ok) (hpath : '%' ∉ u.path)
    (s : Str) (hs : u.host = .ipv6 s) (body : List UInt8) (hbody : body ≠ [])
    (tr evs : Trace) (h : ((Client.discover bc).rawRequest net u.text body tr).2 = tr ++ evs) (hr : responses evs ≠ []) :
    ∀ w ∈ written evs, ¬ PostsTo u w := by
  refine not_posts hn hu (unescape_plain hpath (.inl rfl))
    ⟨path_notMem hu (by decide) (by decide), path_notMem hu (by decide) (by decide)⟩ (.inr fun he => ?_) h hr hbody
  unfold HttpsUrl.hostField at he
  have hl := congrArg List.length he
  rw [hs] at hl
  simp only [bareHost, UrlHost.text, List.length_append, List.length_cons, List.length_nil] at hl
  omega

theorem unescape_append {p q : Str} (h : '%' ∉ p) {bs : List UInt8} (hq : urlUnescape .path q = some bs) :
    urlUnescape .path (p ++ q) = some (toBytes p ++ bs) := by
  induction p with
  | nil => exact hq
  | cons c p ih =>
    simp only [List.mem_cons, not_or] at h
    rw [List.cons_append, urlUnescape_cons (fun e => h.1 e.symm), if_neg (fun e => e.1 rfl), ih h.2]
    simp [toBytes, List.append_assoc]

/-- C98 fails: an escaped space is sent as a space, which ends what is asked for. -/
theorem C98_space (net : Net) (hn : net.ParsesUrls) (bc : BasicClient) (u : HttpsUrl) (hu : u.ok) (p q : Str)
    (hpath : u.path = p ++ "%20".toList ++ q) (hp : '%' ∉ p) (hq : '%' ∉ q) (body : List UInt8) (hbody : body ≠ [])
    (tr evs : Trace) (h : ((Client.discover bc).rawRequest net u.text body tr).2 = tr ++ evs) (hr : responses evs ≠ []) :
    ∀ w ∈ written evs, ¬ PostsTo u w ∧ ∃ rest, w = toBytes ("POST ".toList ++ p ++ " ".toList ++ q ++ " HTTP/1.1\r\n".toList) ++ rest := by
  have hun : urlUnescape .path u.path = some (toBytes (p ++ ' ' :: q)) := by
    rw [hpath, List.append_assoc, toBytes_append]
    refine unescape_append hp ?_
    show urlUnescape .path ('%' :: '2' :: '0' :: q) = _
    rw [urlUnescape, if_pos rfl]
    simp only [show unhex '2' = some 2 from rfl, show unhex '0' = some 0 from rfl, badEscape, unescape_plain hq (.inl rfl)]
    rfl
  have hmem : ∀ c, c ∈ p ∨ c ∈ q → c ∈ u.path := by
    intro c hc
    rw [hpath]
    rcases hc with hc | hc <;> simp [hc]
  have hb : '\r' ∉ p ++ ' ' :: q ∧ '\n' ∉ p ++ ' ' :: q := by
    have : ∀ c, pathChar c = false → c ≠ '%' → c ≠ ' ' → c ∉ p ++ ' ' :: q := by
      intro c h1 h2 h3 hm
      rcases List.mem_append.mp hm with hm | hm
      · exact path_notMem hu h1 h2 (hmem c (.inl hm))
      · rcases List.mem_cons.mp hm with hm | hm
        · exact h3 hm
        · exact path_notMem hu h1 h2 (hmem c (.inr hm))
    exact ⟨this _ (by decide) (by decide) (by decide), this _ (by decide) (by decide) (by decide)⟩
  have hne : p ++ ' ' :: q ≠ [] := by simp
  intro w hw
  refine ⟨not_posts hn hu hun hb (.inl ?_) h hr hbody w hw, ?_⟩
  · rw [if_neg hne]
    intro he
    have h1 : ' ' ∈ u.target := by rw [← he]; simp
    unfold HttpsUrl.target at h1
    rcases List.mem_append.mp h1 with h1 | h1
    · split at h1
      · exact absurd h1 (by decide)
      · exact path_notMem hu (by decide) (by decide) h1
    · cases hqu : u.query with
      | none => rw [hqu] at h1; cases h1
      | some x =>
        rw [hqu] at h1
        rcases List.mem_cons.mp h1 with h1 | h1
        · exact absurd h1 (by decide)
        · rcases query_mem (hu.query x hqu) h1 with h2 | h2
          · exact absurd h2 (by decide)
          · exact absurd h2 (by decide)
  · obtain ⟨p', h1, h2⟩ := parseURL_url hn hu
    have := h2 _ hun
    subst this
    rcases discover_writes net u.text body tr evs _ h1 h with ⟨h3, -⟩ | ⟨w', h3, -, h4⟩
    · rw [h3] at hw; cases hw
    rw [h3, List.mem_singleton] at hw
    subst hw
    rw [h4 hr hbody]
    simp only
    rw [if_neg hne]
    refine ⟨toBytes ("Content-Type: application/x-ofx\r\nHost: ".toList ++ bareHost u.host ++ "\r\nContent-Length: ".toList ++
      natStr body.length ++ "\r\nConnection: Keep-Alive\r\n\r\n".toList) ++ body, ?_⟩
    rw [← List.append_assoc, ← toBytes_append]
    congr 2
    unfold discoverHeaders
    have e1 : " HTTP/1.1\r\nContent-Type: application/x-ofx\r\nHost: ".toList =
      " HTTP/1.1\r\n".toList ++ "Content-Type: application/x-ofx\r\nHost: ".toList := by decide
    rw [e1]
    simp only [List.append_assoc, List.cons_append, List.nil_append, show " ".toList = [' '] from rfl]

/-- C98 fails: an escaped question mark is sent as one, so that another path, with a query, is
asked for. -/
theorem C98_question (net : Net) (hn : net.ParsesUrls) (bc : BasicClient) (s p q : Str) (user : Option Str)
    (body : List UInt8) (tr evs : Trace) (hu : (⟨.name s, none, p ++ "%3F".toList ++ q, none, none, user⟩ : HttpsUrl).ok) (hp : '%' ∉ p) (hq : '%' ∉ q) (hp0 : p ≠ [])
    (h : ((Client.discover bc).rawRequest net
      (⟨.name s, none, p ++ "%3F".toList ++ q, none, none, user⟩ : HttpsUrl).text body tr).2 = tr ++ evs) :
    ∃ full, WritesOne evs body full ∧ PostsTo ⟨.name s, none, p, some q, none, user⟩ full := by
  have hun : urlUnescape .path (p ++ "%3F".toList ++ q) = some (toBytes (p ++ '?' :: q)) := by
    rw [List.append_assoc, toBytes_append]
    refine unescape_append hp ?_
    show urlUnescape .path ('%' :: '3' :: 'F' :: q) = _
    rw [urlUnescape, if_pos rfl]
    simp only [show unhex '3' = some 3 from rfl, show unhex 'F' = some 15 from rfl, badEscape, unescape_plain hq (.inl rfl)]
    rfl
  have hmem : ∀ c, c ∈ p ∨ c ∈ q → c ∈ p ++ "%3F".toList ++ q := by
    intro c hc
    rcases hc with hc | hc <;> simp [hc]
  have hb : '\r' ∉ p ++ '?' :: q ∧ '\n' ∉ p ++ '?' :: q := by
    have : ∀ c, pathChar c = false → c ≠ '%' → c ≠ '?' → c ∉ p ++ '?' :: q := by
      intro c h1 h2 h3 hm
      rcases List.mem_append.mp hm with hm | hm
      · exact path_notMem hu h1 h2 (hmem c (.inl hm))
      · rcases List.mem_cons.mp hm with hm | hm
        · exact h3 hm
        · exact path_notMem hu h1 h2 (hmem c (.inr hm))
    exact ⟨this _ (by decide) (by decide) (by decide), this _ (by decide) (by decide) (by decide)⟩
  obtain ⟨p', h1, h2⟩ := parseURL_url hn hu
  have := h2 _ hun
  subst this
  refine ⟨_, discover_writes net _ body tr evs _ h1 h, ?_⟩
  simp only
  rw [if_neg (by simp)]
  rw [discover_postsTo _ _ _ body hb (bare_noBreak hu)]
  constructor
  · simp only [HttpsUrl.target, if_neg hp0, Option.elim]
  · simp [HttpsUrl.hostField, bareHost, UrlHost.text]

/-- C98 fails: a URL with a colon and no port makes the client connect to an address that is none. -/
theorem C98_empty_port (net : Net) (hn : net.ParsesUrls) (bc : BasicClient) (u : HttpsUrl) (hu : u.ok)
    (hp : u.port = some []) (body : List UInt8) (tr evs : Trace)
    (h : ((Client.discover bc).rawRequest net u.text body tr).2 = tr ++ evs) :
    dialled evs = [u.host.text ++ "::443".toList] ∧ dialled evs ≠ [u.address] := by
  obtain ⟨path, h1, -⟩ := parseURL_url hn hu
  have hd : dialled evs = [u.host.text ++ "::443".toList] := by
    rw [discover_dials net u.text body tr evs _ (text_https u) h1 h]
    unfold hostPortText
    rw [hp]
    simp only [Option.getD, if_true, Option.elim, List.append_assoc]
    rfl
  refine ⟨hd, ?_⟩
  rw [hd]
  unfold HttpsUrl.address
  rw [hp]
  simp only [Option.getD, if_true]
  intro he
  injection he with he _
  have := List.append_cancel_left he
  exact absurd this (by decide)

/-- C98: a URL whose host has an escaped ASCII character (other than a percent sign) is refused, and nothing is
connected to. -/
theorem C98_host_refused (net : Net) (hn : net.ParsesUrls) (bc : BasicClient) (u : HttpsUrl) (p q : Str) (a b : Char)
    (hs : u.host = .name (p ++ '%' :: a :: b :: q)) (hesc : Escaped nameChar (p ++ '%' :: a :: b :: q)) (hp : '%' ∉ p)
    (ha : a ∈ "01234567".toList) (hab : ¬ (a = '2' ∧ b = '5'))
    (hu : ({ u with host := .name "h".toList } : HttpsUrl).ok) (body : List UInt8) (tr : Trace) :
    ∃ e, (Client.discover bc).rawRequest net u.text body tr = ((none, some e), tr) := by
  have hhost : ∀ c ∈ u.host.text, nameChar c = true ∨ c ∈ ":[]%".toList := by
    intro c hc
    rw [hs] at hc
    rcases escaped_mem hesc hc with h0 | rfl | h0
    · exact .inl h0
    · exact .inr (by decide)
    · exact .inl (hexChar_name h0)
  obtain ⟨bs, -, h1⟩ := parseHttps_text (u := u) hu.port hu.path hu.query hu.fragment hu.user hhost
  have hbad : urlUnescape .host (hostPortText u) = none := by
    unfold hostPortText
    rw [hs]
    simp only [UrlHost.text, List.append_assoc, List.cons_append]
    exact unescape_host_bad hp ha hab
  have hparse : parseHost (hostPortText u) = none := by
    have hb : hasPrefix ['['] (hostPortText u) = false := by
      unfold hostPortText
      rw [hs]
      cases p with
      | nil => rfl
      | cons x p =>
        have hx : nameChar x = true := by
          rcases escaped_mem hesc (c := x) (by simp) with h0 | h0 | h0
          · exact h0
          · exact absurd h0 (by rintro rfl; exact hp List.mem_cons_self)
          · exact hexChar_name h0
        have hx' : ('[' == x) = false := by
          rw [beq_eq_false_iff_ne]; rintro rfl; exact absurd hx (by decide)
        simp [hasPrefix, UrlHost.text, List.isPrefixOf, hx']
    unfold parseHost
    rw [if_neg (by rw [hb]; decide), hbad]
    split
    · rfl
    · split <;> rfl
  have h2 := hn u.text (text_https u)
  rw [h1, hparse] at h2
  simp only [Option.map_none] at h2
  simp only [Client.rawRequest, discoverRawRequest]
  rw [if_neg (by rw [text_https]; decide)]
  unfold discoverPost
  rw [h2]
  exact ⟨_, rfl⟩

example : Escaped nameChar ("e".toList ++ '%' :: '4' :: 'F' :: ".com".toList) :=
  .plain (by decide) (.escape (by decide) (by decide) (.plain (by decide) (.plain (by decide) (.plain (by decide) (.plain (by decide) .nil)))))

/-! ### C48 again -/

/-- Percent signs stand for ASCII characters, but not for CR or LF. -/
def NoBreaks (s : Str) : Prop :=
  ∀ p a b q, s = p ++ '%' :: a :: b :: q → a ∈ "01234567".toList ∧ ¬ (a = '0' ∧ b ∈ "aAdD".toList)

theorem unescape_noBreaks {s : Str} (h : Escaped pathChar s) (hs : NoBreaks s) :
    ∃ t, urlUnescape .path s = some (toBytes t) ∧ '\r' ∉ t ∧ '\n' ∉ t := by
  induction h with
  | nil => exact ⟨[], rfl, by simp, by simp⟩
  | @plain c s h1 h2 ih =>
    obtain ⟨t, e, h3, h4⟩ := ih (fun p a b q he => hs (c :: p) a b q (by rw [he]; rfl))
    have hc : c ≠ '%' := by rintro rfl; exact absurd h1 (by decide)
    have hr := pathChar_range h1
    refine ⟨c :: t, ?_, ?_, ?_⟩
    · rw [urlUnescape_cons hc, if_neg (fun e => e.1 rfl), e]; rfl
    · simp only [List.mem_cons, not_or]
      exact ⟨by rintro rfl; exact absurd hr (by decide), h3⟩
    · simp only [List.mem_cons, not_or]
      exact ⟨by rintro rfl; exact absurd hr (by decide), h4⟩
  | @escape a b s h1 h2 h3 ih =>
    obtain ⟨t, e, h4, h5⟩ := ih (fun p a' b' q he => hs ('%' :: a :: b :: p) a' b' q (by rw [he]; rfl))
    obtain ⟨ha, hab⟩ := hs [] a b s rfl
    have hall : ∀ a ∈ "01234567".toList, ∀ b ∈ "0123456789abcdefABCDEF".toList, ¬ (a = '0' ∧ b ∈ "aAdD".toList) →
        ((unhex a).isSome && (unhex b).isSome &&
          ([UInt8.ofNat (16 * (unhex a).getD 0 + (unhex b).getD 0)] == String.utf8EncodeChar (Char.ofNat (16 * (unhex a).getD 0 + (unhex b).getD 0))) &&
          (Char.ofNat (16 * (unhex a).getD 0 + (unhex b).getD 0) != '\r') && (Char.ofNat (16 * (unhex a).getD 0 + (unhex b).getD 0) != '\n')) = true := by
      decide
    rw [hexChar, List.contains_iff_mem] at h2
    have hx := hall a ha b h2 hab
    simp only [Bool.and_eq_true, Option.isSome_iff_exists, beq_iff_eq, bne_iff_ne] at hx
    obtain ⟨⟨⟨⟨⟨x, hx⟩, ⟨y, hy⟩⟩, h6⟩, h7⟩, h8⟩ := hx
    simp only [hx, hy, Option.getD] at h6 h7 h8
    refine ⟨Char.ofNat (16 * x + y) :: t, ?_, ?_, ?_⟩
    · rw [urlUnescape, if_pos rfl]
      simp only [hx, hy, badEscape, e]
      show some (UInt8.ofNat (16 * x + y) :: toBytes t) = some (String.utf8EncodeChar (Char.ofNat (16 * x + y)) ++ toBytes t)
      rw [← h6]
      rfl
    · simp only [List.mem_cons, not_or]; exact ⟨fun e => h7 e.symm, h4⟩
    · simp only [List.mem_cons, not_or]; exact ⟨fun e => h8 e.symm, h5⟩

/-- C48: for every URL whose percent signs stand for ASCII characters other than CR and LF the
Discover client frames the body correctly.  Full statement: for every URL; see `C48_break`. -/
theorem C48_urls_partial (net : Net) (hn : net.ParsesUrls) (bc : BasicClient) (u : HttpsUrl) (hu : u.ok) (hs : NoBreaks u.path)
    (body : List UInt8) (tr evs : Trace) (h : ((Client.discover bc).rawRequest net u.text body tr).2 = tr ++ evs) :
    ∃ full, WritesOne evs body full ∧ Framed full body := by
  obtain ⟨t, ht, hr, hl⟩ := unescape_noBreaks hu.path.2 hs
  obtain ⟨path, h1, h2⟩ := parseURL_url hn hu
  have := h2 _ ht
  subst this
  refine ⟨_, discover_writes net u.text body tr evs _ h1 h, discover_framed _ _ body ?_ (bare_noBreak hu)⟩
  by_cases h0 : path = []
  · simp only [h0, if_true]; decide
  · simp only [if_neg h0]; exact ⟨hr, hl⟩

/-- C48 fails: a URL with %0D%0A%0D%0A in its path makes the client send a message that ends there; what
was written and answered is not a framed body. -/
theorem C48_break (net : Net) (hn : net.ParsesUrls) (bc : BasicClient) (u : HttpsUrl) (hu : u.ok) (p q : Str)
    (hpath : u.path = p ++ "%0D%0A%0D%0A".toList ++ q) (hp : '%' ∉ p) (hq : '%' ∉ q) (body : List UInt8) (hbody : body ≠ [])
    (tr evs : Trace) (h : ((Client.discover bc).rawRequest net u.text body tr).2 = tr ++ evs) (hr : responses evs ≠ []) :
    ∀ w ∈ written evs, ¬ Framed w body := by
  have hun : urlUnescape .path u.path = some (toBytes (p ++ "\r\n\r\n".toList ++ q)) := by
    rw [hpath, List.append_assoc, List.append_assoc, toBytes_append]
    refine unescape_append hp ?_
    show urlUnescape .path ('%' :: '0' :: 'D' :: '%' :: '0' :: 'A' :: '%' :: '0' :: 'D' :: '%' :: '0' :: 'A' :: q) = _
    rw [urlUnescape, if_pos rfl]
    simp only [show unhex '0' = some 0 from rfl, show unhex 'D' = some 13 from rfl]
    rw [urlUnescape, if_pos rfl]
    simp only [show unhex '0' = some 0 from rfl, show unhex 'A' = some 10 from rfl]
    rw [urlUnescape, if_pos rfl]
    simp only [show unhex '0' = some 0 from rfl, show unhex 'D' = some 13 from rfl]
    rw [urlUnescape, if_pos rfl]
    simp only [show unhex '0' = some 0 from rfl, show unhex 'A' = some 10 from rfl, badEscape, unescape_plain hq (.inl rfl)]
    rfl
  have hcr : '\r' ∉ p := fun hm => path_notMem hu (by decide) (by decide) (c := '\r') (by rw [hpath]; simp [hm])
  obtain ⟨p', h1, h2⟩ := parseURL_url hn hu
  have := h2 _ hun
  subst this
  intro w hw
  rcases discover_writes net u.text body tr evs _ h1 h with ⟨h3, -⟩ | ⟨w', h3, -, h4⟩
  · rw [h3] at hw; cases hw
  rw [h3, List.mem_singleton] at hw
  subst hw
  rw [h4 hr hbody]
  simp only
  rw [if_neg (by simp)]
  exact C48_broken_path p q _ hcr body

/-! ### Examples -/

/-- A network that parses URLs as net/url does and whose connections answer with `r`. -/
def urlNet (now : GoTime) (r : RawResponse) : Net where
  parseURL url := (parseHttps url).map fun g =>
    ⟨utf8Decode g.path, utf8Decode g.host, (splitHostPort (utf8Decode g.host)).1, (splitHostPort (utf8Decode g.host)).2⟩
  resolve _ _ := none
  transport _ _ := some r
  dial _ _ := some ⟨none, fun _ => some r⟩
  now := now

theorem urlNet_parses (now : GoTime) (r : RawResponse) : (urlNet now r).ParsesUrls := by
  intro url hurl
  cases hg : parseHttps url with
  | none => simp [urlNet, hg]
  | some g =>
    intro host hh
    refine ⟨utf8Decode g.path, ?_, fun s hs => by rw [← hs, utf8Decode_toBytes]⟩
    simp only [urlNet, hg, Option.map_some, ← hh, utf8Decode_toBytes]

theorem urlNet_answers (now : GoTime) (r : RawResponse) (bc : BasicClient) (u : HttpsUrl) (hu : u.ok) (body : List UInt8) :
    ∃ evs, ((Client.discover bc).rawRequest (urlNet now r) u.text body []).2 = [] ++ evs ∧ responses evs ≠ [] ∧ written evs ≠ [] := by
  obtain ⟨p, h1, -⟩ := parseURL_url (urlNet_parses now r) hu
  simp only [Client.rawRequest, discoverRawRequest]
  rw [if_neg (by rw [text_https]; decide)]
  simp only [discoverPost, h1]
  generalize hpath : (if p = [] then ['/'] else p) = p'
  generalize hhost : (if u.port.getD [] = [] then _ else _) = host
  have hw : ∀ x, (⟨none, fun _ => some r⟩ : Conn).transmits x = x := fun _ => rfl
  simp only [urlNet, hw]
  generalize toBytes (discoverHeaders p' (bareHost u.host) body.length) = hd
  rw [if_neg (by rw [List.length_append]; omega)]
  simp only [List.nil_append]
  split <;> exact ⟨_, rfl, by simp [responses], by simp [written]⟩

/-- C98, C48 examples: URLs of each kind, and a network in which messages to them are written and answered. -/
def sampleUrl (host : UrlHost) (port : Option Str) (path : Str) : HttpsUrl := ⟨host, port, path, some "a=b%20c".toList, some "top".toList, some "me:pw".toList⟩

theorem sampleUrl_ok {host : UrlHost} (hh : host.ok) {port : Option Str} (hport : ∀ p, port = some p → ∀ c ∈ p, isDigit c = true)
    {path : Str} (h : (path = [] ∨ path.head? = some '/') ∧ Escaped pathChar path) : (sampleUrl host port path).ok := by
  refine ⟨hh, hport, h, fun q hq => ?_, fun q hq => ?_, fun q hq => ?_⟩
  · cases hq
    exact .plain (by decide) (.plain (by decide) (.plain (by decide) (.escape (by decide) (by decide) (.plain (by decide) .nil))))
  · cases hq
    exact .plain (by decide) (.plain (by decide) (.plain (by decide) .nil))
  · cases hq
    exact .plain (by decide) (.plain (by decide) (.plain (by decide) (.plain (by decide) (.plain (by decide) .nil))))

theorem nameHost_ok (s : Str) (h : s ≠ [] ∧ ∀ c ∈ s, nameChar c = true) : (UrlHost.name s).ok := h

example : (sampleUrl (.name "localhost".toList) (some "8443".toList) "/ofx".toList).ok ∧
    (sampleUrl (.ipv6 "::1".toList) none "/p%20q".toList).ok ∧ (sampleUrl (.name "h".toList) (some []) []).ok ∧
    (sampleUrl (.name "h".toList) none "/p%0D%0A%0D%0Aq".toList).ok ∧ (sampleUrl (.name "h".toList) none "/p%3Fq".toList).ok := by
  have h1 : (UrlHost.name "localhost".toList).ok := nameHost_ok _ (by decide)
  have h2 : (UrlHost.name "h".toList).ok := nameHost_ok _ (by decide)
  have h3 : (UrlHost.ipv6 "::1".toList).ok := by
    show _ ∧ _
    exact ⟨by decide, by decide⟩
  refine ⟨sampleUrl_ok h1 (fun p hp => (by cases hp; decide)) ⟨.inr rfl, ?_⟩,
    sampleUrl_ok h3 (fun p hp => (by cases hp)) ⟨.inr rfl, ?_⟩,
    sampleUrl_ok h2 (fun p hp => (by cases hp; decide)) ⟨.inl rfl, .nil⟩,
    sampleUrl_ok h2 (fun p hp => (by cases hp)) ⟨.inr rfl, ?_⟩,
    sampleUrl_ok h2 (fun p hp => (by cases hp)) ⟨.inr rfl, ?_⟩⟩
  · exact .plain (by decide) (.plain (by decide) (.plain (by decide) (.plain (by decide) .nil)))
  · exact .plain (by decide) (.plain (by decide) (.escape (by decide) (by decide) (.plain (by decide) .nil)))
  · exact .plain (by decide) (.plain (by decide) (.escape (by decide) (by decide) (.escape (by decide) (by decide)
      (.escape (by decide) (by decide) (.escape (by decide) (by decide) (.plain (by decide) .nil))))))
  · exact .plain (by decide) (.plain (by decide) (.escape (by decide) (by decide) (.plain (by decide) .nil)))

example : (⟨.name "h".toList, none, "/p".toList ++ "%3F".toList ++ "q".toList, none, none, none⟩ : HttpsUrl).ok :=
  ⟨nameHost_ok _ (by decide), fun p hp => (by cases hp), ⟨.inr rfl,
    .plain (by decide) (.plain (by decide) (.escape (by decide) (by decide) (.plain (by decide) .nil)))⟩,
    fun p hp => (by cases hp), fun p hp => (by cases hp), fun p hp => (by cases hp)⟩

example : NoBreaks "/a%7Eb".toList := by
  intro p a b q h
  rcases p with _ | ⟨x, _ | ⟨y, _ | ⟨z, _ | ⟨v, _ | ⟨w, _ | ⟨t, p⟩⟩⟩⟩⟩⟩ <;>
    simp_all [show "/a%7Eb".toList = ['/', 'a', '%', '7', 'E', 'b'] from rfl]
  obtain ⟨-, -, rfl, rfl, -⟩ := h
  decide

end Ofx.Props
