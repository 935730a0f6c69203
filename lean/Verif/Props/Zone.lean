import Verif.Spec.Zone
import Verif.Props.Loose
import Verif.Lemmas.Leaf

/-!
C104, for IPv6 addresses with zones.
-/
namespace Ofx.Props
open Ofx Spec

theorem unhex_value {c : Char} (h : hexChar c = true) : unhex c = some (hexValue c) ∧ hexValue c < 16 := by
  rw [hexChar, List.contains_iff_mem] at h
  have : ∀ c ∈ "0123456789abcdefABCDEF".toList, unhex c = some (hexValue c) ∧ hexValue c < 16 := by decide
  exact this c h

/-- The bytes that net/url allows in hosts. -/
theorem hostByte_iff (c : Char) : hostByte c.toNat = true ↔ nameChar c = true ∨ c ∈ ":[]<>\"".toList := by
  constructor
  · intro h
    have hlt : c.toNat < 128 := by
      simp only [hostByte, Bool.or_eq_true] at h
      rcases h with h | h
      · have := isAlnum_range h; omega
      · rw [List.contains_iff_mem] at h
        have : ∀ n ∈ "!$&'()*+,;=:[]<>\"-_.~".toList.map Char.toNat, n < 128 := by decide
        exact this _ h
    have key : ∀ n < 128, hostByte (Char.ofNat n).toNat = true →
        nameChar (Char.ofNat n) = true ∨ Char.ofNat n ∈ ":[]<>\"".toList := by decide +kernel
    have := key c.toNat hlt
    rw [Char.ofNat_toNat] at this
    exact this h
  · rintro (h | h)
    · exact nameChar_host h
    · have : ∀ c ∈ ":[]<>\"".toList, hostByte c.toNat = true := by decide
      exact this c h

theorem zone_small {c : Char} (h : nameChar c = true ∨ c ∈ ":[]<>\"% ".toList) : c.toNat < 128 := by
  rcases h with h | h
  · have := pathChar_range (c := c) (by simp [pathChar, h]); omega
  · have : ∀ c ∈ ":[]<>\"% ".toList, c.toNat < 128 := by decide
    exact this c h

theorem zone_unescape {s t : Str} (h : ZoneName s t) : urlUnescape .zone s = some (toBytes t) := by
  induction h with
  | nil => rfl
  | @plain c s t hc _ ih =>
    rw [urlUnescape_cons (by rintro rfl; exact absurd hc (by decide)), if_neg (by rw [nameChar_host hc]; simp), ih]
    rfl
  | @escape a b c s t ha hb hv hc _ ih =>
    obtain ⟨ha1, -⟩ := unhex_value ha
    obtain ⟨hb1, hb2⟩ := unhex_value hb
    rw [urlUnescape, if_pos rfl]
    simp only [ha1, hb1, hv]
    rw [if_neg]
    · rw [ih, show toBytes (c :: t) = String.utf8EncodeChar c ++ toBytes t from by simp [toBytes], utf8_ascii (zone_small hc)]
      rfl
    · simp only [badEscape, hv, Bool.and_eq_true, Bool.not_eq_true', Bool.and_eq_false_iff, decide_eq_false_iff_not, not_and]
      rintro ⟨h1, h2⟩ h3
      rcases hc with hc | hc
      · rw [nameChar_host hc] at h3; cases h3
      · simp only [show ":[]<>\"% ".toList = [':', '[', ']', '<', '>', '"', '%', ' '] from rfl, List.mem_cons, List.not_mem_nil, or_false] at hc
        rcases hc with rfl | rfl | rfl | rfl | rfl | rfl | rfl | rfl
        iterate 6 exact absurd h3 (by decide)
        · have : hexValue a = 2 ∧ hexValue b = 5 := by
            simp only [show '%'.toNat = 37 from rfl] at hv; omega
          rcases h1 with h1 | h1
          · exact absurd this.1 h1
          · exact absurd this.2 h1
        · exact absurd rfl h2

theorem zone_of_unescape : (s : Str) → Escaped nameChar s → (∃ bs, urlUnescape .zone s = some bs) → ∃ t, ZoneName s t
  | _, .nil, _ => ⟨_, .nil⟩
  | _, .plain (c := c) (s := s) hc hs, ⟨bs, h⟩ => by
    rw [urlUnescape_cons (by rintro rfl; exact absurd hc (by decide)), if_neg (by rw [nameChar_host hc]; simp)] at h
    cases hr : urlUnescape .zone s with
    | none => rw [hr] at h; cases h
    | some bs =>
      obtain ⟨t, ht⟩ := zone_of_unescape s hs ⟨bs, hr⟩
      exact ⟨_, .plain hc ht⟩
  | _, .escape (a := a) (b := b) (s := s) ha hb hs, ⟨bs, h⟩ => by
    obtain ⟨ha1, ha2⟩ := unhex_value ha
    obtain ⟨hb1, hb2⟩ := unhex_value hb
    rw [urlUnescape, if_pos rfl] at h
    simp only [ha1, hb1] at h
    by_cases hbad : badEscape .zone (hexValue a) (hexValue b) = true
    · rw [if_pos hbad] at h; cases h
    rw [if_neg hbad] at h
    cases hr : urlUnescape .zone s with
    | none => rw [hr] at h; cases h
    | some bs =>
      obtain ⟨t, ht⟩ := zone_of_unescape s hs ⟨bs, hr⟩
      have hlt : 16 * hexValue a + hexValue b < 256 := by omega
      have hc : (Char.ofNat (16 * hexValue a + hexValue b)).toNat = 16 * hexValue a + hexValue b := by
        have : ∀ n < 256, (Char.ofNat n).toNat = n := by decide +kernel
        exact this _ hlt
      refine ⟨Char.ofNat (16 * hexValue a + hexValue b) :: t, .escape ha hb hc.symm ?_ ht⟩
      rw [Bool.not_eq_true] at hbad
      simp only [badEscape, Bool.and_eq_false_iff, Bool.not_eq_false', Bool.and_eq_true, decide_eq_true_eq] at hbad
      rcases hbad with (⟨h1, h2⟩ | h1) | h1
      · rw [h1, h2]; exact .inr (by decide)
      · rw [h1]; exact .inr (by decide)
      · rw [← hc, hostByte_iff] at h1
        rcases h1 with h1 | h1
        · exact .inl h1
        · right
          have : ∀ c ∈ ":[]<>\"".toList, c ∈ ":[]<>\"% ".toList := by decide
          exact this _ h1

theorem cutZone_at {a : Str} (h : '%' ∉ a) (z : Str) : cutZone (a ++ "%25".toList ++ z) = some (a, "%25".toList ++ z) := by
  induction a with
  | nil =>
    show cutZone ('%' :: '2' :: '5' :: z) = _
    rw [cutZone, if_pos (show hasPrefix "%25".toList ('%' :: '2' :: '5' :: z) = true from rfl)]
    rfl
  | cons x a ih =>
    simp only [List.mem_cons, not_or] at h
    have hx : hasPrefix "%25".toList ((x :: a) ++ "%25".toList ++ z) = false := by
      have : ('%' == x) = false := by rw [beq_eq_false_iff_ne]; exact h.1
      simp [hasPrefix, List.isPrefixOf, this]
    show (if hasPrefix "%25".toList ((x :: a) ++ "%25".toList ++ z) = true then _ else (cutZone (a ++ "%25".toList ++ z)).map _) = _
    rw [if_neg (by rw [hx]; decide), ih h.2]
    rfl

theorem splitHostPort_brackets {s : Str} {port : Option Str} (hport : ∀ p, port = some p → ∀ c ∈ p, isDigit c = true) :
    splitHostPort ('[' :: s ++ [']'] ++ port.elim [] (':' :: ·)) = (s, port.getD []) := by
  unfold splitHostPort
  have hb : (hasPrefix ['['] ('[' :: s ++ [']']) && hasSuffix [']'] ('[' :: s ++ [']'])) = true := by
    rw [Bool.and_eq_true]
    exact ⟨rfl, List.isSuffixOf_iff_suffix.mpr ⟨'[' :: s, rfl⟩⟩
  have hd : (List.drop 1 ('[' :: s ++ [']'])).dropLast = s := by simp
  cases port with
  | none =>
    simp only [Option.elim, List.append_nil]
    rcases lastCut_cases ':' ('[' :: s ++ [']']) with ⟨h1, -⟩ | ⟨a, b, h1, h2, h3⟩
    · simp only [h1, hb, hd, if_true]
      rfl
    · have h4 : ']' ∈ b := by
        rcases List.eq_nil_or_concat b with rfl | ⟨b', y, rfl⟩
        · have := (List.append_inj' h2 rfl).2
          exact absurd this (by decide)
        · rw [List.concat_eq_append, ← List.cons_append, ← List.append_assoc] at h2
          have := (List.append_inj' h2 rfl).2
          rw [List.concat_eq_append, ← this]
          simp
      have h5 : ¬ validOptionalPort (':' :: b) = true := by
        intro hv
        simp only [validOptionalPort, Bool.and_eq_true, List.all_eq_true] at hv
        exact absurd (hv.2 _ h4) (by decide)
      simp only [h1, if_neg h5, hb, hd, if_true]
      rfl
  | some p =>
    have hv : validOptionalPort (':' :: p) = true := by
      simp only [validOptionalPort, Bool.and_eq_true, decide_eq_true_eq, List.all_eq_true]
      exact ⟨trivial, hport p rfl⟩
    have hl : lastCut ':' ('[' :: s ++ [']'] ++ ':' :: p) = some ('[' :: s ++ [']'], p) :=
      lastCut_some _ (name_notMem (fun c hc => digit_name (hport p rfl c hc)) (by decide))
    simp only [Option.elim]
    simp only [hl, hv, if_true, hb, hd]
    rfl

section
variable {u : HttpsUrl} {a z : Str} (hh : u.host = .ipv6 (a ++ "%25".toList ++ z)) (hu : ({ u with host := .ipv6 a } : HttpsUrl).ok)
include hh hu

omit hh in
theorem zone_address : '%' ∉ '[' :: a ∧ ∀ c ∈ '[' :: a, hostByte c.toNat = true := by
  constructor
  · simp only [List.mem_cons, not_or]
    refine ⟨by decide, fun hm => ?_⟩
    rcases hu.host.2 _ hm with h0 | h0 | h0
    · exact absurd h0 (by decide)
    · exact absurd h0 (by decide)
    · exact absurd h0 (by decide)
  · intro c hc
    rcases List.mem_cons.mp hc with rfl | hc
    · decide
    · rcases hu.host.2 _ hc with h0 | rfl | rfl
      · exact hexChar_host h0
      · decide
      · decide

theorem zone_parseHost : parseHost (hostPortText u) = (urlUnescape .zone z).map fun bs =>
    toBytes ('[' :: a) ++ (37 :: bs) ++ toBytes (']' :: u.port.elim [] (':' :: ·)) := by
  have e : hostPortText u = ('[' :: a ++ "%25".toList ++ z) ++ ']' :: u.port.elim [] (':' :: ·) := by
    unfold hostPortText; rw [hh]
    show '[' :: (a ++ "%25".toList ++ z) ++ [']'] ++ _ = _
    generalize "%25".toList = x
    simp
  obtain ⟨ha1, ha2⟩ := zone_address hu
  have hport : validOptionalPort (u.port.elim [] (':' :: ·)) = true := by
    have := port_ok hu
    exact this
  have hn := fun c hc hd => port_notMem (c := c) hu hc hd
  unfold parseHost
  rw [if_pos (by rw [e]; rfl)]
  rw [show lastCut ']' (hostPortText u) = some ('[' :: a ++ "%25".toList ++ z, u.port.elim [] (':' :: ·)) from by
    rw [e]; exact lastCut_some _ (hn ']' (by decide) (by decide))]
  simp only
  rw [if_neg (by simp [hport]), cutZone_at ha1]
  simp only
  rw [unescape_plain ha1 (.inr ha2)]
  have hz : urlUnescape .zone ("%25".toList ++ z) = (urlUnescape .zone z).map (37 :: ·) := by
    show urlUnescape .zone ('%' :: '2' :: '5' :: z) = _
    rw [urlUnescape, if_pos rfl]
    rfl
  have hp : urlUnescape .host (']' :: u.port.elim [] (':' :: ·)) = some (toBytes (']' :: u.port.elim [] (':' :: ·))) := by
    refine unescape_plain ?_ (.inr ?_)
    · simp only [List.mem_cons, not_or]
      exact ⟨by decide, hn '%' (by decide) (by decide)⟩
    · intro c hc
      rcases List.mem_cons.mp hc with rfl | hc
      · decide
      · cases hpo : u.port with
        | none => rw [hpo] at hc; cases hc
        | some p =>
          rw [hpo] at hc
          rcases List.mem_cons.mp hc with rfl | hc
          · decide
          · exact digit_host (hu.port p hpo c hc)
  rw [hz, hp]
  cases urlUnescape .zone z <;> rfl

theorem zone_parse (hz : Escaped nameChar z) : ∃ bs, urlUnescape .path u.path = some bs ∧
    parseHttps u.text = (parseHost (hostPortText u)).map fun h => ⟨h, bs, u.query.getD []⟩ := by
  refine parseHttps_text hu.port hu.path hu.query hu.fragment hu.user ?_
  intro c hc
  rw [hh] at hc
  simp only [UrlHost.text, List.cons_append, List.mem_cons, List.mem_append, List.not_mem_nil, or_false] at hc
  rcases hc with rfl | ((hc | hc) | hc) | rfl
  · exact .inr (by decide)
  · rcases hu.host.2 _ hc with h0 | rfl | rfl
    · exact .inl (hexChar_name h0)
    · exact .inr (by decide)
    · exact .inl (by decide)
  · have : ∀ c ∈ "%25".toList, nameChar c = true ∨ c ∈ ":[]%".toList := by decide
    exact this c hc
  · rcases escaped_mem hz hc with h0 | rfl | h0
    · exact .inl h0
    · exact .inr (by decide)
    · exact .inl (hexChar_name h0)
  · exact .inr (by decide)

end

theorem zone_escaped {z t : Str} (h : ZoneName z t) : Escaped nameChar z := by
  induction h with
  | nil => exact .nil
  | plain h _ ih => exact .plain h ih
  | escape h1 h2 _ _ _ ih => exact .escape h1 h2 ih

/-- C104: for an IPv6 address with a zone the Discover client connects to that address in that zone. -/
theorem C104_zone (net : Net) (hn : net.ParsesUrls) (bc : BasicClient) (u : HttpsUrl) (a z t : Str)
    (hh : u.host = .ipv6 (a ++ "%25".toList ++ z)) (hz : ZoneName z t) (hu : ({ u with host := .ipv6 a } : HttpsUrl).ok)
    (hp : u.port ≠ some []) (body : List UInt8) (tr evs : Trace)
    (h : ((Client.discover bc).rawRequest net u.text body tr).2 = tr ++ evs) :
    dialled evs = ["[".toList ++ a ++ "%".toList ++ t ++ "]:".toList ++ u.port.getD "443".toList] := by
  obtain ⟨bs, -, h1⟩ := zone_parse hh hu (zone_escaped hz)
  rw [zone_parseHost hh hu, zone_unescape hz] at h1
  have h2 := hn u.text (text_https u)
  rw [h1] at h2
  have e : toBytes ('[' :: (a ++ '%' :: t) ++ [']'] ++ u.port.elim [] (':' :: ·)) =
      toBytes ('[' :: a) ++ (37 :: toBytes t) ++ toBytes (']' :: u.port.elim [] (':' :: ·)) := by
    rw [show '[' :: (a ++ '%' :: t) ++ [']'] ++ u.port.elim [] (':' :: ·) =
      ('[' :: a) ++ (('%' :: t) ++ (']' :: u.port.elim [] (':' :: ·))) from by simp]
    rw [toBytes_append, toBytes_append, List.append_assoc]
    rfl
  obtain ⟨path, h3, -⟩ := h2 _ e
  rw [splitHostPort_brackets hu.port] at h3
  rw [discover_dials net u.text body tr evs _ (text_https u) h3 h]
  cases hport : u.port with
  | none =>
    simp only [Option.getD, if_true, Option.elim, List.append_nil]
    show ['[' :: (a ++ '%' :: t) ++ [']'] ++ [':', '4', '4', '3']] = [['['] ++ a ++ ['%'] ++ t ++ [']', ':'] ++ ['4', '4', '3']]
    simp
  | some p =>
    have : p ≠ [] := by rintro rfl; exact hp hport
    simp only [Option.getD, Option.elim, if_neg this]
    show ['[' :: (a ++ '%' :: t) ++ [']'] ++ ':' :: p] = [['['] ++ a ++ ['%'] ++ t ++ [']', ':'] ++ p]
    simp

/-- C104: if percent signs in the zone stand for other characters, the URL is refused. -/
theorem C104_zone_refused (net : Net) (hn : net.ParsesUrls) (bc : BasicClient) (u : HttpsUrl) (a z : Str)
    (hh : u.host = .ipv6 (a ++ "%25".toList ++ z)) (hz : Escaped nameChar z) (hno : ¬ ∃ t, ZoneName z t)
    (hu : ({ u with host := .ipv6 a } : HttpsUrl).ok) (body : List UInt8) (tr : Trace) :
    ∃ e, (Client.discover bc).rawRequest net u.text body tr = ((none, some e), tr) := by
  obtain ⟨bs, -, h1⟩ := zone_parse hh hu hz
  have hnone : urlUnescape .zone z = none := by
    cases hz' : urlUnescape .zone z with
    | none => rfl
    | some bs => exact absurd (zone_of_unescape z hz ⟨bs, hz'⟩) hno
  rw [zone_parseHost hh hu, hnone] at h1
  have h2 := hn u.text (text_https u)
  rw [h1] at h2
  simp only [Option.map] at h2
  simp only [Client.rawRequest, discoverRawRequest]
  rw [if_neg (by rw [text_https]; decide)]
  unfold discoverPost
  rw [h2]
  exact ⟨_, rfl⟩

/-! ### Examples -/

/-- "https://[fe80::1%25en%2D0]/": the zone is en-0. -/
example (net : Net) (hn : net.ParsesUrls) (bc : BasicClient) (body : List UInt8) (evs : Trace)
    (h : ((Client.discover bc).rawRequest net "https://[fe80::1%25en%2D0]/".toList body []).2 = evs) :
    dialled evs = ["[fe80::1%en-0]:443".toList] := by
  refine C104_zone net hn bc ⟨.ipv6 "fe80::1%25en%2D0".toList, none, ['/'], none, none, none⟩ "fe80::1".toList "en%2D0".toList
    "en-0".toList rfl ?_ ?_ (by decide) body [] evs h
  · exact .plain (by decide) (.plain (by decide) (.escape (by decide) (by decide) (by decide) (.inl (by decide)) (.plain (by decide) .nil)))
  · exact ⟨⟨by decide, by decide⟩, fun _ h => (by cases h), ⟨.inr rfl, .plain (by decide) .nil⟩, fun _ h => (by cases h),
      fun _ h => (by cases h), fun _ h => (by cases h)⟩

/-- "https://[fe80::1%25en%2F0]/": slashes are not allowed. -/
example (net : Net) (hn : net.ParsesUrls) (bc : BasicClient) (body : List UInt8) :
    ∃ e, (Client.discover bc).rawRequest net "https://[fe80::1%25en%2F0]/".toList body [] = ((none, some e), []) := by
  refine C104_zone_refused net hn bc ⟨.ipv6 "fe80::1%25en%2F0".toList, none, ['/'], none, none, none⟩ "fe80::1".toList "en%2F0".toList
    rfl ?_ ?_ ?_ body []
  · exact .plain (by decide) (.plain (by decide) (.escape (by decide) (by decide) (.plain (by decide) .nil)))
  · rintro ⟨t, h⟩
    have := zone_unescape h
    cases this
  · exact ⟨⟨by decide, by decide⟩, fun _ h => (by cases h), ⟨.inr rfl, .plain (by decide) .nil⟩, fun _ h => (by cases h),
      fun _ h => (by cases h), fun _ h => (by cases h)⟩

end Ofx.Props
