import Verif.Lemmas.Cli
import Verif.Spec.Secret
/-
The documents sent do not influence anything but the network: simulation of two runs that differ
in them.
-/
namespace Ofx
open Spec

theorem outline_append (a b : Trace) : outline (a ++ b) = outline a ++ outline b := List.map_append ..

theorem outline_length {a b : Trace} (h : outline a = outline b) : a.length = b.length := by
  have := congrArg List.length h
  simpa [outline] using this

theorem roundTrip_hide {net : Net} (hn : Blind net) {q q' : HttpRequest} {tr tr' : Trace} (hq : hideBody q = hideBody q')
    (ht : outline tr = outline tr') :
    (roundTrip net q tr).1 = (roundTrip net q' tr').1 ∧ outline (roundTrip net q tr).2 = outline (roundTrip net q' tr').2 := by
  unfold roundTrip
  rw [hn.transport tr tr' q q' ht hq]
  cases net.transport tr' q' with
  | none => exact ⟨rfl, by simp only [outline_append, ht]; simp [outline, hide, hq]⟩
  | some r =>
    simp only
    rw [outline_length ht]
    exact ⟨rfl, by simp only [outline_append, ht]; simp [outline, hide, hq]⟩

theorem hideBody_fields {q q' : HttpRequest} (h : hideBody q = hideBody q') :
    q.method = q'.method ∧ q.url = q'.url ∧ q.hop = q'.hop := by
  cases q; cases q'
  simp only [hideBody, HttpRequest.mk.injEq] at h
  exact ⟨h.1, h.2.1, h.2.2.2.2.2⟩

theorem httpLoop_hide {net : Net} (hn : Blind net) {hc : HttpClient} (hp : BlindPolicy hc) (body body' : List UInt8) (fuel : Nat) :
    ∀ via via' q q' ib tr tr', via.map hideBody = via'.map hideBody → hideBody q = hideBody q' → outline tr = outline tr' →
      (httpLoop net hc body fuel via q ib tr).1 = (httpLoop net hc body' fuel via' q' ib tr').1 ∧
      outline (httpLoop net hc body fuel via q ib tr).2 = outline (httpLoop net hc body' fuel via' q' ib tr').2 := by
  induction fuel with
  | zero =>
    intro via via' q q' ib tr tr' hv hq ht
    unfold httpLoop
    obtain ⟨h1, h2⟩ := roundTrip_hide hn hq ht
    generalize roundTrip net q tr = x at h1 h2
    generalize roundTrip net q' tr' = x' at h1 h2
    obtain ⟨o, t⟩ := x
    obtain ⟨o', t'⟩ := x'
    simp only at h1 h2
    subst h1
    cases o with
    | none => exact ⟨rfl, h2⟩
    | some resp =>
    obtain ⟨e1, e2, e3⟩ := hideBody_fields hq
    simp only
    rw [← e1]
    cases redirectBehavior q.method resp.status with
    | none => exact ⟨rfl, h2⟩
    | some x =>
      obtain ⟨method, again⟩ := x
      simp only
      by_cases hl : resp.location = []
      · rw [if_pos hl, if_pos hl]; exact ⟨rfl, h2⟩
      rw [if_neg hl, if_neg hl, ← e2]
      have hclosed : outline (t ++ [.closed resp.id]) = outline (t' ++ [.closed resp.id]) := by
        rw [outline_append, outline_append, h2]
      cases net.resolve q.url resp.location with
      | none => exact ⟨rfl, hclosed⟩
      | some u =>
        simp only
        rw [hp ⟨method, u, [], [], if ib && again then body else [], q.hop + 1⟩
          ⟨method, u, [], [], if ib && again then body' else [], q'.hop + 1⟩ (via ++ [q]) (via' ++ [q'])
          (by simp [hideBody, e3]) (by simp [hv, hq])]
        cases hc.check ⟨method, u, [], [], if ib && again then body' else [], q'.hop + 1⟩ (via' ++ [q']) with
        | useLast => exact ⟨rfl, h2⟩
        | fail => exact ⟨rfl, hclosed⟩
        | follow => exact ⟨rfl, hclosed⟩
  | succ fuel ih =>
    intro via via' q q' ib tr tr' hv hq ht
    unfold httpLoop
    obtain ⟨h1, h2⟩ := roundTrip_hide hn hq ht
    generalize roundTrip net q tr = x at h1 h2
    generalize roundTrip net q' tr' = x' at h1 h2
    obtain ⟨o, t⟩ := x
    obtain ⟨o', t'⟩ := x'
    simp only at h1 h2
    subst h1
    cases o with
    | none => exact ⟨rfl, h2⟩
    | some resp =>
    obtain ⟨e1, e2, e3⟩ := hideBody_fields hq
    simp only
    rw [← e1]
    cases redirectBehavior q.method resp.status with
    | none => exact ⟨rfl, h2⟩
    | some x =>
      obtain ⟨method, again⟩ := x
      simp only
      by_cases hl : resp.location = []
      · rw [if_pos hl, if_pos hl]; exact ⟨rfl, h2⟩
      rw [if_neg hl, if_neg hl, ← e2]
      have hclosed : outline (t ++ [.closed resp.id]) = outline (t' ++ [.closed resp.id]) := by
        rw [outline_append, outline_append, h2]
      cases net.resolve q.url resp.location with
      | none => exact ⟨rfl, hclosed⟩
      | some u =>
        simp only
        rw [hp ⟨method, u, [], [], if ib && again then body else [], q.hop + 1⟩
          ⟨method, u, [], [], if ib && again then body' else [], q'.hop + 1⟩ (via ++ [q]) (via' ++ [q'])
          (by simp [hideBody, e3]) (by simp [hv, hq])]
        cases hc.check ⟨method, u, [], [], if ib && again then body' else [], q'.hop + 1⟩ (via' ++ [q']) with
        | useLast => exact ⟨rfl, h2⟩
        | fail => exact ⟨rfl, hclosed⟩
        | follow => exact ih _ _ _ _ _ _ _ (by simp [hv, hq]) (by simp [hideBody, e3]) hclosed

theorem post_hide {net : Net} (hn : Blind net) {hc : HttpClient} (hp : BlindPolicy hc) (url : Str) (hs : List (String × Str))
    (cs : List (Str × Str)) (body body' : List UInt8) {tr tr' : Trace} (ht : outline tr = outline tr') :
    (post net hc url hs cs body tr).1 = (post net hc url hs cs body' tr').1 ∧
      outline (post net hc url hs cs body tr).2 = outline (post net hc url hs cs body' tr').2 := by
  unfold post
  cases net.parseURL url with
  | none => exact ⟨rfl, ht⟩
  | some _ =>
    simp only
    have h : (httpDo net hc ⟨"POST", url, hs, cs, body, 0⟩ tr).1 = (httpDo net hc ⟨"POST", url, hs, cs, body', 0⟩ tr').1 ∧
        outline (httpDo net hc ⟨"POST", url, hs, cs, body, 0⟩ tr).2 = outline (httpDo net hc ⟨"POST", url, hs, cs, body', 0⟩ tr').2 :=
      httpLoop_hide hn hp body body' _ [] [] _ _ true _ _ rfl rfl ht
    generalize httpDo net hc ⟨"POST", url, hs, cs, body, 0⟩ tr = x at h
    generalize httpDo net hc ⟨"POST", url, hs, cs, body', 0⟩ tr' = x' at h
    obtain ⟨o, t⟩ := x
    obtain ⟨o', t'⟩ := x'
    obtain ⟨h1, h2⟩ := h
    simp only at h1 h2
    subst h1
    cases o <;> exact ⟨rfl, h2⟩

theorem discoverPost_hide {net : Net} (hn : Blind net) (url : Str) (body body' : List UInt8) {tr tr' : Trace}
    (ht : outline tr = outline tr') :
    (discoverPost net url body tr).1 = (discoverPost net url body' tr').1 ∧
      outline (discoverPost net url body tr).2 = outline (discoverPost net url body' tr').2 := by
  unfold discoverPost
  cases net.parseURL url with
  | none => exact ⟨rfl, ht⟩
  | some u =>
    simp only
    generalize (if u.port = [] then u.host ++ ":443".toList else u.host) = host
    generalize (if u.path = [] then ['/'] else u.path) = path
    rw [hn.dial tr tr' host ht]
    cases hd : net.dial tr' host with
    | none => exact ⟨rfl, by rw [outline_append, outline_append, ht]⟩
    | some conn =>
      obtain ⟨hl, ha⟩ := hn.conn _ _ _ hd
      have htr : ∀ b, conn.transmits b = b := by intro b; unfold Conn.transmits; rw [hl]
      simp only [htr, List.length_append]
      rw [if_neg (by omega), if_neg (by omega),
        ha _ (toBytes (discoverHeaders path u.hostname body'.length) ++ body')]
      cases conn.answer (toBytes (discoverHeaders path u.hostname body'.length) ++ body') with
      | none => exact ⟨rfl, by simp [outline, hide] at ht ⊢; exact ht⟩
      | some r =>
        simp only [List.length_cons, List.length_nil]
        rw [outline_length ht]
        exact ⟨rfl, by simp [outline, hide] at ht ⊢; exact ht⟩

theorem default_blind : BlindPolicy defaultHttpClient := fun _ _ _ _ _ _ => rfl

/-- The client's policy about redirections, if it has one of its own, does not look at documents. -/
def BlindClient (c : Client) : Prop := BlindPolicy (c.bc.HTTPClient.getD defaultHttpClient)

theorem raw_hide {net : Net} (hn : Blind net) {c : Client} (hc : BlindClient c) (url : Str) (body body' : List UInt8)
    {tr tr' : Trace} (ht : outline tr = outline tr') :
    (c.rawRequest net url body tr).1 = (c.rawRequest net url body' tr').1 ∧
      outline (c.rawRequest net url body tr).2 = outline (c.rawRequest net url body' tr').2 := by
  cases c with
  | basic bc =>
    show (bc.rawRequest net url body tr).1 = (bc.rawRequest net url body' tr').1 ∧
      outline (bc.rawRequest net url body tr).2 = outline (bc.rawRequest net url body' tr').2
    unfold BasicClient.rawRequest
    by_cases h : (!hasPrefix "https://".toList url) = true
    · rw [if_pos h, if_pos h]; exact ⟨rfl, ht⟩
    · rw [if_neg h, if_neg h]; exact post_hide hn hc _ _ _ _ _ ht
  | discover bc =>
    show (discoverRawRequest net url body tr).1 = (discoverRawRequest net url body' tr').1 ∧
      outline (discoverRawRequest net url body tr).2 = outline (discoverRawRequest net url body' tr').2
    unfold discoverRawRequest
    by_cases h : (!hasPrefix "https://".toList url) = true
    · rw [if_pos h, if_pos h]; exact ⟨rfl, ht⟩
    · rw [if_neg h, if_neg h]
      obtain ⟨h1, h2⟩ := discoverPost_hide hn url body body' ht
      generalize discoverPost net url body tr = x at h1 h2
      generalize discoverPost net url body' tr' = x' at h1 h2
      obtain ⟨o, t⟩ := x
      obtain ⟨o', t'⟩ := x'
      simp only at h1 h2
      subst h1
      cases o with
      | none => exact ⟨rfl, h2⟩
      | some resp =>
        simp only
        by_cases hs : resp.status ≠ 200
        · rw [if_pos hs, if_pos hs]; exact ⟨rfl, h2⟩
        · rw [if_neg hs, if_neg hs]; exact ⟨rfl, h2⟩
  | vanguard bc =>
    show (vanguardRawRequest net bc url body tr).1 = (vanguardRawRequest net bc url body' tr').1 ∧
      outline (vanguardRawRequest net bc url body tr).2 = outline (vanguardRawRequest net bc url body' tr').2
    unfold vanguardRawRequest
    by_cases h : (!hasPrefix "https://".toList url) = true
    · rw [if_pos h, if_pos h]; exact ⟨rfl, ht⟩
    · rw [if_neg h, if_neg h]; exact post_hide hn default_blind _ _ _ _ _ ht

theorem retry_hide {net : Net} (hn : Blind net) (url : Str) (body body' : List UInt8) (cs : List (Str × Str))
    {tr tr' : Trace} (ht : outline tr = outline tr') :
    (vanguardRetry net url body cs tr).1 = (vanguardRetry net url body' cs tr').1 ∧
      outline (vanguardRetry net url body cs tr).2 = outline (vanguardRetry net url body' cs tr').2 := by
  unfold vanguardRetry
  by_cases h : (!hasPrefix "https://".toList url) = true
  · rw [if_pos h, if_pos h]; exact ⟨rfl, ht⟩
  · rw [if_neg h, if_neg h]
    obtain ⟨h1, h2⟩ := post_hide hn default_blind url [contentType] cs body body' ht
    generalize post net defaultHttpClient url [contentType] cs body tr = x at h1 h2
    generalize post net defaultHttpClient url [contentType] cs body' tr' = x' at h1 h2
    obtain ⟨⟨o, e⟩, t⟩ := x
    obtain ⟨⟨o', e'⟩, t'⟩ := x'
    simp only [Prod.mk.injEq] at h1 h2
    obtain ⟨rfl, rfl⟩ := h1
    cases e <;> exact ⟨rfl, h2⟩

/-- Signon requests that differ in the password only. -/
theorem signon_alike {so : SignonRequest} {p : Str} (h : AlikePasswords so.UserPass p) (v : Nat) :
    (({ so with UserPass := p } : SignonRequest).valid v).1 = (so.valid v).1 ∧
    (({ so with UserPass := p } : SignonRequest).valid v).2 = { (so.valid v).2 with UserPass := p } ∧
    (so.valid v).2.UserPass = so.UserPass := by
  obtain ⟨h1, h2⟩ := h
  have e1 : (blen p = 0) = (blen so.UserPass = 0) := by
    rw [eq_iff_iff, blen_zero, blen_zero]; exact h1.symm
  have e2 : (blen p > 32) = (blen so.UserPass > 32) := by
    rw [eq_iff_iff]; omega
  unfold SignonRequest.valid
  simp only [e1, e2]
  repeat' split
  all_goals exact ⟨rfl, rfl, rfl⟩

theorem marshal_alike {r : Request Message} {p : Str} (h : AlikePasswords r.signon.UserPass p) :
    ((∃ e, r.marshal.1 = .error e ∧ (withPassword r p).marshal.1 = .error e) ∨
      ∃ d d', r.marshal.1 = .ok d ∧ (withPassword r p).marshal.1 = .ok d') ∧
    (withPassword r p).marshal.2 = withPassword r.marshal.2 p ∧ r.marshal.2.signon.UserPass = r.signon.UserPass := by
  obtain ⟨h1, h2, h3⟩ := signon_alike h r.version
  unfold Request.marshal
  rw [show (withPassword r p).signon.valid (withPassword r p).version =
    ({ r.signon with UserPass := p } : SignonRequest).valid r.version from rfl]
  generalize r.signon.valid r.version = x at h1 h2 h3
  generalize ({ r.signon with UserPass := p } : SignonRequest).valid r.version = x' at h1 h2
  obtain ⟨e, so⟩ := x
  obtain ⟨e', so'⟩ := x'
  simp only at h1 h2 h3
  subst h1
  cases e' with
  | some e => exact ⟨.inl ⟨_, rfl, rfl⟩, by simp [withPassword, h2], h3⟩
  | none =>
    obtain ⟨cs, k⟩ := signonRq_encode so
    obtain ⟨cs', k'⟩ := signonRq_encode so'
    simp only
    rw [k, k']
    simp only
    rw [show (withPassword r p).version = r.version from rfl, show (withPassword r p).sets = r.sets from rfl]
    generalize encodeSets r.version .rq MsgSet.lists r.sets = y
    obtain ⟨_ | rest, f⟩ := y
    · exact ⟨.inl ⟨_, rfl, rfl⟩, by simp [withPassword, h2], h3⟩
    · exact ⟨.inr ⟨_, _, rfl, rfl⟩, by simp [withPassword, h2], h3⟩

theorem noParse_hide {net : Net} (hn : Blind net) {c : Client} (hc : BlindClient c) {r : Request Message} {p : Str}
    (h : AlikePasswords r.signon.UserPass p) {tr tr' : Trace} (ht : outline tr = outline tr') :
    (c.requestNoParse net r tr).1 = (c.requestNoParse net (withPassword r p) tr').1 ∧
    (c.requestNoParse net (withPassword r p) tr').2.1 = withPassword (c.requestNoParse net r tr).2.1 p ∧
    (c.requestNoParse net r tr).2.1.signon.UserPass = r.signon.UserPass ∧
    outline (c.requestNoParse net r tr).2.2 = outline (c.requestNoParse net (withPassword r p) tr').2.2 := by
  unfold Client.requestNoParse
  rw [show (withPassword r p).setClientFields net.now c.bc = withPassword (r.setClientFields net.now c.bc) p from rfl]
  obtain ⟨h1, h2, h0⟩ := marshal_alike (r := r.setClientFields net.now c.bc) h
  have h3 : (r.setClientFields net.now c.bc).marshal.2.signon.UserPass = r.signon.UserPass := h0
  clear h0
  generalize (r.setClientFields net.now c.bc).marshal = x at h1 h2 h3
  generalize (withPassword (r.setClientFields net.now c.bc) p).marshal = x' at h1 h2
  obtain ⟨o, q⟩ := x
  obtain ⟨o', q'⟩ := x'
  simp only at h1 h2 h3
  subst h2
  rcases h1 with ⟨e, rfl, rfl⟩ | ⟨d, d', rfl, rfl⟩
  · exact ⟨rfl, rfl, h3, ht⟩
  simp only
  obtain ⟨k1, k2⟩ := raw_hide hn hc q.url d.bytes d'.bytes ht
  rw [show (withPassword q p).url = q.url from rfl]
  generalize c.rawRequest net q.url d.bytes tr = y at k1 k2
  generalize c.rawRequest net q.url d'.bytes tr' = y' at k1 k2
  obtain ⟨res, t⟩ := y
  obtain ⟨res', t'⟩ := y'
  simp only at k1 k2
  subst k1
  cases c with
  | basic bc => exact ⟨rfl, rfl, h3, k2⟩
  | discover bc => exact ⟨rfl, rfl, h3, k2⟩
  | vanguard bc =>
    obtain ⟨_ | resp, e⟩ := res
    · exact ⟨rfl, rfl, h3, k2⟩
    simp only
    by_cases hr : resp.contentLength ≤ 0 ∧ resp.cookies.length > 0
    · rw [if_pos hr, if_pos hr]
      obtain ⟨g1, g2, g3⟩ := marshal_alike (r := q) (p := p) (by rw [h3]; exact h)
      rw [h3] at g3
      generalize q.marshal = x at g1 g2 g3
      generalize (withPassword q p).marshal = x' at g1 g2
      obtain ⟨o, s⟩ := x
      obtain ⟨o', s'⟩ := x'
      simp only at g1 g2 g3
      subst g2
      rcases g1 with ⟨e, rfl, rfl⟩ | ⟨d, d', rfl, rfl⟩
      · exact ⟨rfl, rfl, g3, k2⟩
      simp only
      obtain ⟨m1, m2⟩ := retry_hide hn s.url d.bytes d'.bytes resp.cookies k2
      rw [show (withPassword s p).url = s.url from rfl]
      generalize vanguardRetry net s.url d.bytes resp.cookies t = z at m1 m2
      generalize vanguardRetry net s.url d'.bytes resp.cookies t' = z' at m1 m2
      obtain ⟨res, u⟩ := z
      obtain ⟨res', u'⟩ := z'
      simp only at m1 m2
      subst m1
      exact ⟨rfl, trivial, g3, m2⟩
    · rw [if_neg hr, if_neg hr]; exact ⟨rfl, rfl, h3, k2⟩

theorem request_hide (env : Env) (nt : NameTable) {net : Net} (hn : Blind net) {c : Client} (hc : BlindClient c)
    {r : Request Message} {p : Str} (h : AlikePasswords r.signon.UserPass p) {tr tr' : Trace} (ht : outline tr = outline tr') :
    (c.request env nt net r tr).1 = (c.request env nt net (withPassword r p) tr').1 ∧
    (c.request env nt net (withPassword r p) tr').2.1 = withPassword (c.request env nt net r tr).2.1 p ∧
    (c.request env nt net r tr).2.1.signon.UserPass = r.signon.UserPass ∧
    outline (c.request env nt net r tr).2.2 = outline (c.request env nt net (withPassword r p) tr').2.2 := by
  unfold Client.request
  obtain ⟨h1, h2, h3, h4⟩ := noParse_hide hn hc h ht
  generalize c.requestNoParse net r tr = x at h1 h2 h3 h4
  generalize c.requestNoParse net (withPassword r p) tr' = x' at h1 h2 h4
  obtain ⟨⟨resp, e⟩, q, t⟩ := x
  obtain ⟨⟨resp', e'⟩, q', t'⟩ := x'
  simp only [Prod.mk.injEq] at h1 h2 h3 h4
  obtain ⟨rfl, rfl⟩ := h1
  subst h2
  cases e with
  | some e => exact ⟨rfl, rfl, h3, h4⟩
  | none =>
    cases resp with
    | none => exact ⟨rfl, rfl, h3, h4⟩
    | some resp =>
      simp only
      generalize parseResponse env nt resp.body = y
      have hcl : outline (t ++ [.closed resp.id]) = outline (t' ++ [.closed resp.id]) := by
        rw [outline_append, outline_append, h4]
      obtain ⟨res, _ | e⟩ := y
      · exact ⟨rfl, rfl, h3, hcl⟩
      · exact ⟨rfl, rfl, h3, hcl⟩

end Ofx
