import Verif.Props.CliAsk
import Verif.Props.Reuse
import Verif.Lemmas.Pause
/-
C62 for detect-settings: what it asks the server.
-/
namespace Ofx.Props
open Ofx Spec

/-- `noParse_docs` for what a call adds to a trace. -/
theorem noParse_docs_from (net : Net) (c : Client) (r : Request Message) (tr : Trace) :
    ∃ evs, (c.requestNoParse net r tr).2.2 = tr ++ evs ∧
      SendsOnly (fun d => (r.setClientFields net.now c.bc).marshal.1 = .ok d) evs := by
  obtain ⟨evs, h1, h2⟩ := noParse_effect net c r tr
  refine ⟨evs, h1, ?_⟩
  have hraw : ∀ d, (r.setClientFields net.now c.bc).marshal.1 = .ok d → ∀ tr res evs, RawEffect net r.url d.bytes tr res evs →
      SendsOnly (fun d => (r.setClientFields net.now c.bc).marshal.1 = .ok d) evs := by
    intro d hd tr res evs hE
    refine ⟨?_, ?_⟩
    · intro q hq
      rcases hE.posts with h0 | ⟨hs, cs, h0⟩ <;> rw [h0] at hq
      · cases hq
      · rw [List.mem_singleton] at hq; exact ⟨d, by rw [hq], hd⟩
    · intro w hw
      obtain ⟨u, -, h⟩ := hE.wrote w hw
      exact ⟨d, _, _, hd, h⟩
  rcases h2 with ⟨e, -, -, rfl⟩ | ⟨d, hd, ⟨h2, -⟩ | ⟨resp, err, e1, e2, rfl, -, h2, h3, -⟩⟩
  · exact ⟨fun q hq => (by cases hq), fun q hq => (by cases hq)⟩
  · exact hraw d hd _ _ _ h2
  · obtain ⟨a1, a2⟩ := hraw d hd _ _ _ h2
    obtain ⟨b1, b2⟩ := hraw d hd _ _ _ h3
    unfold SendsOnly
    rw [posts_append, written_append]
    refine ⟨?_, ?_⟩ <;> intro q hq <;> rcases List.mem_append.mp hq with hq | hq
    · exact a1 q hq
    · exact b1 q hq
    · exact a2 q hq
    · exact b2 q hq

theorem request_docs_from (env : Env) (nt : NameTable) (net : Net) (c : Client) (r : Request Message) (tr : Trace) :
    ∃ evs, (c.request env nt net r tr).2.2 = tr ++ evs ∧
      SendsOnly (fun d => (r.setClientFields net.now c.bc).marshal.1 = .ok d) evs := by
  obtain ⟨evs, h1, h2⟩ := noParse_docs_from net c r tr
  rcases request_cases env nt net c r tr with ⟨e, -, h⟩ | ⟨resp, -, -, h, -⟩
  · rw [h]; exact ⟨evs, h1, h2⟩
  · rw [h, h1]
    refine ⟨evs ++ [.closed resp.id], List.append_assoc _ _ _, ?_⟩
    obtain ⟨g1, g2⟩ := posts_closed evs resp.id
    unfold SendsOnly
    rw [g1, g2]; exact h2

theorem sendsOnly_mono {P Q : Doc → Prop} (h : ∀ d, P d → Q d) {tr : Trace} (hp : SendsOnly P tr) : SendsOnly Q tr :=
  ⟨fun q hq => let ⟨d, h1, h2⟩ := hp.1 q hq; ⟨d, h1, h d h2⟩,
   fun b hb => let ⟨d, p, o, h1, h2⟩ := hp.2 b hb; ⟨d, p, o, h d h1, h2⟩⟩

/-- The request for the profile, with some login. -/
def profileQueryAs (w : World) (f : Flags) (uid login pass : Str) : Request Message :=
  profileQuery w { f with username := login, password := pass } uid

theorem anon_same {w : World} {f : Flags} {uid : Str} {r : Request Message} (h : ReqSame (profileQuery w f uid) r) :
    ReqSame (profileQueryAs w f uid "anonymous00000000000000000000000".toList "anonymous00000000000000000000000".toList) (asAnonymous r) := by
  obtain ⟨h1, ⟨d, i, v, h2⟩, h3⟩ := h
  refine ⟨h1, ⟨d, i, v, ?_⟩, h3⟩
  unfold asAnonymous
  rcases h2 with h2 | ⟨h0, h2⟩ <;> rw [h2]
  · exact .inl rfl
  · exact .inr ⟨rfl, rfl⟩

theorem version_range : ∀ s ∈ combinations, 1 ≤ versionNumber s.version ∧ versionNumber s.version ≤ 11 := by decide +kernel

/-- The document of the request for the profile. -/
theorem detect_document {w : World} {f : Flags} {s : Setting} (hs : s ∈ combinations) {uid login pass : Str} {d : Doc}
    (h2 : UID.valid uid = none)
    (h : ((profileQueryAs w f uid login pass).setClientFields w.net.now (settingClient f s).bc).marshal.1 = .ok d) :
    DetectDocument w f s uid login pass d := by
  have hbc : (settingClient f s).bc = ⟨versionNumber s.version, s.appID, s.appVer, s.noIndent, false, [], none⟩ := client_bc _ _
  generalize (settingClient f s).bc = bc at h hbc
  obtain ⟨k1, k2, k3, k4, -⟩ := C43_defaults bc
  have hver : bc.ofxVersion = versionNumber s.version := by
    rw [k1, hbc]
    unfold effectiveVersion
    rw [if_pos (version_range s hs)]
  obtain ⟨signon, content, hb, -, hso, hf⟩ := C25_request_body _ d h
  have hval := ((request_marshal_ok _ d).mp h).1
  obtain ⟨hp, hso'⟩ := signon_kept_all _ _ (show ((profileQueryAs w f uid login pass).setClientFields w.net.now bc).signon.Language = [] from rfl)
    (show ((profileQueryAs w f uid login pass).setClientFields w.net.now bc).signon.UserKey = [] from rfl) hval
  rw [hso', sonrq_element { ((profileQueryAs w f uid login pass).setClientFields w.net.now bc).signon with Language := "ENG".toList } hp rfl rfl] at hso
  have hsig : signon = signonOf w.net.now { f with username := login, password := pass, appID := s.appID, appVer := s.appVer } := by
    injection hso with hso
    injection hso with hso
    rw [← hso]
    show Node.elem "SONRQ".toList ([textNode "DTCLIENT".toList (Date.marshal w.net.now),
      textNode "USERID".toList login, textNode "USERPASS".toList pass, textNode "LANGUAGE".toList "ENG".toList,
      .elem "FI".toList [textNode "ORG".toList f.org, textNode "FID".toList f.fid],
      textNode "APPID".toList bc.id, textNode "APPVER".toList bc.version] ++
       (if f.clientUID = [] then [] else [textNode "CLIENTUID".toList f.clientUID])) = _
    rw [k2, k3, hbc]
    rfl
  have hsets : ((profileQueryAs w f uid login pass).setClientFields w.net.now bc).sets =
      fun s => if s = .prof then [.profileRequest ⟨uid, [], [], [], unixEpoch w⟩] else [] := rfl
  obtain ⟨name, hn, hbody⟩ := one_message signon .prof (by decide) (.profileRequest ⟨uid, [], [], [], unixEpoch w⟩) content
  rw [hsets, hbody, hsig] at hb
  have hf := hf .prof (by decide)
  rw [hsets] at hf
  simp only [if_true] at hf
  obtain ⟨n, hn1, hn2⟩ : ∃ n, content .prof = [n] ∧
      ((Message.profileRequest ⟨uid, [], [], [], unixEpoch w⟩).valid ((profileQueryAs w f uid login pass).setClientFields w.net.now bc).version).2.encode = .ok [n] := by
    cases hcm : content .prof with
    | nil => rw [hcm] at hf; cases hf
    | cons n l =>
      rw [hcm] at hf
      cases hf with
      | cons h1 h2 =>
        cases h2
        obtain ⟨cs, -, h1⟩ := h1
        exact ⟨n, rfl, h1⟩
  rw [hn1] at hb
  have hname : ∀ a ∈ requestOrder, ∀ b ∈ requestOrder, a.1 = b.1 → a.2 = b.2 := by decide +kernel
  obtain rfl : name = "PROFMSGSRQV1" := hname _ hn (.prof, "PROFMSGSRQV1") (by decide +kernel) rfl
  refine ⟨?_, ?_, ?_, ?_, unixEpoch w, rfl, ?_⟩
  · have := (C31_header_partial ((profileQueryAs w f uid login pass).setClientFields w.net.now bc) k4 d h).2
    rw [show ((profileQueryAs w f uid login pass).setClientFields w.net.now bc).version = versionNumber s.version from hver,
      show ((profileQueryAs w f uid login pass).setClientFields w.net.now bc).carriageReturn = false by
        show bc.CarriageReturn = _; rw [hbc]] at this
    exact this
  · obtain ⟨_, ns, rest, _, _, rfl⟩ := (request_marshal_ok _ d).mp h
    show (!bc.NoIndent) = _
    rw [hbc]
  · obtain ⟨_, ns, rest, _, _, rfl⟩ := (request_marshal_ok _ d).mp h
    show bc.CarriageReturn = _
    rw [hbc]
  · obtain ⟨_, ns, rest, _, _, rfl⟩ := (request_marshal_ok _ d).mp h
    show decide (bc.ofxVersion < 5) = _
    rw [hver]
  · have hv : ((Message.profileRequest ⟨uid, [], [], [], unixEpoch w⟩).valid
        ((profileQueryAs w f uid login pass).setClientFields w.net.now bc).version).2 =
        .profileRequest ⟨uid, [], [], "NONE".toList, unixEpoch w⟩ := by
      show Message.profileRequest (ProfileRequest.valid _ _).2 = _
      unfold ProfileRequest.valid
      rw [show UID.valid (ProfileRequest.mk uid [] [] [] (unixEpoch w)).TrnUID = none from h2]
    rw [hv] at hn2
    have := (profile_element uid (unixEpoch w)).symm.trans hn2
    injection this with this
    injection this with this
    rw [hb, ← this]

theorem own_segment {w : World} {f : Flags} {s : Setting} (hs : s ∈ combinations) {uid : Str} {tr : Trace}
    (hu : randomUID (w.entropy tr) = .ok uid) :
    ∃ own, ((settingClient f s).request w.env w.names w.net (profileQuery w f uid) tr).2.2 = tr ++ own ∧
      SendsOnly (DetectDocument w f s uid f.username f.password) own := by
  obtain ⟨evs, h1, h2⟩ := request_docs_from w.env w.names w.net (settingClient f s) (profileQuery w f uid) tr
  exact ⟨evs, h1, sendsOnly_mono (fun d hd => detect_document hs (C09_valid _ _ hu).2 hd) h2⟩

theorem anon_segment {w : World} {f : Flags} {s : Setting} (hs : s ∈ combinations) {uid : Str} {tr tr₁ : Trace}
    (hu : randomUID (w.entropy tr) = .ok uid) :
    ∃ anon, ((settingClient f s).request w.env w.names w.net
        (asAnonymous ((settingClient f s).request w.env w.names w.net (profileQuery w f uid) tr).2.1) tr₁).2.2 = tr₁ ++ anon ∧
      SendsOnly (DetectDocument w f s uid "anonymous00000000000000000000000".toList "anonymous00000000000000000000000".toList) anon := by
  obtain ⟨evs, h1, h2⟩ := request_docs_from w.env w.names w.net (settingClient f s)
    (asAnonymous ((settingClient f s).request w.env w.names w.net (profileQuery w f uid) tr).2.1) tr₁
  refine ⟨evs, h1, sendsOnly_mono (fun d hd => detect_document hs (C09_valid _ _ hu).2 ?_) h2⟩
  rw [← hd]
  exact (marshal_same (anon_same (used_same (.sent _ _ _ _ _ .fresh))) _ _).symm

theorem sendsOnly_nil (P : Doc → Prop) : SendsOnly P [] :=
  ⟨fun q hq => (by cases hq), fun q hq => (by cases hq)⟩

theorem no_pauses {tr evs tr' : Trace} (h : tr' = tr ++ evs) (hp : pauses tr' = pauses tr) : pauses evs = [] := by
  rw [h, pauses_append] at hp
  exact List.append_right_eq_self.mp hp

theorem fails_segment {w : World} {f : Flags} {s : Setting} (hs : s ∈ combinations) {tr tr' : Trace} (h : AttemptFails w f s tr tr') :
    ∃ evs, tr' = tr ++ evs ∧ Attempted w f s evs := by
  obtain ⟨uid, r, tr₁, e, r', e', hu, h1, h2⟩ := h
  obtain ⟨own, g1, g2⟩ := own_segment (f := f) hs hu
  obtain ⟨anon, g3, g4⟩ := anon_segment (f := f) (tr₁ := tr₁) hs hu
  rw [h1] at g1 g3
  simp only at g1 g3
  rw [h2] at g3
  simp only at g3
  refine ⟨own ++ anon, by rw [g3, g1, List.append_assoc], uid, tr, own, anon, hu, rfl, ?_, g2, g4⟩
  have p1 := request_pauses w.env w.names w.net (settingClient f s) (profileQuery w f uid) tr
  have p2 := request_pauses w.env w.names w.net (settingClient f s) (asAnonymous r) tr₁
  rw [h1] at p1
  rw [h2] at p2
  exact no_pauses (show tr' = tr ++ (own ++ anon) by rw [g3, g1, List.append_assoc]) (p2.trans p1)

theorem works_segment {w : World} {f : Flags} {s : Setting} (hs : s ∈ combinations) {tr tr' : Trace} (h : AttemptWorks w f s tr tr') :
    ∃ evs, tr' = tr ++ evs ∧ Attempted w f s evs := by
  obtain ⟨uid, hu, ⟨x, r, h1⟩ | ⟨e, r, tr₁, x, r', h1, h2⟩⟩ := h
  · obtain ⟨own, g1, g2⟩ := own_segment (f := f) hs hu
    rw [h1] at g1
    have p1 := request_pauses w.env w.names w.net (settingClient f s) (profileQuery w f uid) tr
    rw [h1] at p1
    exact ⟨own, g1, uid, tr, own, [], hu, by rw [List.append_nil], no_pauses g1 p1, g2, sendsOnly_nil _⟩
  · obtain ⟨own, g1, g2⟩ := own_segment (f := f) hs hu
    obtain ⟨anon, g3, g4⟩ := anon_segment (f := f) (tr₁ := tr₁) hs hu
    rw [h1] at g1 g3
    simp only at g1 g3
    rw [h2] at g3
    simp only at g3
    refine ⟨own ++ anon, by rw [g3, g1, List.append_assoc], uid, tr, own, anon, hu, rfl, ?_, g2, g4⟩
    have p1 := request_pauses w.env w.names w.net (settingClient f s) (profileQuery w f uid) tr
    have p2 := request_pauses w.env w.names w.net (settingClient f s) (asAnonymous r) tr₁
    rw [h1] at p1
    rw [h2] at p2
    exact no_pauses (show tr' = tr ++ (own ++ anon) by rw [g3, g1, List.append_assoc]) (p2.trans p1)

theorem failed_segments {w : World} {f : Flags} {ss : List Setting} {tr : Trace} (hs : ∀ s ∈ ss, s ∈ combinations)
    (h : AllFailed w f ss tr) : ∃ parts, List.Forall₂ (Attempted w f) ss parts ∧
      tr = (parts.map (· ++ [Event.paused (waitedNs f.delay)])).flatten := by
  induction h with
  | none => exact ⟨[], .nil, rfl⟩
  | @more ss tr s tr' hf ha ih =>
    obtain ⟨parts, h1, h2⟩ := ih fun s h => hs s (List.mem_append_left _ h)
    obtain ⟨evs, h3, h4⟩ := fails_segment (hs s (by simp)) ha
    refine ⟨parts ++ [evs], List.rel_append h1 (.cons h4 .nil), ?_⟩
    rw [h3, h2]; simp

/-- C62: what detect-settings does falls into one part for each combination of a beginning of the
list of combinations, in order, separated by pauses.  In the part of a combination everything sent
is the request for the profile with the settings of that combination, first with the login of the
flags and then with the anonymous one. -/
theorem C62_detect (w : World) (f : Flags) :
    ∃ tried parts, tried <+: combinations ∧ List.Forall₂ (Attempted w f) tried parts ∧
      Spaced (.paused (waitedNs f.delay)) parts (Command.detectSettings.run w f).trace := by
  show ∃ tried parts, _ ∧ _ ∧ Spaced _ _ (detectSettings w f).trace
  rcases C51_detect_partial w f with ⟨h, -⟩ | ⟨tried, s, later, tr, hc, hf, h⟩
  · obtain ⟨parts, h1, h2⟩ := failed_segments (fun _ h => h) h
    exact ⟨combinations, parts, List.prefix_rfl, h1, .inl h2⟩
  · have hin : ∀ t ∈ tried ++ [s], t ∈ combinations := by
      intro t ht
      rw [hc]
      rcases List.mem_append.mp ht with ht | ht
      · exact List.mem_append_left _ ht
      · rw [List.mem_singleton] at ht; rw [ht]; exact List.mem_append_right _ (List.mem_cons_self ..)
    obtain ⟨parts, h1, h2⟩ := failed_segments (fun t ht => hin t (List.mem_append_left _ ht)) hf
    rcases h with ⟨hw, -⟩ | ⟨-, -, ht⟩
    · obtain ⟨evs, h3, h4⟩ := works_segment (hin s (by simp)) hw
      exact ⟨tried ++ [s], parts ++ [evs], ⟨later, by rw [hc]; simp⟩, List.rel_append h1 (.cons h4 .nil),
        .inr ⟨parts, evs, rfl, by rw [h3, h2]⟩⟩
    · exact ⟨tried, parts, ⟨s :: later, hc.symm⟩, h1, .inl (by rw [ht, h2])⟩

/-- The sample flags, and the same with the anonymous login. -/
def sampleLogins : List (Str × Str) :=
  [("someone".toList, "secret".toList), ("anonymous00000000000000000000000".toList, "anonymous00000000000000000000000".toList)]

/-- The sample flags give a document with every combination, as does the anonymous login. -/
theorem detect_sample_document (now : GoTime) (body : List UInt8) {s : Setting} (hs : s ∈ combinations) {uid : Str}
    (hu : UID.valid uid = none) {l : Str × Str} (hl : l ∈ sampleLogins) :
    ∃ d, ((profileQueryAs (answering now body) sampleFlags uid l.1 l.2).setClientFields now (settingClient sampleFlags s).bc).marshal.1 = .ok d := by
  have hbc : (settingClient sampleFlags s).bc = ⟨versionNumber s.version, s.appID, s.appVer, s.noIndent, false, [], none⟩ := client_bc _ _
  generalize (settingClient sampleFlags s).bc = bc at hbc
  obtain ⟨-, k2, k3, -, -⟩ := C43_defaults bc
  rw [C26_request_marshal_iff]
  refine ⟨?_, ?_⟩
  · have : ∀ l ∈ sampleLogins, ∀ s ∈ combinations, ((SignonRequest.mk GoTime.zero l.1 l.2 [] false [] "B1".toList "10898".toList
      (orDefault s.appID "OFXGO".toList) (orDefault s.appVer "0001".toList) []).valid 8).1 = none := by decide +kernel
    have := (C23_signon_valid_iff 8 _).mp (this l hl s hs)
    rw [show orDefault s.appID "OFXGO".toList = bc.id by rw [k2, hbc], show orDefault s.appVer "0001".toList = bc.version by rw [k3, hbc]] at this
    exact ⟨this.user, this.secret, this.pass, this.key, this.language, this.appId, this.appVer⟩
  · intro t _ m hm
    have hm : m ∈ (if t = .prof then [Message.profileRequest ⟨uid, [], [], [], unixEpoch (answering now body)⟩] else []) := hm
    by_cases ht : t = .prof
    · rw [if_pos ht, List.mem_singleton] at hm
      subst hm; subst ht
      refine ⟨rfl, ?_⟩
      show (ProfileRequest.valid _ _).1 = none
      unfold ProfileRequest.valid
      rw [show UID.valid (ProfileRequest.mk uid [] [] [] (unixEpoch (answering now body))).TrnUID = none from hu]
    · rw [if_neg ht] at hm; cases hm

theorem detect_sample_request (now : GoTime) (body : List UInt8) {s : Setting} (hs : s ∈ combinations) {uid : Str}
    (hu : UID.valid uid = none) {l : Str × Str} (hl : l ∈ sampleLogins) {r : Request Message}
    (hr : ReqSame (profileQueryAs (answering now body) sampleFlags uid l.1 l.2) r) (tr : Trace) :
    posts ((settingClient sampleFlags s).request (answering now body).env (answering now body).names (answering now body).net
      r tr).2.2 ≠ posts tr := by
  obtain ⟨d, hd⟩ := detect_sample_document now body hs hu hl
  rw [← marshal_same hr] at hd
  have hcl : ∃ bc, settingClient sampleFlags s = .basic bc := ⟨_, rfl⟩
  generalize settingClient sampleFlags s = cl at hd hcl
  obtain ⟨bc, rfl⟩ := hcl
  have hu : r.url = sampleFlags.serverURL := hr.1
  have hraw : posts ((Client.basic bc).requestNoParse (answering now body).net r tr).2.2 ≠ posts tr := by
    obtain ⟨hs', k1⟩ := constNet_first now ⟨200, "200 OK".toList, body.length, [], [], body⟩ rfl (.basic bc)
      (by intro bc h; cases h) r.url (by rw [hu]; decide) d.bytes tr
    rcases noParse_cases (answering now body).net (.basic bc) r tr with ⟨e, h', -⟩ | ⟨d', h', h''⟩
    · erw [hd] at h'; cases h'
    erw [hd] at h'
    cases h'
    rcases h'' with ⟨-, h''⟩ | ⟨resp', -, hr, -⟩
    · rw [h'']; erw [k1]; rw [posts_append]; intro h
      have := congrArg List.length h
      rw [List.length_append] at this
      have : (posts [Event.sent ⟨"POST", r.url, hs', [], d.bytes, 0⟩, .opened ⟨⟨200, "200 OK".toList, body.length, [], [], body⟩, tr.length + 1⟩]).length = 0 := by omega
      exact absurd this (by simp [posts])
    · obtain ⟨⟨bc, hr⟩, -⟩ := hr; cases hr
  rcases request_cases (answering now body).env (answering now body).names (answering now body).net (.basic bc) r tr with
    ⟨e, -, g⟩ | ⟨resp, -, -, g, -⟩
  · rw [g]; exact hraw
  · rw [g, (posts_closed _ _).1]; exact hraw

/-- detect-settings does send documents: with servers that answer, whatever they answer, there is
a post. -/
theorem detect_sample_posts (now : GoTime) (body : List UInt8) :
    posts (Command.detectSettings.run (answering now body) sampleFlags).trace ≠ [] := by
  have hmore : ∀ {s tr evs uid}, s ∈ combinations → UID.valid uid = none →
      ((settingClient sampleFlags s).request (answering now body).env (answering now body).names (answering now body).net
        (profileQuery (answering now body) sampleFlags uid) tr).2.2 = tr ++ evs → posts evs ≠ [] := by
    intro s tr evs uid hs hu h h0
    apply detect_sample_request now body hs hu (l := ("someone".toList, "secret".toList)) (.head _)
      (r := profileQuery (answering now body) sampleFlags uid) (used_same .fresh) tr
    rw [h, posts_append, h0, List.append_nil]
  have happ : ∀ {a b c : Trace}, c = a ++ b → posts b ≠ [] → posts c ≠ [] := by
    rintro a b c rfl h h0
    rw [posts_append, List.append_eq_nil_iff] at h0
    exact h h0.2
  have hgrow : ∀ {a b c : Trace}, c = a ++ b → posts a ≠ [] → posts c ≠ [] := by
    rintro a b c rfl h h0
    rw [posts_append, List.append_eq_nil_iff] at h0
    exact h h0.1
  have hfail : ∀ {s tr tr'}, s ∈ combinations → AttemptFails (answering now body) sampleFlags s tr tr' → posts tr' ≠ [] := by
    rintro s tr tr' hs ⟨uid, r, tr₁, e, r', e', hu, h1, h2⟩
    obtain ⟨own, g1, -⟩ := own_segment (f := sampleFlags) hs hu
    have g2 := happ g1 (hmore hs (C09_valid _ _ hu).2 g1)
    rw [h1] at g2
    obtain ⟨evs, g3, -⟩ := request_docs_from (answering now body).env (answering now body).names (answering now body).net
      (settingClient sampleFlags s) (asAnonymous r) tr₁
    rw [h2] at g3
    exact hgrow g3 g2
  have hwork : ∀ {s tr tr'}, s ∈ combinations → AttemptWorks (answering now body) sampleFlags s tr tr' → posts tr' ≠ [] := by
    rintro s tr tr' hs ⟨uid, hu, ⟨x, r, h1⟩ | ⟨e, r, tr₁, x, r', h1, h2⟩⟩
    · obtain ⟨own, g1, -⟩ := own_segment (f := sampleFlags) hs hu
      have g2 := happ g1 (hmore hs (C09_valid _ _ hu).2 g1)
      rw [h1] at g2
      exact g2
    · obtain ⟨own, g1, -⟩ := own_segment (f := sampleFlags) hs hu
      have g2 := happ g1 (hmore hs (C09_valid _ _ hu).2 g1)
      rw [h1] at g2
      obtain ⟨evs, g3, -⟩ := request_docs_from (answering now body).env (answering now body).names (answering now body).net
        (settingClient sampleFlags s) (asAnonymous r) tr₁
      rw [h2] at g3
      exact hgrow g3 g2
  show posts (detectSettings (answering now body) sampleFlags).trace ≠ []
  rcases C51_detect_partial (answering now body) sampleFlags with ⟨h, -⟩ | ⟨tried, s, later, tr, hc, hf, ⟨h, -⟩ | ⟨⟨e, h, -⟩, -⟩⟩
  · have hne : combinations ≠ [] := by decide +kernel
    have hall : ∀ s ∈ combinations, s ∈ combinations := fun _ h => h
    revert h hne hall
    generalize (detectSettings (answering now body) sampleFlags).trace = tr
    generalize hl : combinations = l
    intro h hne hall
    cases h with
    | none => exact absurd rfl hne
    | more _ ha => exact hgrow rfl (hfail (by rw [hl]; simp) ha)
  · exact hwork (by rw [hc]; simp) h
  · exfalso
    have : randomUID ((answering now body).entropy tr) = .ok "07070707-0707-0707-0707-070707070707".toList := by
      show randomUID (.read (List.replicate 16 7)) = _
      decide +kernel
    rw [this] at h; cases h

end Ofx.Props
