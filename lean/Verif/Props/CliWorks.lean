import Verif.Spec.CliWorks
import Verif.Props.Answered
import Verif.Props.CliAsk
import Verif.Props.CliShow
import Verif.Props.Accept
/-
Property C88: commands with usable flags work.
-/
namespace Ofx.Props
open Ofx Spec

/-- The rest of Usable: what making the document needs. -/
structure Makes (c : Command) (f : Flags) : Prop where
  version : ∃ name ∈ ["102", "103", "151", "160", "200", "201", "202", "203", "210", "211", "220"],
    TrimsTo f.ofxVersion name.toList
  username : 1 ≤ bytes f.username ∧ bytes f.username ≤ 32
  password : 1 ≤ bytes f.password ∧ bytes f.password ≤ 32
  appID : bytes f.appID ≤ 5
  appVer : bytes f.appVer ≤ 4
  bank : c = .downloadBank ∨ c = .transactionsBank → f.bankID ≠ [] ∧ f.acctID ≠ [] ∧
    ∃ kind ∈ ["CHECKING", "SAVINGS", "MONEYMRKT", "CREDITLINE", "CD"], TrimsTo f.acctType kind.toList

theorem usable_iff {c : Command} {f : Flags} : Usable c f ↔ "https://".toList <+: f.serverURL ∧ Makes c f :=
  ⟨fun ⟨a, b, c, d, e, f, g⟩ => ⟨a, b, c, d, e, f, g⟩, fun ⟨a, b, c, d, e, f, g⟩ => ⟨a, b, c, d, e, f, g⟩⟩

theorem new_ok (t : EnumTable) (ht : t ∈ allEnums) (text : Str) :
    (t.new text).2 = none ↔ ∃ e s, t.valid e = true ∧ t.string e = .ret s ∧ TrimsTo text s := by
  constructor
  · intro h
    obtain ⟨h1, s, h2, h3⟩ := (C10_parse_iff t ht text (t.new text).1).mp ((C10_new_unmarshal _ _ _).1.mp (Prod.ext rfl h))
    exact ⟨_, s, h1, h2, h3⟩
  · rintro ⟨e, s, h1, h2, h3⟩
    rw [(C10_new_unmarshal _ _ _).1.mpr ((C10_parse_iff t ht text e).mpr ⟨h1, s, h2, h3⟩)]

theorem version_ok (text : Str) : (enumOfxVersion.new text).2 = none ↔
    ∃ name ∈ ["102", "103", "151", "160", "200", "201", "202", "203", "210", "211", "220"], TrimsTo text name.toList := by
  have hd : enumOfxVersion ∈ allEnums := by decide +kernel
  rw [new_ok _ hd]
  constructor
  · rintro ⟨e, s, h1, h2, h3⟩
    obtain ⟨s', g4, g5⟩ := (good_of_mem hd).string_valid h1
    rw [h2] at g5; cases g5
    have hm := List.mem_of_getElem? g4
    have hall : ∀ n ∈ enumOfxVersion.names, ∃ name ∈ ["102", "103", "151", "160", "200", "201", "202", "203", "210", "211", "220"],
      n = name.toList := by decide +kernel
    obtain ⟨name, k1, k2⟩ := hall _ hm
    exact ⟨name, k1, k2 ▸ h3⟩
  · rintro ⟨name, h1, h2⟩
    have hall : ∀ name ∈ ["102", "103", "151", "160", "200", "201", "202", "203", "210", "211", "220"],
      ∃ e ∈ List.range 12, enumOfxVersion.valid e = true ∧ enumOfxVersion.string e = .ret name.toList := by decide +kernel
    obtain ⟨e, -, k1, k2⟩ := hall name h1
    exact ⟨e, _, k1, k2, h2⟩

theorem query_bank {c : Command} (hc : c = .downloadBank ∨ c = .transactionsBank) (w : World) (f : Flags) :
    c.query w f = prepareBank w f := by rcases hc with rfl | rfl <;> rfl

theorem prepare_makes {w : World} {f : Flags} (set : MsgSet) (msg : Str → Message) (hv : (enumOfxVersion.new f.ofxVersion).2 = none)
    {uid : Str} (hu : randomUID (w.entropy []) = .ok uid) : ∃ cl r, prepare w f set msg = .ok (cl, r) := by
  unfold prepare newRequest
  rcases hn : enumOfxVersion.new f.ofxVersion with ⟨ver, err⟩
  rw [hn] at hv
  cases hv
  simp only [hu]
  exact ⟨_, _, rfl⟩

theorem query_makes {c : Command} (hc : OneRequest c) {w : World} {f : Flags} (hv : (enumOfxVersion.new f.ofxVersion).2 = none)
    {uid : Str} (hu : randomUID (w.entropy []) = .ok uid)
    (hb : c = .downloadBank ∨ c = .transactionsBank → (enumAcctType.new f.acctType).2 = none) :
    ∃ cl r, c.query w f = .ok (cl, r) := by
  by_cases hbank : c = .downloadBank ∨ c = .transactionsBank
  · rw [query_bank hbank]
    have h1 := hb hbank
    unfold prepareBank
    have h2 : ∃ x, newRequest f = .ok x := by
      unfold newRequest
      rcases hn : enumOfxVersion.new f.ofxVersion with ⟨ver, err⟩
      rw [hn] at hv
      cases hv
      exact ⟨_, rfl⟩
    obtain ⟨x, h2⟩ := h2
    rw [h2]
    simp only
    rcases hn : enumAcctType.new f.acctType with ⟨t, err⟩
    rw [hn] at h1
    cases h1
    exact prepare_makes _ _ hv hu
  · cases c
    case detectSettings => exact absurd rfl hc
    case downloadBank => exact absurd (.inl rfl) hbank
    case transactionsBank => exact absurd (.inr rfl) hbank
    all_goals exact prepare_makes _ _ hv hu

theorem bytes_none {s : Str} : s = [] ↔ bytes s = 0 := by rw [← blen_bytes, blen_zero]

theorem default_size (own default : Str) (n : Nat) (h : 1 ≤ bytes default ∧ bytes default ≤ n) :
    (1 ≤ bytes (orDefault own default) ∧ bytes (orDefault own default) ≤ n) ↔ bytes own ≤ n := by
  unfold orDefault
  by_cases ho : own = []
  · rw [if_pos ho]
    have := bytes_none.mp ho
    omega
  · rw [if_neg ho]
    have : bytes own ≠ 0 := fun h => ho (bytes_none.mpr h)
    omega

/-- The request of a command can be written exactly when the flags are as they should. -/
theorem command_made_iff {c : Command} (hc : OneRequest c) {w : World} {f : Flags} {uid : Str} (hu : randomUID (w.entropy []) = .ok uid) :
    (∃ cl r d, c.query w f = .ok (cl, r) ∧ (r.setClientFields w.net.now cl.bc).marshal.1 = .ok d) ↔ Makes c f := by
  have hsign : ∀ {cl r}, c.query w f = .ok (cl, r) → (GoodSignon (r.setClientFields w.net.now cl.bc).signon ↔
      (1 ≤ bytes f.username ∧ bytes f.username ≤ 32) ∧ (1 ≤ bytes f.password ∧ bytes f.password ≤ 32) ∧
      bytes f.appID ≤ 5 ∧ bytes f.appVer ≤ 4) := by
    intro cl r hq
    obtain ⟨ver, uid, h1, h2, h3, h4, h5, h6⟩ := query_ok hq
    obtain ⟨k1, k2, k3, k4, -⟩ := C43_defaults cl.bc
    have hbc : cl.bc = ⟨ver, f.appID, f.appVer, f.noIndentRequests, f.carriageReturn, f.userAgent, none⟩ := by
      rw [h3, client_bc]
    have hso : (r.setClientFields w.net.now cl.bc).signon = ⟨w.net.now, f.username, f.password, [], false, [], f.org, f.fid,
        orDefault f.appID "OFXGO".toList, orDefault f.appVer "0001".toList, f.clientUID⟩ := by
      show { r.signon with DtClient := w.net.now, AppID := cl.bc.id, AppVer := cl.bc.version } = _
      rw [h5, k2, k3, hbc]
    rw [hso]
    have hd1 := default_size f.appID "OFXGO".toList 5 (by decide)
    have hd2 := default_size f.appVer "0001".toList 4 (by decide)
    constructor
    · rintro ⟨a, b, c, d, e, g, h⟩
      refine ⟨a, ⟨?_, c⟩, hd1.mp g, hd2.mp h⟩
      rcases b with ⟨-, b⟩ | ⟨b, -⟩
      · exact absurd rfl b
      · have : bytes f.password ≠ 0 := fun h => b (bytes_none.mpr h)
        omega
    · rintro ⟨a, b, d, e⟩
      refine ⟨a, .inr ⟨fun h => ?_, rfl⟩, b.2, (show bytes [] ≤ 64 by decide), .inl rfl, hd1.mpr d, hd2.mpr e⟩
      have : bytes f.password = 0 := bytes_none.mp h
      omega
  have hmsg : ∀ {cl r}, c.query w f = .ok (cl, r) → ((∀ s, s ≠ .signon → ∀ m ∈ (r.setClientFields w.net.now cl.bc).sets s,
        RequestOf s m ∧ Passes (r.setClientFields w.net.now cl.bc).version m) ↔
      (c = .downloadBank ∨ c = .transactionsBank → f.bankID ≠ [] ∧ f.acctID ≠ [] ∧
        ∃ n ∈ ["CHECKING", "SAVINGS", "MONEYMRKT", "CREDITLINE", "CD"], Named enumAcctType (enumAcctType.new f.acctType).1 n)) := by
    intro cl r hq
    obtain ⟨ver, uid, h1, h2, h3, h4, h5, h6⟩ := query_ok hq
    have hg : GoodUID uid := (uid_valid_iff _).mp (C09_valid _ _ h2).2
    have hsets : (r.setClientFields w.net.now cl.bc).sets = fun s => if s = (c.message w f uid).1 then [(c.message w f uid).2] else [] :=
      funext h6
    rw [hsets]
    have hX : (c.message w f uid).1 ≠ .signon := by cases c <;> (intro h; cases h)
    have hone : ∀ P : MsgSet → Message → Prop, (∀ s, s ≠ .signon → ∀ m ∈ (if s = (c.message w f uid).1 then [(c.message w f uid).2] else []), P s m) ↔
        P (c.message w f uid).1 (c.message w f uid).2 := by
      intro P
      constructor
      · intro h
        exact h _ hX _ (by simp)
      · intro h s hs m hm
        by_cases hs' : s = (c.message w f uid).1
        · rw [if_pos hs', List.mem_singleton] at hm
          rw [hs', hm]; exact h
        · rw [if_neg hs'] at hm; cases hm
    rw [hone (fun s m => RequestOf s m ∧ Passes (r.setClientFields w.net.now cl.bc).version m)]
    have hbank : ∀ v, Passes v (.statementRequest ⟨uid, [], [], ⟨[], f.bankID, [], f.acctID, (enumAcctType.new f.acctType).1, []⟩, none, none, true, false, false⟩) ↔
        (f.bankID ≠ [] ∧ f.acctID ≠ [] ∧
        ∃ n ∈ ["CHECKING", "SAVINGS", "MONEYMRKT", "CREDITLINE", "CD"], Named enumAcctType (enumAcctType.new f.acctType).1 n) := by
      intro v
      constructor
      · rintro ⟨-, -, -, a, b, c⟩; exact ⟨a, b, c⟩
      · rintro ⟨a, b, c⟩; exact ⟨hg, fun h => (by cases h), fun h => (by cases h), a, b, c⟩
    cases c
    case detectSettings => exact absurd rfl hc
    case downloadBank => exact ⟨fun h _ => (hbank _).mp h.2, fun h => ⟨trivial, (hbank _).mpr (h (.inl rfl))⟩⟩
    case transactionsBank => exact ⟨fun h _ => (hbank _).mp h.2, fun h => ⟨trivial, (hbank _).mpr (h (.inr rfl))⟩⟩
    all_goals exact ⟨fun _ h => absurd h (by decide), fun _ => ⟨trivial, hg⟩⟩
  have hkind : (enumAcctType.new f.acctType).2 = none →
      ((∃ n ∈ ["CHECKING", "SAVINGS", "MONEYMRKT", "CREDITLINE", "CD"], Named enumAcctType (enumAcctType.new f.acctType).1 n) ↔
        ∃ kind ∈ ["CHECKING", "SAVINGS", "MONEYMRKT", "CREDITLINE", "CD"], TrimsTo f.acctType kind.toList) := by
    intro h
    have hd : enumAcctType ∈ allEnums := by decide +kernel
    obtain ⟨h1, s, h2, h3⟩ := (C10_parse_iff _ hd _ _).mp ((C10_new_unmarshal _ _ _).1.mp (Prod.ext (x := enumAcctType.new f.acctType) (y := ((enumAcctType.new f.acctType).1, none)) rfl h))
    constructor
    · rintro ⟨n, k1, k2⟩
      unfold Named at k2
      rw [h2] at k2
      injection k2 with k2
      exact ⟨n, k1, k2 ▸ h3⟩
    · rintro ⟨n, k1, k2⟩
      refine ⟨n, k1, ?_⟩
      have hall : ∀ n ∈ ["CHECKING", "SAVINGS", "MONEYMRKT", "CREDITLINE", "CD"],
        ∃ e ∈ List.range 7, enumAcctType.valid e = true ∧ enumAcctType.string e = .ret n.toList := by decide +kernel
      obtain ⟨e, -, g1, g2⟩ := hall n k1
      have := (C10_new_unmarshal _ _ _).1.mpr ((C10_parse_iff _ hd f.acctType e).mpr ⟨g1, _, g2, k2⟩)
      rw [this]
      exact g2
  constructor
  · rintro ⟨cl, r, d, hq, hm⟩
    obtain ⟨g1, g2⟩ := (C77_request_written_iff _).mp ⟨d, hm⟩
    obtain ⟨a, b, c', d'⟩ := (hsign hq).mp g1
    obtain ⟨ver, uid, h1, -⟩ := query_ok hq
    refine ⟨(version_ok _).mp (by rw [h1]), a, b, c', d', fun hb => ?_⟩
    obtain ⟨k1, k2, k3⟩ := (hmsg hq).mp g2 hb
    refine ⟨k1, k2, (hkind ?_).mp k3⟩
    rw [query_bank hb] at hq
    exact (prepareBank_ok hq).1
  · rintro ⟨a, b, c', d, e, g⟩
    have hb : c = .downloadBank ∨ c = .transactionsBank → (enumAcctType.new f.acctType).2 = none := by
      intro hb
      obtain ⟨-, -, kind, k1, k2⟩ := g hb
      have hall : ∀ n ∈ ["CHECKING", "SAVINGS", "MONEYMRKT", "CREDITLINE", "CD"],
        ∃ e ∈ List.range 7, enumAcctType.valid e = true ∧ enumAcctType.string e = .ret n.toList := by decide +kernel
      obtain ⟨e, -, g1, g2⟩ := hall kind k1
      exact (new_ok _ (by decide +kernel) _).mpr ⟨e, _, g1, g2, k2⟩
    obtain ⟨cl, r, hq⟩ := query_makes hc ((version_ok _).mpr a) hu hb
    obtain ⟨dd, hd⟩ := (C77_request_written_iff _).mpr ⟨(hsign hq).mpr ⟨b, c', d, e⟩, (hmsg hq).mpr fun h =>
      ⟨(g h).1, (g h).2.1, (hkind (hb h)).mpr (g h).2.2⟩⟩
    exact ⟨cl, r, dd, hq, hd⟩

theorem uid_of_entropy {w : World} (h : HasEntropy w) : ∃ uid, randomUID (w.entropy []) = .ok uid := by
  obtain ⟨bs, h1, h2⟩ := h
  rw [h1]
  unfold randomUID
  simp only
  rw [if_neg (by simpa using h2)]
  exact ⟨_, rfl⟩

/-- C88: with other flags a command sends nothing, saves nothing and exits with status 1. -/
theorem C88_refused (w : World) (f : Flags) (c : Command) (hc : OneRequest c) (hd : f.dryrun = false) (h : ¬ Usable c f) :
    (c.run w f).fin = .exit 1 ∧ (c.run w f).trace = [] ∧ (c.run w f).files = [] := by
  have hno : ∀ cl r, c.query w f = .ok (cl, r) → (∃ e, (cl.requestNoParse w.net r []).1 = (none, some e)) ∧
      (cl.requestNoParse w.net r []).2.2 = [] := by
    intro cl r hq
    obtain ⟨ver, uid, h1, h2, h3, h4, -⟩ := query_ok hq
    by_cases hu : "https://".toList <+: f.serverURL
    · have hn : ¬ Makes c f := fun h' => h (usable_iff.mpr ⟨hu, h'⟩)
      rcases noParse_cases w.net cl r [] with ⟨e, hm, h'⟩ | ⟨d, hm, -⟩
      · rw [h']; exact ⟨⟨e, rfl⟩, rfl⟩
      · exact absurd ((command_made_iff hc h2).mp ⟨cl, r, d, hq, hm⟩) hn
    · rw [← h4] at hu
      obtain ⟨k1, k2, -⟩ := C42_request_refused w.env w.names w.net cl r [] hu
      exact ⟨k1, k2⟩
  rcases saves_or_shows hc with hs | hs
  · obtain ⟨onError, he⟩ := run_saves hs w f
    rw [he]
    rcases save_cases w f (c.query w f) onError with ⟨e, -, h1⟩ | ⟨cl, r, hq, ⟨hn, h1⟩ | ⟨-, ⟨e, -, h1⟩ | ⟨x, hx, -⟩⟩⟩
    · rw [h1]; exact ⟨rfl, rfl, rfl⟩
    · rw [hd] at hn; cases hn
    · rw [h1, (hno cl r hq).2]; exact ⟨rfl, rfl, rfl⟩
    · obtain ⟨⟨e, h1⟩, -⟩ := hno cl r hq
      rw [hx] at h1; cases h1
  · obtain ⟨onError, he⟩ := run_shows hs w f
    rw [he]
    rcases show_cases w f (c.query w f) onError c.printer with ⟨e, -, h1⟩ | ⟨cl, r, hq, ⟨hn, h1⟩ | ⟨-, ht, hfs, hrest⟩⟩
    · rw [h1]; exact ⟨rfl, rfl, rfl⟩
    · rw [hd] at hn; cases hn
    · obtain ⟨⟨e, h1⟩, h2⟩ := hno cl r hq
      rcases request_cases w.env w.names w.net cl r [] with ⟨e', g1, g2⟩ | ⟨resp, g1, -⟩
      · rw [g2] at ht hrest
        rcases hrest with ⟨e2, -, -, k⟩ | ⟨x, hx, -⟩
        · refine ⟨k, ?_, hfs⟩
          rw [ht]; exact h2
        · cases hx
      · rw [h1] at g1; cases g1

/-- What the client of a command gets. -/
theorem usable_got {w : World} {f : Flags} {c : Command} (hc : OneRequest c) (h : Usable c f) (he : HasEntropy w) {raw : RawResponse}
    (hs : Answers w c f raw) : ∃ cl r resp, c.query w f = .ok (cl, r) ∧ (cl.requestNoParse w.net r []).1 = (some resp, none) ∧
      resp.toRawResponse = raw := by
  obtain ⟨uid, hu⟩ := uid_of_entropy he
  obtain ⟨hp, hm⟩ := usable_iff.mp h
  obtain ⟨cl, r, d, hq, hd⟩ := (command_made_iff hc hu).mpr hm
  obtain ⟨ver, uid', h1, h2, h3, h4, -⟩ := query_ok hq
  have hserves := hs.serves d (asks_document hc hq hd)
  rw [← h4] at hserves hp
  obtain ⟨resp, tr', k1, k2⟩ := raw_served (c := cl) hp hserves hs.ok []
  refine ⟨cl, r, resp, hq, ?_, k2⟩
  rcases noParse_cases w.net cl r [] with ⟨e, h', -⟩ | ⟨d', h', h''⟩
  · rw [hd] at h'; cases h'
  rw [hd] at h'
  cases h'
  rcases h'' with ⟨-, h''⟩ | ⟨resp', g1, g2, -⟩
  · rw [h'', k1]
  · rw [k1] at g1
    cases g1
    obtain ⟨⟨bc, g2⟩, g3, g4⟩ := g2
    have hos := hs.once
    rw [← k2] at hos
    rcases hos with hos | hos | hos
    · obtain ⟨-, hvan, -⟩ := C44_getClient f.serverURL ⟨ver, f.appID, f.appVer, f.noIndentRequests, f.carriageReturn, f.userAgent, none⟩
      rw [h3] at g2
      have hbc : (getClient f.serverURL ⟨ver, f.appID, f.appVer, f.noIndentRequests, f.carriageReturn, f.userAgent, none⟩).bc = bc := by
        rw [g2]; rfl
      rw [client_bc] at hbc
      rw [← hbc] at g2
      exact absurd (hvan.mp g2) hos
    · have : 0 < resp.contentLength := hos
      omega
    · have : resp.cookies = [] := hos
      rw [this] at g4
      simp at g4

/-- C88: with usable flags, a server that answers and a file that can be written, a command that
saves saves what the server answered and exits with status 0. -/
theorem C88_saves (w : World) (f : Flags) (c : Command) (hc : Saves c) (hd : f.dryrun = false) (h : Usable c f) (he : HasEntropy w)
    (hf : w.creatable f.filename = true ∧ w.copies f.filename = none) (raw : RawResponse) (hs : Answers w c f raw) :
    (c.run w f).fin = .exit 0 ∧ (c.run w f).out = [] ∧ (c.run w f).files = [(f.filename, raw.body)] := by
  obtain ⟨cl, r, resp, hq, h1, h2⟩ := usable_got (by rcases hc with rfl | rfl | rfl | rfl <;> (unfold OneRequest; decide)) h he hs
  obtain ⟨onError, hr⟩ := run_saves hc w f
  rw [hr, hq]
  unfold saveCommand
  simp only
  rw [if_neg (by rw [hd]; decide)]
  generalize cl.requestNoParse w.net r [] = y at h1 ⊢
  obtain ⟨res, r', tr'⟩ := y
  cases h1
  simp only
  rw [if_neg (by rw [hf.1]; decide), hf.2, if_neg (by decide), ← h2]
  exact ⟨rfl, rfl, rfl⟩

/-- C88: with usable flags and a server that answers with a response that says the login
succeeded, a command that shows exits with status 0, unless what it shows makes it crash (C59);
what it shows is in C60. -/
theorem C88_shows (w : World) (f : Flags) (c : Command) (hc : Shows c) (hd : f.dryrun = false) (h : Usable c f) (he : HasEntropy w)
    (raw : RawResponse) (hs : Answers w c f raw) (x : Response Message)
    (hx : parseResponse w.env w.names raw.body = (some x, none)) (h0 : x.signon.Status.Code = 0) :
    (¬ Crashes c x → (c.run w f).fin = .exit 0 ∧ (c ≠ .transactionsInv → Shown c x (c.run w f).out)) ∧
    (Crashes c x → (c.run w f).fin = .panic) := by
  obtain ⟨cl, r, resp, hq, h1, h2⟩ := usable_got (by rcases hc with rfl | rfl | rfl | rfl <;> (unfold OneRequest; decide)) h he hs
  have hgot : (cl.request w.env w.names w.net r []).1 = (some x, none) := by
    rcases request_cases w.env w.names w.net cl r [] with ⟨e', g1, g2⟩ | ⟨resp', g1, -, -, g2⟩
    · rw [h1] at g1; cases g1
    · rw [h1] at g1
      cases g1
      have hb : resp.body = raw.body := by rw [← h2]
      rw [hb] at g2
      rcases g2 with ⟨e, g2, -⟩ | ⟨-, g2⟩
      · rw [hx] at g2; cases g2
      · rw [g2, hx]
  obtain ⟨onError, hr⟩ := run_shows hc w f
  have htypes := decoded_types ((C35_decodable _ _ _ _).mp (by rw [hx]))
  rw [hr]
  rcases show_cases w f (c.query w f) onError c.printer with
    ⟨e, g, -⟩ | ⟨cl', r', g, ⟨g', -⟩ | ⟨-, -, -, ⟨e, g', -⟩ | ⟨x', g', ⟨hz, -⟩ | ⟨hz, ho, hf⟩⟩⟩⟩
  · rw [hq] at g; cases g
  · rw [hd] at g'; cases g'
  · rw [hq] at g; cases g; rw [hgot] at g'; cases g'
  · rw [hq] at g; cases g; rw [hgot] at g'; cases g'
    exact absurd h0 hz
  · rw [hq] at g; cases g; rw [hgot] at g'; cases g'
    refine ⟨fun hn => ⟨?_, fun hi => ?_⟩, fun hn => ?_⟩
    · rw [hf, if_neg (by rw [printer_panics]; exact hn)]
    · rw [ho]
      rcases hc with rfl | rfl | rfl | rfl
      · exact printAccounts_shown (htypes .signup (by decide))
      · exact printBank_shown (htypes .bank (by decide)) hn
      · exact printCC_shown (htypes .creditCard (by decide)) hn
      · exact absurd rfl hi
    · rw [hf, if_pos (by rw [printer_panics]; exact hn)]

/-- The sample flags are usable, with a version of an existing number and a known kind of account;
without the number of the bank they are not, for banks. -/
theorem sample_usable (c : Command) : Usable c sampleFlags :=
  ⟨by decide, ⟨"203", by decide, (trimsTo_iff _ _).mpr (by decide +kernel)⟩, by decide, by decide, by decide, by decide,
    fun _ => ⟨by decide, by decide, "CHECKING", by decide, (trimsTo_iff _ _).mpr (by decide +kernel)⟩⟩

example : ¬ Usable .downloadBank { sampleFlags with bankID := [] } := fun h => (h.bank (.inl rfl)).1 rfl

/-- With them and a server that answers everything with the sample response, statements are saved. -/
example (now : GoTime) (c : Command) (hc : Saves c) (body : List UInt8) :
    ∃ w : World, w.net.now = now ∧ (c.run w sampleFlags).fin = .exit 0 ∧
      (c.run w sampleFlags).files = [("statement.ofx".toList, body)] := by
  obtain ⟨h1, -, h2⟩ := C88_saves (answering now body) sampleFlags c hc rfl (sample_usable c) ⟨_, rfl, by decide⟩ ⟨rfl, rfl⟩
    ⟨200, "200 OK".toList, body.length, [], [], body⟩
    ⟨fun d _ => ⟨⟨_, rfl⟩, fun _ _ _ _ _ => rfl, fun _ _ => ⟨_, rfl, rfl, fun _ _ => rfl⟩⟩, rfl, .inr (.inr rfl)⟩
  exact ⟨_, rfl, h1, h2⟩

/-- And accounts, transactions of banks, credit cards and investments are shown. -/
example (now : GoTime) (c : Command) (hc : Shows c) : ∃ (w : World) (x : Response Message), w.net.now = now ∧
    x.sets .bank = centsResponse.sets .bank ∧ (c.run w sampleFlags).fin = .exit 0 ∧
      (c ≠ .transactionsInv → Shown c x (c.run w sampleFlags).out) := by
  obtain ⟨d, hd⟩ := centsResponse_ok
  obtain ⟨x, g1, g2, g3, g4, g5⟩ := written_parsed sampleEnv (answering now d.bytes).names centsResponse d hd (by decide)
    ⟨sampleResponse_exact.1, sampleResponse_clean.1, sampleResponse_exact.2.1⟩ centsResponse_exact []
  rw [List.append_nil] at g1
  have hx : parseResponse sampleEnv (answering now d.bytes).names d.bytes = (some x, none) := by
    unfold parseResponse
    rw [g1]; simp only [g2]
  have hcr : ¬ Crashes c x := by
    rcases hc with rfl | rfl | rfl | rfl
    · exact fun h => h
    · rintro ⟨s, rest, k1, k2⟩
      rw [g5 .bank (by decide)] at k1
      cases k1; cases k2
    · rintro ⟨s, rest, k1, -⟩
      rw [g5 .creditCard (by decide)] at k1
      cases k1
    · rintro ⟨s, rest, k1, k2⟩
      rw [g5 .invStmt (by decide)] at k1
      cases k1; rcases k2 with k2 | k2 <;> cases k2
  have := (C88_shows (answering now d.bytes) sampleFlags c hc rfl (sample_usable c) ⟨_, rfl, by decide⟩
    ⟨200, "200 OK".toList, d.bytes.length, [], [], d.bytes⟩
    ⟨fun _ _ => ⟨⟨_, rfl⟩, fun _ _ _ _ _ => rfl, fun _ _ => ⟨_, rfl, rfl, fun _ _ => rfl⟩⟩, rfl, .inr (.inr rfl)⟩ x hx
    (by rw [g4]; rfl)).1 hcr
  exact ⟨_, x, rfl, g5 .bank (by decide), this.1, this.2⟩

end Ofx.Props
