import Verif.Lemmas.Cli
import Verif.Lemmas.TextCheck
import Verif.Props.Text
/-
The command-line client: C51, C52, C57-C61, and C42 for commands.
-/
namespace Ofx.Props
open Ofx Spec

/-! ### C51: detect-settings -/

/-- C51: no combination is listed twice, there are 594 of them, and each of the eleven OFX
versions is tried with every program version, indented and not. -/
theorem C51_combinations : combinations.Nodup ∧ combinations.length = 594 ∧
    ∀ p ∈ programs, ∀ v ∈ p.2, ∀ n ∈ enumOfxVersion.names, ∀ b, (⟨p.1.toList, v.toList, n, b⟩ : Setting) ∈ combinations := by
  refine ⟨combinations_nodup, by decide +kernel, ?_⟩
  intro p hp v hv n hn b
  have hn' : ∀ n ∈ enumOfxVersion.names, n ∈ ofxVersions.map String.toList := by decide +kernel
  obtain ⟨o, ho, rfl⟩ := List.mem_map.mp (hn' n hn)
  simp only [combinations, List.mem_flatMap]
  refine ⟨p, hp, v, hv, o, ho, ?_⟩
  cases b <;> simp

/-- C51: detect-settings tries the combinations in order, starting with the first; each is
tried with the user's login and then anonymously.  It goes on exactly as long as they fail.  If
one works it stops there, prints exactly those settings and exits with 0.  If none works it
ends after all of them failed.  (It ends early with status 1 if there is no entropy.)  Nothing
else is printed but one line per failed attempt.

Full statement: moreover, if no combination works the command says so by its exit status.
That is false: see `C51_failure_status`. -/
theorem C51_detect_partial (w : World) (f : Flags) :
    (AllFailed w f combinations (detectSettings w f).trace ∧ (detectSettings w f).out = attemptLines f.delay combinations ∧
      (detectSettings w f).fin = .exit 0) ∨
    ∃ tried s later tr, combinations = tried ++ s :: later ∧ AllFailed w f tried tr ∧
      ((AttemptWorks w f s tr (detectSettings w f).trace ∧
        (detectSettings w f).out = attemptLines f.delay tried ++ settingsText s ∧ (detectSettings w f).fin = .exit 0) ∨
       (∃ e, randomUID (w.entropy tr) = .error e ∧ (detectSettings w f).out = attemptLines f.delay tried ++
          ("Error creating uid for transaction: ".toList ++ e.toList ++ "\n".toList)) ∧
        (detectSettings w f).fin = .exit 1 ∧ (detectSettings w f).trace = tr) := by
  rw [detect_eq]
  rcases detect_loop w f combinations [] ⟨0, [], []⟩ (fun s h => h) .none rfl rfl with
    ⟨d', h1, h2, h3⟩ | ⟨a, s, b, r, tr, h1, h2, h3, h4, h5⟩
  · left; rw [h1]; exact ⟨h2, h3, rfl⟩
  · right; rw [h1]; exact ⟨a, s, b, tr, h2, h3, h5⟩

theorem request_refused (env : Env) (nt : NameTable) (net : Net) (c : Client) (r : Request Message) (tr : Trace)
    (h : ¬ "https://".toList <+: r.url) : ∃ e, c.request env nt net r tr = ((none, some e), (c.request env nt net r tr).2.1, tr) ∧
      (c.request env nt net r tr).2.1.url = r.url := by
  rcases request_cases env nt net c r tr with ⟨e, -, h2⟩ | ⟨resp, h1, -⟩
  · rcases noParse_cases net c r tr with ⟨e', -, h3⟩ | ⟨d, hd, h3⟩
    · rw [h3] at h2
      refine ⟨e, ?_, ?_⟩
      · rw [h2]
      · rw [h2]; exact marshal_url _
    · obtain ⟨e', h4⟩ := C42_raw_refused net c r.url d.bytes tr h
      rcases h3 with ⟨-, h3⟩ | ⟨resp, h3, -⟩
      · rw [h4] at h3
        rw [h3] at h2
        refine ⟨e, ?_, ?_⟩
        · rw [h2]
        · rw [h2]; exact marshal_url _
      · rw [h4] at h3; cases h3
  · exfalso
    rcases noParse_cases net c r tr with ⟨e', -, h3⟩ | ⟨d, hd, h3⟩
    · rw [h3] at h1; cases h1
    · obtain ⟨e', h4⟩ := C42_raw_refused net c r.url d.bytes tr h
      rcases h3 with ⟨-, h3⟩ | ⟨resp, h3, -⟩
      · rw [h3, h4] at h1; cases h1
      · rw [h4] at h3; cases h3

theorem allFailed_refused {w : World} {f : Flags} {ss : List Setting} {tr : Trace} (h : AllFailed w f ss tr)
    (hu : ¬ "https://".toList <+: f.serverURL) : NoNetwork tr := by
  induction h with
  | none => intro e he; cases he
  | @more ss tr s tr' hf ha ih =>
    obtain ⟨uid, r, tr₁, e, r', e', -, h1, h2⟩ := ha
    obtain ⟨e1, g1, g2⟩ := request_refused w.env w.names w.net (settingClient f _) (profileQuery w f uid) tr hu
    rw [g1] at h1
    simp only [Prod.mk.injEq] at h1
    obtain ⟨-, h3, rfl⟩ := h1
    rw [h3] at g2
    obtain ⟨e2, g3, -⟩ := request_refused w.env w.names w.net (settingClient f _) (asAnonymous r) tr (by
      show ¬ _ <+: r.url; rw [g2]; exact hu)
    rw [g3] at h2
    simp only [Prod.mk.injEq] at h2
    rw [← h2.2.2]
    intro x hx
    rcases List.mem_append.mp hx with hx | hx
    · exact ih x hx
    · rw [List.mem_singleton] at hx; exact ⟨_, hx⟩

theorem not_works_refused {w : World} {f : Flags} {s : Setting} {tr tr' : Trace} (h : AttemptWorks w f s tr tr')
    (hu : ¬ "https://".toList <+: f.serverURL) : False := by
  obtain ⟨uid, -, ⟨x, r, h1⟩ | ⟨e, r, tr₁, x, r', h1, h2⟩⟩ := h
  · obtain ⟨e1, g1, g2⟩ := request_refused w.env w.names w.net (settingClient f s) (profileQuery w f uid) tr hu
    rw [g1] at h1; cases h1
  · obtain ⟨e1, g1, g2⟩ := request_refused w.env w.names w.net (settingClient f s) (profileQuery w f uid) tr hu
    rw [h1] at g2
    obtain ⟨e2, g3, -⟩ := request_refused w.env w.names w.net (settingClient f s) (asAnonymous r) tr₁ (by
      show ¬ _ <+: r.url; rw [g2]; exact hu)
    rw [g3] at h2; cases h2

/-- C51 fails as stated: with a URL that is not HTTPS no combination can work, and still
detect-settings ends with the status 0 of a success (if there is entropy). -/
theorem C51_failure_status (w : World) (f : Flags) (hu : ¬ "https://".toList <+: f.serverURL)
    (he : ∀ tr, ∃ uid, randomUID (w.entropy tr) = .ok uid) :
    AllFailed w f combinations (detectSettings w f).trace ∧ NoNetwork (detectSettings w f).trace ∧
      (detectSettings w f).fin = .exit 0 := by
  rw [detect_eq]
  rcases detect_loop w f combinations [] ⟨0, [], []⟩ (fun s h => h) .none rfl rfl with
    ⟨d', h1, h2, h3⟩ | ⟨a, s, b, r, tr, h1, h2, h3, h4, h5⟩
  · rw [h1]
    exact ⟨h2, allFailed_refused h2 hu, rfl⟩
  · exfalso
    rcases h5 with ⟨h5, -⟩ | ⟨⟨e, h5, -⟩, -⟩
    · exact not_works_refused h5 hu
    · obtain ⟨uid, h6⟩ := he tr; rw [h5] at h6; cases h6

/-- A world where there is entropy but no network. -/
def offline (now : GoTime) : World where
  env := sampleEnv
  names := ⟨fun _ => false, fun _ => false⟩
  net := { parseURL := fun _ => none, resolve := fun _ _ => none, transport := fun _ _ => none, dial := fun _ _ => none, now := now }
  entropy := fun _ => .read (List.replicate 16 7)
  creatable := fun _ => true
  copies := fun _ => none
  prompt := none

example (now : GoTime) (f : Flags) : (detectSettings (offline now) { f with serverURL := "http://ofx.example.com".toList }).fin = .exit 0 :=
  (C51_failure_status _ _ (show ¬ _ <+: "http://ofx.example.com".toList by decide) (fun _ => ⟨_, rfl⟩)).2.2

/-! ### C42 for commands -/

theorem checkServerFlags_url (w : World) (f : Flags) : (checkServerFlags w f).2.2.serverURL = f.serverURL := by
  unfold checkServerFlags
  simp only
  by_cases h : (!decide (blen f.serverURL = 0) && !decide (blen f.username = 0) && decide (blen f.password = 0)) = true
  · rw [if_pos h]; cases w.prompt <;> rfl
  · rw [if_neg h]

theorem downloadCheckFlags_url (w : World) (f : Flags) : (downloadCheckFlags w f).2.2.serverURL = f.serverURL := by
  have h := checkServerFlags_url w f
  unfold downloadCheckFlags
  revert h
  generalize checkServerFlags w f = x
  obtain ⟨out, ret, f'⟩ := x
  intro h
  simp only
  by_cases h' : blen f'.filename = 0
  · rw [if_pos h']; exact h
  · rw [if_neg h']; exact h

theorem checkFlags_url (w : World) (f : Flags) (c : Command) : (c.checkFlags w f).2.2.serverURL = f.serverURL := by
  cases c
  case downloadProfile =>
    show (downloadCheckFlags w _).2.2.serverURL = _
    rw [downloadCheckFlags_url]
    by_cases h : blen f.username = 0
    · rw [if_pos h]
    · rw [if_neg h]
  case downloadBank => exact downloadCheckFlags_url w f
  case downloadCC => exact downloadCheckFlags_url w f
  case downloadInv => exact downloadCheckFlags_url w f
  all_goals exact checkServerFlags_url w f

theorem run_refused (w : World) (f : Flags) (c : Command) (hu : ¬ "https://".toList <+: f.serverURL) :
    NoNetwork (c.run w f).trace ∧ (c.run w f).files = [] := by
  have quiet : NoNetwork [] := fun e he => by cases he
  by_cases hc : OneRequest c
  · rcases saves_or_shows hc with h | h
    · obtain ⟨onError, he⟩ := run_saves h w f
      rw [he]
      have key : ∀ cl r, c.query w f = .ok (cl, r) → (∃ e, (cl.requestNoParse w.net r []).1 = (none, some e)) ∧
          (cl.requestNoParse w.net r []).2.2 = [] := by
        intro cl r hq
        obtain ⟨ver, uid, -, -, -, h, -⟩ := query_ok hq
        have := C42_request_refused w.env w.names w.net cl r [] (by rw [h]; exact hu)
        exact ⟨this.1, this.2.1⟩
      rcases save_cases w f (c.query w f) onError with ⟨e, -, h1⟩ | ⟨cl, r, hq, ⟨hn, h1⟩ | ⟨-, ⟨e, -, h1⟩ | ⟨x, hx, -⟩⟩⟩
      · rw [h1]; exact ⟨quiet, rfl⟩
      · rw [h1]; exact ⟨quiet, rfl⟩
      · rw [h1]; exact ⟨by show NoNetwork (cl.requestNoParse w.net r []).2.2; rw [(key cl r hq).2]; exact quiet, rfl⟩
      · obtain ⟨⟨e, h⟩, -⟩ := key cl r hq
        rw [hx] at h; cases h
    · obtain ⟨onError, he⟩ := run_shows h w f
      rw [he]
      rcases show_cases w f (c.query w f) onError c.printer with ⟨e, -, h1⟩ | ⟨cl, r, hq, ⟨hn, h1⟩ | ⟨-, ht, hf, -⟩⟩
      · rw [h1]; exact ⟨quiet, rfl⟩
      · rw [h1]; exact ⟨quiet, rfl⟩
      · obtain ⟨ver, uid, -, -, -, h, -⟩ := query_ok hq
        exact ⟨by rw [ht, (C42_request_refused w.env w.names w.net cl r [] (by rw [h]; exact hu)).2.2.2]; exact quiet, hf⟩
  · have : c = .detectSettings := by unfold OneRequest at hc; simpa using hc
    subst this
    show NoNetwork (detectSettings w f).trace ∧ (detectSettings w f).files = []
    rw [detect_eq]
    rcases detect_loop w f combinations [] ⟨0, [], []⟩ (fun s h => h) .none rfl rfl with
      ⟨d', h1, h2, h3⟩ | ⟨a, s, b, r, tr, h1, h2, h3, h4, h5⟩
    · rw [h1]; exact ⟨allFailed_refused h2 hu, rfl⟩
    · rw [h1]
      rcases h5 with ⟨h5, -⟩ | ⟨-, -, h5⟩
      · exact (not_works_refused h5 hu).elim
      · exact ⟨by rw [h5]; exact allFailed_refused h3 hu, h4⟩

/-- C42: whatever the command and its other flags, with a URL that does not start with https://
nothing happens on the network and no file is written. -/
theorem C42_command (w : World) (f : Flags) (usage : Str) (c : Command) (hu : ¬ "https://".toList <+: f.serverURL) :
    NoNetwork (runCmd w f usage c).trace ∧ (runCmd w f usage c).files = [] := by
  have h := checkFlags_url w f c
  unfold runCmd
  revert h
  generalize c.checkFlags w f = x
  obtain ⟨out, ok, f'⟩ := x
  intro h
  cases ok
  · exact ⟨fun e he => (by cases he), rfl⟩
  · exact run_refused w f' c (by rw [show f'.serverURL = f.serverURL from h]; exact hu)

/-! ### C57: dry runs -/

/-- What a request sends is its marshalled document. -/
theorem noParse_docs (net : Net) (c : Client) (r : Request Message) :
    (∀ q ∈ posts (c.requestNoParse net r []).2.2, ∃ d, (r.setClientFields net.now c.bc).marshal.1 = .ok d ∧ q.body = d.bytes) ∧
    ∀ b ∈ written (c.requestNoParse net r []).2.2, ∃ d path host, (r.setClientFields net.now c.bc).marshal.1 = .ok d ∧
      b <+: toBytes (discoverHeaders path host d.bytes.length) ++ d.bytes := by
  obtain ⟨evs, h1, h2⟩ := noParse_effect net c r []
  rw [h1, List.nil_append]
  have hraw : ∀ d, (r.setClientFields net.now c.bc).marshal.1 = .ok d → ∀ tr res evs, RawEffect net r.url d.bytes tr res evs →
      (∀ q ∈ posts evs, ∃ d, (r.setClientFields net.now c.bc).marshal.1 = .ok d ∧ q.body = d.bytes) ∧
      ∀ b ∈ written evs, ∃ d path host, (r.setClientFields net.now c.bc).marshal.1 = .ok d ∧
        b <+: toBytes (discoverHeaders path host d.bytes.length) ++ d.bytes := by
    intro d hd tr res evs hE
    refine ⟨?_, ?_⟩
    · intro q hq
      rcases hE.posts with h0 | ⟨hs, cs, h0⟩ <;> rw [h0] at hq
      · cases hq
      · rw [List.mem_singleton] at hq; exact ⟨d, hd, by rw [hq]⟩
    · intro w hw
      obtain ⟨u, -, h⟩ := hE.wrote w hw
      exact ⟨d, _, _, hd, h⟩
  rcases h2 with ⟨e, -, -, rfl⟩ | ⟨d, hd, ⟨h2, -⟩ | ⟨resp, err, e1, e2, rfl, -, h2, h3, -⟩⟩
  · exact ⟨fun q hq => (by cases hq), fun q hq => (by cases hq)⟩
  · exact hraw d hd _ _ _ h2
  · obtain ⟨a1, a2⟩ := hraw d hd _ _ _ h2
    obtain ⟨b1, b2⟩ := hraw d hd _ _ _ h3
    rw [posts_append, written_append]
    refine ⟨?_, ?_⟩ <;> intro q hq <;> rcases List.mem_append.mp hq with hq | hq
    · exact a1 q hq
    · exact b1 q hq
    · exact a2 q hq
    · exact b2 q hq

theorem posts_closed (tr : Trace) (i : Nat) : posts (tr ++ [.closed i]) = posts tr ∧ written (tr ++ [.closed i]) = written tr := by
  rw [posts_append, written_append]
  simp [posts, written]

/-- What a command sends is the document of its request. -/
theorem run_docs {c : Command} (hc : OneRequest c) (w : World) (f : Flags) :
    (posts (c.run w f).trace = [] ∧ written (c.run w f).trace = []) ∨
    ∃ cl r, c.query w f = .ok (cl, r) ∧ posts (c.run w f).trace = posts (cl.requestNoParse w.net r []).2.2 ∧
      written (c.run w f).trace = written (cl.requestNoParse w.net r []).2.2 := by
  rcases saves_or_shows hc with h | h
  · obtain ⟨onError, he⟩ := run_saves h w f
    rw [he]
    rcases save_cases w f (c.query w f) onError with ⟨e, -, h1⟩ | ⟨cl, r, hq, ⟨-, h1⟩ | ⟨-, ⟨e, -, h1⟩ | ⟨x, -, -, ⟨m, h1⟩ | ⟨m, n, -, h1⟩ | ⟨-, h1⟩⟩⟩⟩
    all_goals rw [h1]
    · exact .inl ⟨rfl, rfl⟩
    · exact .inl ⟨rfl, rfl⟩
    · exact .inr ⟨cl, r, hq, rfl, rfl⟩
    · exact .inr ⟨cl, r, hq, rfl, rfl⟩
    · exact .inr ⟨cl, r, hq, rfl, rfl⟩
    · exact .inr ⟨cl, r, hq, posts_closed _ _⟩
  · obtain ⟨onError, he⟩ := run_shows h w f
    rw [he]
    rcases show_cases w f (c.query w f) onError c.printer with ⟨e, -, h1⟩ | ⟨cl, r, hq, ⟨-, h1⟩ | ⟨-, h1, -⟩⟩
    · rw [h1]; exact .inl ⟨rfl, rfl⟩
    · rw [h1]; exact .inl ⟨rfl, rfl⟩
    · rw [h1]
      refine .inr ⟨cl, r, hq, ?_⟩
      rcases request_cases w.env w.names w.net cl r [] with ⟨e, -, h2⟩ | ⟨resp, -, -, h2, -⟩
      · rw [h2]; exact ⟨rfl, rfl⟩
      · rw [h2]; exact posts_closed _ _

/-- C57: a dry run does nothing on the network and writes no file. -/
theorem C57_dryrun_quiet (w : World) (f : Flags) (c : Command) (hc : OneRequest c) (hd : f.dryrun = true) :
    (c.run w f).trace = [] ∧ (c.run w f).files = [] ∧ ∃ code, (c.run w f).fin = .exit code := by
  rcases saves_or_shows hc with h | h
  · obtain ⟨onError, he⟩ := run_saves h w f
    rw [he]
    rcases save_cases w f (c.query w f) onError with ⟨e, -, h1⟩ | ⟨cl, r, hq, ⟨-, h1⟩ | ⟨hn, -⟩⟩
    · rw [h1]; exact ⟨rfl, rfl, _, rfl⟩
    · rw [h1]; exact ⟨rfl, rfl, _, rfl⟩
    · rw [hd] at hn; cases hn
  · obtain ⟨onError, he⟩ := run_shows h w f
    rw [he]
    rcases show_cases w f (c.query w f) onError c.printer with ⟨e, -, h1⟩ | ⟨cl, r, hq, ⟨-, h1⟩ | ⟨hn, -⟩⟩
    · rw [h1]; exact ⟨rfl, rfl, _, rfl⟩
    · rw [h1]; exact ⟨rfl, rfl, _, rfl⟩
    · rw [hd] at hn; cases hn

theorem query_dryrun (c : Command) (w : World) (f : Flags) (b : Bool) : c.query w { f with dryrun := b } = c.query w f := by
  cases c <;> rfl

/-- C57: it prints exactly the document (and a newline) that the same command without the flag
hands to the network. -/
theorem C57_dryrun_same (w : World) (f : Flags) (c : Command) (hc : OneRequest c) :
    (∀ q ∈ posts (c.run w { f with dryrun := false }).trace, ∃ doc : Str,
      (c.run w { f with dryrun := true }).out = doc ++ "\n".toList ∧ q.body = toBytes doc) ∧
    ∀ b ∈ written (c.run w { f with dryrun := false }).trace, ∃ (doc path host : Str),
      (c.run w { f with dryrun := true }).out = doc ++ "\n".toList ∧
      b <+: toBytes (discoverHeaders path host (toBytes doc).length) ++ toBytes doc := by
  have hout : ∀ cl r, c.query w f = .ok (cl, r) → (c.run w { f with dryrun := true }).out = printRequest w.net cl r := by
    intro cl r hq
    rcases saves_or_shows hc with h | h
    · obtain ⟨onError, he⟩ := run_saves h w { f with dryrun := true }
      rw [he, query_dryrun, hq]; rfl
    · obtain ⟨onError, he⟩ := run_shows h w { f with dryrun := true }
      rw [he, query_dryrun, hq]; rfl
  have hprint : ∀ cl r d, (r.setClientFields w.net.now (Client.bc cl)).marshal.1 = .ok d → printRequest w.net cl r = d.text ++ "\n".toList := by
    intro cl r d h
    unfold printRequest
    revert h
    generalize (r.setClientFields w.net.now (Client.bc cl)).marshal = x
    obtain ⟨e | d', r'⟩ := x
    · intro h; cases h
    · intro h; cases h; rfl
  rcases run_docs hc w { f with dryrun := false } with ⟨h1, h2⟩ | ⟨cl, r, hq, h1, h2⟩
  · rw [h1, h2]; exact ⟨fun q hq => (by cases hq), fun q hq => (by cases hq)⟩
  · rw [h1, h2]
    rw [query_dryrun] at hq
    obtain ⟨k1, k2⟩ := noParse_docs w.net cl r
    constructor
    · intro q hq'
      obtain ⟨d, hd, hb⟩ := k1 q hq'
      exact ⟨d.text, by rw [hout cl r hq, hprint cl r d hd], hb⟩
    · intro b hb'
      obtain ⟨d, path, host, hd, hb⟩ := k2 b hb'
      exact ⟨d.text, path, host, by rw [hout cl r hq, hprint cl r d hd], hb⟩

/-! ### C58: downloads -/

/-- What RequestNoParse returns is the last response it got. -/
theorem noParse_last (net : Net) (c : Client) (r : Request Message) (x : HttpResponse)
    (h : (c.requestNoParse net r []).1.1 = some x) : lastResponse (c.requestNoParse net r []).2.2 = some x := by
  obtain ⟨evs, h1, h2⟩ := noParse_effect net c r []
  rw [h1, List.nil_append]
  rcases h2 with ⟨e, -, h2, -⟩ | ⟨d, hd, ⟨h2, -⟩ | ⟨resp, err, e1, e2, rfl, -, h2, h3, -⟩⟩
  · rw [h2] at h; cases h
  · exact h2.last x h
  · have := h3.last x h
    unfold lastResponse at this ⊢
    rw [responses_append, List.getLast?_append, this]; rfl

theorem last_closed (tr : Trace) (i : Nat) : lastResponse (tr ++ [.closed i]) = lastResponse tr := by
  unfold lastResponse
  rw [responses_append]
  simp [responses]

/-- C58: a download command (without -dryrun) that exits with 0 has written to the file exactly
the body of the last response it got, one with status 200, and closed it. -/
theorem C58_saved (w : World) (f : Flags) (c : Command) (hc : Saves c) (hd : f.dryrun = false)
    (h0 : (c.run w f).fin = .exit 0) :
    ∃ resp, lastResponse (c.run w f).trace = some resp ∧ resp.status = 200 ∧
      (c.run w f).files = [(f.filename, resp.body)] ∧ (c.run w f).out = [] ∧ .closed resp.id ∈ (c.run w f).trace := by
  obtain ⟨onError, he⟩ := run_saves hc w f
  rw [he] at h0 ⊢
  rcases save_cases w f (c.query w f) onError with ⟨e, -, h1⟩ | ⟨cl, r, hq, ⟨hn, h1⟩ | ⟨-, ⟨e, -, h1⟩ | ⟨x, hx, hs, ⟨m, h1⟩ | ⟨m, n, -, h1⟩ | ⟨-, h1⟩⟩⟩⟩
  · rw [h1] at h0; cases h0
  · rw [hd] at hn; cases hn
  · rw [h1] at h0; cases h0
  · rw [h1] at h0; cases h0
  · rw [h1] at h0; cases h0
  · rw [h1]
    refine ⟨x, ?_, hs, rfl, rfl, by simp⟩
    show lastResponse (_ ++ _) = _
    rw [last_closed]
    exact noParse_last _ _ _ _ (by rw [hx])

/-- C58: a download command never panics and its status is 0 or 1.  It writes at most the one
file, and to it nothing but a beginning of the body of the last response, which had status 200;
if the status is 1 and there is a file at all then writing it failed. -/
theorem C58_failed (w : World) (f : Flags) (c : Command) (hc : Saves c) :
    ((c.run w f).fin = .exit 0 ∨ (c.run w f).fin = .exit 1) ∧
    ((c.run w f).files = [] ∨ ∃ resp b, lastResponse (c.run w f).trace = some resp ∧ resp.status = 200 ∧
      (c.run w f).files = [(f.filename, b)] ∧ b <+: resp.body ∧
      ((c.run w f).fin = .exit 1 → w.copies f.filename ≠ none)) := by
  obtain ⟨onError, he⟩ := run_saves hc w f
  rw [he]
  rcases save_cases w f (c.query w f) onError with ⟨e, -, h1⟩ | ⟨cl, r, hq, ⟨hn, h1⟩ | ⟨-, ⟨e, -, h1⟩ | ⟨x, hx, hs, ⟨m, h1⟩ | ⟨m, n, hn, h1⟩ | ⟨-, h1⟩⟩⟩⟩
  all_goals rw [h1]
  · exact ⟨.inr rfl, .inl rfl⟩
  · exact ⟨.inl rfl, .inl rfl⟩
  · exact ⟨.inr rfl, .inl rfl⟩
  · exact ⟨.inr rfl, .inl rfl⟩
  · refine ⟨.inr rfl, .inr ⟨x, _, noParse_last _ _ _ _ (by rw [hx]), hs, rfl, List.take_prefix _ _, fun _ => by rw [hn]; simp⟩⟩
  · refine ⟨.inl rfl, .inr ⟨x, _, ?_, hs, rfl, List.prefix_rfl, fun h => by cases h⟩⟩
    show lastResponse (_ ++ _) = _
    rw [last_closed]
    exact noParse_last _ _ _ _ (by rw [hx])

/-! ### C59: exit status of the printing commands -/

/-- What Request returned was in the last response it got. -/
theorem request_last (env : Env) (nt : NameTable) (net : Net) (c : Client) (r : Request Message) (x : Response Message)
    (h : (c.request env nt net r []).1 = (some x, none)) : ∃ resp, lastResponse (c.request env nt net r []).2.2 = some resp ∧
      resp.status = 200 ∧ parseResponse env nt resp.body = (some x, none) ∧ .closed resp.id ∈ (c.request env nt net r []).2.2 := by
  rcases request_cases env nt net c r [] with ⟨e, -, h1⟩ | ⟨resp, h1, h2, h3, ⟨e, -, h4⟩ | ⟨-, h4⟩⟩
  · rw [h1] at h; cases h
  · rw [h4] at h; cases h
  · refine ⟨resp, ?_, h2, by rw [← h4, h], by rw [h3]; simp⟩
    rw [h3, last_closed]
    exact noParse_last _ _ _ _ (by rw [h1])

/-- C59: a printing command (without -dryrun) that exits with 0 got a response of status 200
with a document that ParseResponse accepts and whose signon status is 0. -/
theorem C59_success (w : World) (f : Flags) (c : Command) (hc : Shows c) (hd : f.dryrun = false)
    (h0 : (c.run w f).fin = .exit 0) :
    ∃ resp x, lastResponse (c.run w f).trace = some resp ∧ resp.status = 200 ∧
      parseResponse w.env w.names resp.body = (some x, none) ∧ x.signon.Status.Code = 0 ∧
      .closed resp.id ∈ (c.run w f).trace := by
  obtain ⟨onError, he⟩ := run_shows hc w f
  rw [he] at h0 ⊢
  rcases show_cases w f (c.query w f) onError c.printer with ⟨e, -, h1⟩ | ⟨cl, r, hq, ⟨hn, h1⟩ | ⟨-, ht, -, ⟨e, -, -, h1⟩ | ⟨x, hx, ⟨-, -, h1⟩ | ⟨hz, -⟩⟩⟩⟩
  · rw [h1] at h0; cases h0
  · rw [hd] at hn; cases hn
  · rw [h1] at h0; cases h0
  · rw [h1] at h0; cases h0
  · obtain ⟨resp, k1, k2, k3, k4⟩ := request_last _ _ _ _ _ _ hx
    rw [ht]
    exact ⟨resp, x, k1, k2, k3, hz, k4⟩

/-- C59: otherwise it panics (C52) or its status is 1; it writes no files. -/
theorem C59_otherwise (w : World) (f : Flags) (c : Command) (hc : Shows c) :
    ((c.run w f).fin = .exit 0 ∨ (c.run w f).fin = .exit 1 ∨ (c.run w f).fin = .panic) ∧ (c.run w f).files = [] := by
  obtain ⟨onError, he⟩ := run_shows hc w f
  rw [he]
  rcases show_cases w f (c.query w f) onError c.printer with ⟨e, -, h1⟩ | ⟨cl, r, hq, ⟨hn, h1⟩ | ⟨-, ht, hf, ⟨e, -, -, h1⟩ | ⟨x, hx, ⟨-, -, h1⟩ | ⟨hz, -, h1⟩⟩⟩⟩
  · rw [h1]; exact ⟨.inr (.inl rfl), rfl⟩
  · rw [h1]; exact ⟨.inl rfl, rfl⟩
  · exact ⟨.inr (.inl h1), hf⟩
  · exact ⟨.inr (.inl h1), hf⟩
  · refine ⟨?_, hf⟩
    rw [h1]
    cases (c.printer x).panics
    · exact .inl rfl
    · exact .inr (.inr rfl)

/-! ### C52 -/

/-- C52: a command panics only if the response it got is one in which an optional list is absent
(`Crashes`).  Full statement: no command panics.  That is false: `C52_bank_crash`. -/
theorem C52_panics_partial (w : World) (f : Flags) (c : Command) (hp : (c.run w f).fin = .panic) :
    f.dryrun = false ∧ ∃ resp x, lastResponse (c.run w f).trace = some resp ∧
      parseResponse w.env w.names resp.body = (some x, none) ∧ x.signon.Status.Code = 0 ∧ Crashes c x := by
  by_cases hc : OneRequest c
  · rcases saves_or_shows hc with h | h
    · rcases (C58_failed w f c h).1 with h' | h' <;> rw [h'] at hp <;> cases hp
    · obtain ⟨onError, he⟩ := run_shows h w f
      rw [he] at hp ⊢
      rcases show_cases w f (c.query w f) onError c.printer with ⟨e, -, h1⟩ | ⟨cl, r, hq, ⟨hn, h1⟩ | ⟨hn, ht, hf, ⟨e, -, -, h1⟩ | ⟨x, hx, ⟨-, -, h1⟩ | ⟨hz, -, h1⟩⟩⟩⟩
      · rw [h1] at hp; cases hp
      · rw [h1] at hp; cases hp
      · rw [h1] at hp; cases hp
      · rw [h1] at hp; cases hp
      · obtain ⟨resp, k1, k2, k3, k4⟩ := request_last _ _ _ _ _ _ hx
        rw [ht]
        refine ⟨hn, resp, x, k1, k3, hz, ?_⟩
        rw [h1] at hp
        rw [← printer_panics]
        by_contra hcon
        rw [if_neg hcon] at hp; cases hp
  · have : c = .detectSettings := by unfold OneRequest at hc; simpa using hc
    subst this
    have hp : (detectSettings w f).fin = .panic := hp
    rcases C51_detect_partial w f with ⟨_, _⟩ | ⟨_, _, _, _, _, _, ⟨_, _, h⟩ | ⟨_, h, _⟩⟩
    · exfalso
      rw [detect_eq] at hp
      rcases detect_loop w f combinations [] ⟨0, [], []⟩ (fun s h => h) .none rfl rfl with
        ⟨d', h1, h2, h3⟩ | ⟨a, s, b, r, tr, h1, h2, h3, h4, h5⟩
      · rw [h1] at hp; cases hp
      · rw [h1] at hp
        rcases h5 with ⟨-, -, h5⟩ | ⟨-, h5, -⟩ <;> rw [h5] at hp <;> cases hp
    · rw [h] at hp; cases hp
    · rw [h] at hp; cases hp

/-- C52: and it does panic then. -/
theorem C52_crash (w : World) (f : Flags) (c : Command) (hc : Shows c) (hd : f.dryrun = false)
    (cl : Client) (r : Request Message) (hq : c.query w f = .ok (cl, r)) (x : Response Message)
    (hx : (cl.request w.env w.names w.net r []).1 = (some x, none)) (h0 : x.signon.Status.Code = 0) (hcr : Crashes c x) :
    (c.run w f).fin = .panic := by
  obtain ⟨onError, he⟩ := run_shows hc w f
  rw [he]
  rcases show_cases w f (c.query w f) onError c.printer with ⟨e, h1, -⟩ | ⟨cl', r', hq', ⟨hn, h1⟩ | ⟨hn, ht, hf, ⟨e, h1, -⟩ | ⟨x', hx', ⟨h1, -⟩ | ⟨hz, -, h1⟩⟩⟩⟩
  · rw [hq] at h1; cases h1
  · rw [hd] at hn; cases hn
  · rw [hq] at hq'; cases hq'; rw [hx] at h1; cases h1
  · rw [hq] at hq'; cases hq'; rw [hx] at hx'; cases hx'; exact absurd h0 h1
  · rw [hq] at hq'; cases hq'; rw [hx] at hx'; cases hx'
    rw [h1, if_pos ((printer_panics c x).mpr hcr)]

end Ofx.Props
