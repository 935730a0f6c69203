import Verif.Props.CliDetect
import Verif.Lemmas.Cut
/-
C81: the pauses of detect-settings.
-/
namespace Ofx.Props
open Ofx Spec

theorem attempted_pauses {w : World} {f : Flags} {s : Setting} {tr : Trace} (h : Attempted w f s tr) : pauses tr = [] := by
  obtain ⟨_, _, _, _, _, _, h, _⟩ := h
  exact h

theorem forall_pauses {w : World} {f : Flags} {ss : List Setting} {parts : List Trace}
    (h : List.Forall₂ (Attempted w f) ss parts) : ∀ p ∈ parts, pauses p = [] := by
  induction h with
  | nil => intro p hp; cases hp
  | cons h1 _ ih =>
    intro p hp
    rcases List.mem_cons.mp hp with rfl | hp
    · exact attempted_pauses h1
    · exact ih p hp

/-- C81: detect-settings pauses after every combination that failed and at no other time.  What it
does is, for each of a beginning of the list of combinations, the attempt with that combination
(which does not pause), followed by a pause if it failed.  All pauses are of the number of
milliseconds given with -delay, as long as that many nanoseconds are less than 2⁶³.

Full statement: between any two requests sent there is a pause of at least that length.  That is
false: see `C81_no_pause` and `C81_too_long`. -/
theorem C81_pauses_partial (w : World) (f : Flags) :
    (((∃ parts, List.Forall₂ (Attempted w f) combinations parts ∧ (∀ p ∈ parts, pauses p = []) ∧
        (detectSettings w f).trace = (parts.map (· ++ [Event.paused (waitedNs f.delay)])).flatten) ∧
        (detectSettings w f).out = attemptLines f.delay combinations) ∨
     ∃ tried s later parts last, combinations = tried ++ s :: later ∧ List.Forall₂ (Attempted w f) tried parts ∧
       (∀ p ∈ parts ++ [last], pauses p = []) ∧
       (detectSettings w f).trace = (parts.map (· ++ [Event.paused (waitedNs f.delay)])).flatten ++ last ∧
       ((Attempted w f s last ∧ (detectSettings w f).out = attemptLines f.delay tried ++ settingsText s) ∨
        (last = [] ∧ (detectSettings w f).fin = .exit 1))) ∧
    (f.delay * 1000000 < 2 ^ 63 → waitedNs f.delay = f.delay * 1000000) := by
  refine ⟨?_, fun h => ?_⟩
  · rcases C51_detect_partial w f with ⟨h, ho, -⟩ | ⟨tried, s, later, tr, hc, hf, h⟩
    · obtain ⟨parts, h1, h2⟩ := failed_segments (fun _ h => h) h
      exact .inl ⟨⟨parts, h1, forall_pauses h1, h2⟩, ho⟩
    · have hin : ∀ t ∈ tried ++ [s], t ∈ combinations := by
        intro t ht
        rw [hc]
        rcases List.mem_append.mp ht with ht | ht
        · exact List.mem_append_left _ ht
        · rw [List.mem_singleton] at ht; rw [ht]; exact List.mem_append_right _ (List.mem_cons_self ..)
      obtain ⟨parts, h1, h2⟩ := failed_segments (fun t ht => hin t (List.mem_append_left _ ht)) hf
      rcases h with ⟨hw, ho, -⟩ | ⟨-, hx, ht⟩
      · obtain ⟨evs, h3, h4⟩ := works_segment (hin s (by simp)) hw
        refine .inr ⟨tried, s, later, parts, evs, hc, h1, ?_, by rw [h3, h2], .inl ⟨h4, ho⟩⟩
        intro p hp
        rcases List.mem_append.mp hp with hp | hp
        · exact forall_pauses h1 p hp
        · rw [List.mem_singleton] at hp; rw [hp]; exact attempted_pauses h4
      · refine .inr ⟨tried, s, later, parts, [], hc, h1, ?_, by rw [ht, h2, List.append_nil], .inr ⟨rfl, hx⟩⟩
        intro p hp
        rcases List.mem_append.mp hp with hp | hp
        · exact forall_pauses h1 p hp
        · rw [List.mem_singleton] at hp; rw [hp]; rfl
  · unfold waitedNs
    rw [Int.bmod_def]
    norm_num at h ⊢
    split <;> omega

example : sampleFlags.delay * 1000000 < 2 ^ 63 ∧ waitedNs sampleFlags.delay = 500000000 := by decide +kernel

theorem pauses_spaced {parts : List Trace} (h : ∀ p ∈ parts, pauses p = []) (n : Int) :
    pauses (parts.map (· ++ [Event.paused n])).flatten = List.replicate parts.length n := by
  induction parts with
  | nil => rfl
  | cons p ps ih =>
    rw [List.map_cons, List.flatten_cons, pauses_append, pauses_append, h p (List.mem_cons_self ..),
      ih fun q hq => h q (List.mem_cons_of_mem _ hq)]
    rfl

/-- C81: there are as many pauses as attempts are reported to have failed, all alike; and it is
always the combinations at the beginning of the list that failed. -/
theorem C81_count (w : World) (f : Flags) :
    ∃ failed ending, failed <+: combinations ∧
      pauses (detectSettings w f).trace = List.replicate failed.length (waitedNs f.delay) ∧
      (detectSettings w f).out = attemptLines f.delay failed ++ ending ∧
      (ending = [] ∨ (∃ s ∈ combinations, ending = settingsText s) ∨
        ∃ e, ending = "Error creating uid for transaction: ".toList ++ e ++ "\n".toList) := by
  rcases C51_detect_partial w f with ⟨h, ho, -⟩ | ⟨tried, s, later, tr, hc, hf, h⟩
  · obtain ⟨parts, h1, h2⟩ := failed_segments (fun _ h => h) h
    refine ⟨combinations, [], List.prefix_rfl, ?_, by rw [ho, List.append_nil], .inl rfl⟩
    rw [h2, pauses_spaced (forall_pauses h1), h1.length_eq]
  · have hin : ∀ t ∈ tried ++ [s], t ∈ combinations := by
      intro t ht
      rw [hc]
      rcases List.mem_append.mp ht with ht | ht
      · exact List.mem_append_left _ ht
      · rw [List.mem_singleton] at ht; rw [ht]; exact List.mem_append_right _ (List.mem_cons_self ..)
    obtain ⟨parts, h1, h2⟩ := failed_segments (fun t ht => hin t (List.mem_append_left _ ht)) hf
    rcases h with ⟨hw, ho, -⟩ | ⟨⟨e, -, ho⟩, hx, ht⟩
    · obtain ⟨evs, h3, h4⟩ := works_segment (hin s (by simp)) hw
      refine ⟨tried, settingsText s, ⟨s :: later, hc.symm⟩, ?_, ho, .inr (.inl ⟨s, hin s (by simp), rfl⟩)⟩
      rw [h3, h2, pauses_append, pauses_spaced (forall_pauses h1), h1.length_eq, attempted_pauses h4, List.append_nil]
    · refine ⟨tried, _, ⟨s :: later, hc.symm⟩, ?_, ho, .inr (.inr ⟨e.toList, rfl⟩)⟩
      rw [ht, h2, pauses_spaced (forall_pauses h1), h1.length_eq]

theorem parse_empty (env : Env) (nt : NameTable) : ∃ e, parseResponse env nt [] = (none, some e) := by
  unfold parseResponse
  cases h : decodeResponse env nt [] with
  | error e => exact ⟨_, rfl⟩
  | ok r =>
    exfalso
    obtain ⟨a, x, m, w, h1, -, -, ⟨v, h2⟩, -⟩ := ends_with_tag h
    have h3 : a = [] := (List.append_eq_nil_iff.mp h1.symm).1
    rw [h3] at h2
    have h4 := (List.append_eq_nil_iff.mp h2.symm).2
    rw [List.append_assoc, List.append_assoc, toBytes_append] at h4
    exact absurd (List.append_eq_nil_iff.mp h4).1 (by decide +kernel)

theorem request_empty (now : GoTime) (bc : BasicClient) (r : Request Message) (hu : "https://".toList <+: r.url) (tr : Trace) :
    ∃ e, ((Client.basic bc).request (answering now []).env (answering now []).names (answering now []).net r tr).1 = (none, some e) := by
  rcases request_cases (answering now []).env (answering now []).names (answering now []).net (.basic bc) r tr with
    ⟨e, -, g⟩ | ⟨resp, g0, -, -, ⟨e, -, g⟩ | ⟨g1, -⟩⟩
  · exact ⟨e, by rw [g]⟩
  · exact ⟨e, g⟩
  · exfalso
    have hb : resp.body = [] := by
      rcases noParse_cases (answering now []).net (.basic bc) r tr with ⟨e, -, h'⟩ | ⟨d, -, ⟨-, h'⟩ | ⟨resp', -, hr, -⟩⟩
      · rw [h'] at g0; cases g0
      · rw [h'] at g0
        obtain ⟨hs, k⟩ := constNet_first now ⟨200, "200 OK".toList, 0, [], [], []⟩ rfl (.basic bc)
          (by intro bc h; cases h) r.url hu d.bytes tr
        erw [k] at g0
        cases g0
        rfl
      · obtain ⟨⟨bc, hr⟩, -⟩ := hr; cases hr
    obtain ⟨e, he⟩ := parse_empty (answering now []).env (answering now []).names
    rw [hb, he] at g1
    cases g1

theorem posts_mem {tr : Trace} (h : posts tr ≠ []) : ∃ a q b, tr = a ++ .sent q :: b := by
  induction tr with
  | nil => exact absurd rfl h
  | cons e tr ih =>
    cases e with
    | sent q => exact ⟨[], q, tr, rfl⟩
    | dialed _ => obtain ⟨a, q, b, rfl⟩ := ih h; exact ⟨_ :: a, q, b, rfl⟩
    | wrote _ _ => obtain ⟨a, q, b, rfl⟩ := ih h; exact ⟨_ :: a, q, b, rfl⟩
    | opened _ => obtain ⟨a, q, b, rfl⟩ := ih h; exact ⟨_ :: a, q, b, rfl⟩
    | closed _ => obtain ⟨a, q, b, rfl⟩ := ih h; exact ⟨_ :: a, q, b, rfl⟩
    | paused _ => obtain ⟨a, q, b, rfl⟩ := ih h; exact ⟨_ :: a, q, b, rfl⟩

theorem failed_no_pause {now : GoTime} {s : Setting} (hs : s ∈ combinations) {tr tr' : Trace}
    (h : AttemptFails (answering now []) sampleFlags s tr tr') :
    ∃ a q m q' b, tr' = a ++ [Event.sent q] ++ m ++ [Event.sent q'] ++ b ∧ pauses m = [] := by
  obtain ⟨evs, h3, h4⟩ := fails_segment hs h
  have hp := attempted_pauses h4
  obtain ⟨uid, r, tr₁, e, r', e', hu, h1, h2⟩ := h
  have hv := (C09_valid _ _ hu).2
  obtain ⟨own, g1, -⟩ := own_segment (f := sampleFlags) hs hu
  obtain ⟨anon, g3, -⟩ := anon_segment (f := sampleFlags) (tr₁ := tr₁) hs hu
  have n1 := detect_sample_request now [] hs hv (l := ("someone".toList, "secret".toList)) (.head _)
    (r := profileQuery (answering now []) sampleFlags uid) (used_same .fresh) tr
  have n2 := detect_sample_request now [] hs hv
    (l := ("anonymous00000000000000000000000".toList, "anonymous00000000000000000000000".toList)) (.tail _ (.head _))
    (anon_same (used_same (.sent (answering now []).env (answering now []).names (answering now []).net
      (settingClient sampleFlags s) tr .fresh))) tr₁
  rw [g1, posts_append] at n1
  rw [g3, posts_append] at n2
  obtain ⟨a, q, b, k1⟩ := posts_mem (tr := own) (fun h => n1 (by rw [h, List.append_nil]))
  obtain ⟨a', q', b', k2⟩ := posts_mem (tr := anon) (fun h => n2 (by rw [h, List.append_nil]))
  rw [h1] at g1 g3
  simp only at g1 g3
  rw [h2] at g3
  simp only at g3
  rw [g1] at g3
  have hev : evs = own ++ anon := List.append_cancel_left (as := tr) (by rw [← h3, g3, List.append_assoc])
  refine ⟨tr ++ a, q, b ++ a', q', b', by rw [h3, hev, k1, k2]; simp, ?_⟩
  have hq : ∀ (q : HttpRequest) (l : Trace), pauses (.sent q :: l) = pauses l := fun _ _ => rfl
  rw [hev, k1, k2, pauses_append, pauses_append, pauses_append, hq, hq] at hp
  simp only [List.append_eq_nil_iff] at hp
  rw [pauses_append, hp.1.2, hp.2.1]
  rfl

/-- C81 fails as stated: the request with the user's login and the one with the anonymous login
are sent without a pause between them.  (Here to a server that answers nothing, with a delay of
500 milliseconds.) -/
theorem C81_no_pause (now : GoTime) :
    ∃ before q between q' after, (detectSettings (answering now []) sampleFlags).trace =
      before ++ [Event.sent q] ++ between ++ [Event.sent q'] ++ after ∧ pauses between = [] ∧ sampleFlags.delay = 500 := by
  have hclient : ∀ s, ∃ bc, settingClient sampleFlags s = .basic bc := fun s => ⟨_, rfl⟩
  rcases C51_detect_partial (answering now []) sampleFlags with ⟨h, -⟩ | ⟨tried, s, later, tr, hc, hf, ⟨h, -⟩ | ⟨⟨e, h, -⟩, -⟩⟩
  · have hne : combinations ≠ [] := by decide +kernel
    revert h hne
    generalize (detectSettings (answering now []) sampleFlags).trace = tr
    generalize hl : combinations = l
    intro h hne
    cases h with
    | none => exact absurd rfl hne
    | more _ ha =>
      obtain ⟨a, q, m, q', b, h1, h2⟩ := failed_no_pause (by rw [hl]; simp) ha
      exact ⟨a, q, m, q', b ++ [.paused (waitedNs sampleFlags.delay)], by rw [h1]; simp, h2, rfl⟩
  · exfalso
    obtain ⟨uid, -, ⟨x, r, h1⟩ | ⟨e, r, tr₁, x, r', h0, h1⟩⟩ := h
    · obtain ⟨bc, hb⟩ := hclient s
      rw [hb] at h1
      obtain ⟨e, he⟩ := request_empty now bc (profileQuery (answering now []) sampleFlags uid)
        (show _ <+: sampleFlags.serverURL by decide +kernel) tr
      rw [h1] at he
      cases he
    · have hu := (used_same (.sent (answering now []).env (answering now []).names (answering now []).net
        (settingClient sampleFlags s) tr (.fresh (r := profileQuery (answering now []) sampleFlags uid)))).1
      rw [h0] at hu
      have hu : r.url = sampleFlags.serverURL := hu
      obtain ⟨bc, hb⟩ := hclient s
      rw [hb] at h1
      obtain ⟨e', he⟩ := request_empty now bc (asAnonymous r) (show _ <+: r.url by rw [hu]; decide +kernel) tr₁
      rw [h1] at he
      cases he
  · exfalso
    have : randomUID ((answering now []).entropy tr) = .ok "07070707-0707-0707-0707-070707070707".toList := by
      show randomUID (.read (List.replicate 16 7)) = _
      decide +kernel
    rw [this] at h; cases h

/-- C81 fails as stated for long delays: asked for 2⁵⁸ milliseconds, detect-settings does not wait
at all, in any world. -/
theorem C81_too_long (w : World) (f : Flags) (h : f.delay = 2 ^ 58) : ∀ n ∈ pauses (detectSettings w f).trace, n = 0 := by
  obtain ⟨failed, ending, -, h1, -⟩ := C81_count w f
  rw [h1, h]
  intro n hn
  rw [List.eq_of_mem_replicate hn]
  decide +kernel

end Ofx.Props
