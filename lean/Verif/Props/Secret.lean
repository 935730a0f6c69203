import Verif.Lemmas.Secret
import Verif.Props.CliCrash
/-
C82: passwords are not shown.
-/
namespace Ofx.Props
open Ofx Spec

/-- C82 for programs using the library: if the network does not react to documents, nothing that
Request does or returns depends on the password, other than the document sent. -/
theorem C82_request (env : Env) (nt : NameTable) (net : Net) (hn : Blind net) (c : Client)
    (hc : BlindPolicy (c.bc.HTTPClient.getD defaultHttpClient)) (r : Request Message) (p : Str)
    (h : AlikePasswords r.signon.UserPass p) (tr : Trace) :
    (c.request env nt net (withPassword r p) tr).1 = (c.request env nt net r tr).1 ∧
      outline (c.request env nt net (withPassword r p) tr).2.2 = outline (c.request env nt net r tr).2.2 := by
  obtain ⟨h1, -, -, h2⟩ := request_hide env nt hn hc h (tr := tr) (tr' := tr) rfl
  exact ⟨h1.symm, h2.symm⟩

/-- C82 for RequestNoParse. -/
theorem C82_request_no_parse (net : Net) (hn : Blind net) (c : Client)
    (hc : BlindPolicy (c.bc.HTTPClient.getD defaultHttpClient)) (r : Request Message) (p : Str)
    (h : AlikePasswords r.signon.UserPass p) (tr : Trace) :
    (c.requestNoParse net (withPassword r p) tr).1 = (c.requestNoParse net r tr).1 ∧
      outline (c.requestNoParse net (withPassword r p) tr).2.2 = outline (c.requestNoParse net r tr).2.2 := by
  obtain ⟨h1, -, -, h2⟩ := noParse_hide hn hc h (tr := tr) (tr' := tr) rfl
  exact ⟨h1.symm, h2.symm⟩

/-- The queries of the commands for two passwords. -/
theorem query_alike (w : World) (prompt : Option Str) (f : Flags) (p : Str) (c : Command) :
    (∃ e, c.query w f = .error e ∧ c.query { w with prompt := prompt } { f with password := p } = .error e) ∨
    ∃ cl r, c.query w f = .ok (cl, r) ∧ c.query { w with prompt := prompt } { f with password := p } = .ok (cl, withPassword r p) ∧
      r.signon.UserPass = f.password ∧ cl.bc.HTTPClient = none := by
  have hbc : ∀ url bc, (getClient url bc).bc = bc := by
    intro url bc; unfold getClient; split
    · rfl
    · split <;> rfl
  have hprep : ∀ set msg, (∃ e, prepare w f set msg = .error e ∧
        prepare { w with prompt := prompt } { f with password := p } set msg = .error e) ∨
      ∃ cl r, prepare w f set msg = .ok (cl, r) ∧
        prepare { w with prompt := prompt } { f with password := p } set msg = .ok (cl, withPassword r p) ∧
        r.signon.UserPass = f.password ∧ cl.bc.HTTPClient = none := by
    intro set msg
    unfold prepare newRequest
    simp only
    generalize enumOfxVersion.new f.ofxVersion = x
    obtain ⟨ver, _ | e⟩ := x
    · simp only
      generalize randomUID (w.entropy []) = y
      cases y with
      | error e => exact .inl ⟨_, rfl, rfl⟩
      | ok uid => exact .inr ⟨_, _, rfl, rfl, rfl, by rw [hbc]⟩
    · exact .inl ⟨_, rfl, rfl⟩
  have hbank : (∃ e, prepareBank w f = .error e ∧
        prepareBank { w with prompt := prompt } { f with password := p } = .error e) ∨
      ∃ cl r, prepareBank w f = .ok (cl, r) ∧
        prepareBank { w with prompt := prompt } { f with password := p } = .ok (cl, withPassword r p) ∧
        r.signon.UserPass = f.password ∧ cl.bc.HTTPClient = none := by
    unfold prepareBank
    simp only
    have hn : (∃ e, newRequest f = .error e ∧ newRequest { f with password := p } = .error e) ∨
        ∃ x y, newRequest f = .ok x ∧ newRequest { f with password := p } = .ok y := by
      unfold newRequest
      simp only
      generalize enumOfxVersion.new f.ofxVersion = x
      obtain ⟨ver, _ | e⟩ := x
      · exact .inr ⟨_, _, rfl, rfl⟩
      · exact .inl ⟨_, rfl, rfl⟩
    rcases hn with ⟨e, h1, h2⟩ | ⟨x, y, h1, h2⟩
    · rw [h1, h2]; exact .inl ⟨e, rfl, rfl⟩
    · rw [h1, h2]
      simp only
      generalize enumAcctType.new f.acctType = z
      obtain ⟨t, _ | e⟩ := z
      · exact hprep _ _
      · exact .inl ⟨_, rfl, rfl⟩
  cases c
  case detectSettings => exact .inl ⟨_, rfl, rfl⟩
  case downloadBank => exact hbank
  case transactionsBank => exact hbank
  all_goals exact hprep _ _

theorem same_refl (r : Ran) : SameToObserver r r := ⟨rfl, rfl, rfl, rfl⟩

theorem show_alike {w : World} (hn : Blind w.net) (prompt : Option Str) {f : Flags} (hd : f.dryrun = false) {p : Str}
    (h : AlikePasswords f.password p) (c : Command) (onError : Err → Str) (print : Response Message → Printed) :
    SameToObserver (showCommand w f (c.query w f) onError print)
      (showCommand { w with prompt := prompt } { f with password := p }
        (c.query { w with prompt := prompt } { f with password := p }) onError print) := by
  rcases query_alike w prompt f p c with ⟨e, h1, h2⟩ | ⟨cl, r, h1, h2, h3, h4⟩
  · rw [h1, h2]; exact same_refl _
  rw [h1, h2]
  unfold showCommand
  simp only
  rw [hd]
  simp only [Bool.false_eq_true, if_false]
  obtain ⟨k1, -, -, k2⟩ := request_hide w.env w.names hn (c := cl)
    (by unfold BlindClient; rw [h4]; exact default_blind) (r := r) (p := p) (by rw [h3]; exact h) (tr := []) (tr' := []) rfl
  generalize cl.request w.env w.names w.net r [] = x at k1 k2
  generalize cl.request w.env w.names w.net (withPassword r p) [] = x' at k1 k2
  obtain ⟨⟨resp, e⟩, q, t⟩ := x
  obtain ⟨⟨resp', e'⟩, q', t'⟩ := x'
  simp only [Prod.mk.injEq] at k1 k2
  obtain ⟨rfl, rfl⟩ := k1
  cases e with
  | some e => exact ⟨rfl, rfl, rfl, k2⟩
  | none =>
    cases resp with
    | none => exact ⟨rfl, rfl, rfl, k2⟩
    | some resp =>
      simp only
      cases checkSignon resp.signon.Status with
      | some e => exact ⟨rfl, rfl, rfl, k2⟩
      | none => exact ⟨rfl, rfl, rfl, k2⟩

theorem save_alike {w : World} (hn : Blind w.net) (prompt : Option Str) {f : Flags} (hd : f.dryrun = false) {p : Str}
    (h : AlikePasswords f.password p) (c : Command) (onError : Err → Str) :
    SameToObserver (saveCommand w f (c.query w f) onError)
      (saveCommand { w with prompt := prompt } { f with password := p }
        (c.query { w with prompt := prompt } { f with password := p }) onError) := by
  rcases query_alike w prompt f p c with ⟨e, h1, h2⟩ | ⟨cl, r, h1, h2, h3, h4⟩
  · rw [h1, h2]; exact same_refl _
  rw [h1, h2]
  unfold saveCommand
  simp only
  rw [hd]
  simp only [Bool.false_eq_true, if_false]
  obtain ⟨k1, -, -, k2⟩ := noParse_hide hn (c := cl)
    (by unfold BlindClient; rw [h4]; exact default_blind) (r := r) (p := p) (by rw [h3]; exact h) (tr := []) (tr' := []) rfl
  generalize cl.requestNoParse w.net r [] = x at k1 k2
  generalize cl.requestNoParse w.net (withPassword r p) [] = x' at k1 k2
  obtain ⟨⟨resp, e⟩, q, t⟩ := x
  obtain ⟨⟨resp', e'⟩, q', t'⟩ := x'
  simp only [Prod.mk.injEq] at k1 k2
  obtain ⟨rfl, rfl⟩ := k1
  cases e with
  | some e => exact ⟨rfl, rfl, rfl, k2⟩
  | none =>
    cases resp with
    | none => exact ⟨rfl, rfl, rfl, k2⟩
    | some resp =>
      simp only
      by_cases hcr : (!w.creatable f.filename) = true
      · rw [if_pos hcr, if_pos hcr]; exact ⟨rfl, rfl, rfl, k2⟩
      rw [if_neg hcr, if_neg hcr]
      by_cases hcp : (w.copies f.filename).isSome = true
      · rw [if_pos hcp, if_pos hcp]; exact ⟨rfl, rfl, rfl, k2⟩
      · rw [if_neg hcp, if_neg hcp]
        exact ⟨rfl, rfl, rfl, by rw [outline_append, outline_append, k2]⟩

theorem tryProfile_alike {w : World} (hn : Blind w.net) (he : ∀ tr tr', outline tr = outline tr' → w.entropy tr = w.entropy tr')
    (prompt : Option Str) {f : Flags} {p : Str} (h : AlikePasswords f.password p) (s : Setting) {tr tr' : Trace}
    (ht : outline tr = outline tr') :
    (∃ e, tryProfile w f s tr = .error e ∧ tryProfile { w with prompt := prompt } { f with password := p } s tr' = .error e) ∨
    ∃ b t t', tryProfile w f s tr = .ok (b, t) ∧ tryProfile { w with prompt := prompt } { f with password := p } s tr' = .ok (b, t') ∧
      outline t = outline t' := by
  unfold tryProfile
  simp only
  generalize enumOfxVersion.new s.version = x
  obtain ⟨ver, _ | e⟩ := x
  rotate_left
  · exact .inl ⟨_, rfl, rfl⟩
  simp only
  rw [← he tr tr' ht]
  generalize randomUID (w.entropy tr) = y
  cases y with
  | error e => exact .inl ⟨_, rfl, rfl⟩
  | ok uid =>
    right
    simp only
    have hb : BlindClient (getClient f.serverURL ⟨ver, s.appID, s.appVer, s.noIndent, false, [], none⟩) := by
      have : (getClient f.serverURL ⟨ver, s.appID, s.appVer, s.noIndent, false, [], none⟩).bc.HTTPClient = none := by
        unfold getClient; split
        · rfl
        · split <;> rfl
      unfold BlindClient; rw [this]; exact default_blind
    generalize getClient f.serverURL ⟨ver, s.appID, s.appVer, s.noIndent, false, [], none⟩ = cl at hb
    obtain ⟨k1, k3, k4, k2⟩ := request_hide w.env w.names hn hb (r := profileQuery w f uid) (p := p) h ht
    cases hx : cl.request w.env w.names w.net (profileQuery w f uid) tr with
    | mk a b =>
    cases hx' : cl.request w.env w.names w.net (withPassword (profileQuery w f uid) p) tr' with
    | mk a' b' =>
    rw [hx] at k1 k2 k3 k4
    rw [hx'] at k1 k2 k3
    obtain ⟨resp, e⟩ := a
    obtain ⟨q, t⟩ := b
    obtain ⟨resp', e'⟩ := a'
    obtain ⟨q', t'⟩ := b'
    simp only [Prod.mk.injEq] at k1 k2 k3 k4
    obtain ⟨rfl, rfl⟩ := k1
    subst k3
    unfold profileQuery at hx
    have hx'' : cl.request w.env w.names w.net
        { url := f.serverURL, version := 0, indent := false, carriageReturn := false,
          sets := fun t => if t = .prof then [.profileRequest ⟨uid, [], [], [], unixEpoch { w with prompt := prompt }⟩] else [],
          signon := ⟨GoTime.zero, f.username, p, [], false, [], f.org, f.fid, [], [], f.clientUID⟩ } tr' =
        ((resp, e), withPassword q p, t') := hx'
    rw [hx, hx'']
    cases e with
    | none => exact ⟨_, _, _, rfl, rfl, k2⟩
    | some e =>
      simp only
      obtain ⟨m1, -, -, m2⟩ := request_hide w.env w.names hn hb
        (r := { q with signon := { q.signon with UserID := anonymous, UserPass := anonymous } }) (p := anonymous)
        ⟨Iff.rfl, Iff.rfl⟩ k2
      refine ⟨_, _, _, rfl, ?_, m2⟩
      show Except.ok _ = Except.ok _
      congr 1
      refine Prod.ext ?_ rfl
      exact congrArg (fun z => Option.isNone z.2) m1.symm

theorem forEach_alike {α S R : Type} {f g : α → S → R ⊕ S} {rs : S → S → Prop} {rr : R → R → Prop}
    (h : ∀ a s s', rs s s' → (∃ x y, f a s = .inl x ∧ g a s' = .inl y ∧ rr x y) ∨ ∃ x y, f a s = .inr x ∧ g a s' = .inr y ∧ rs x y)
    (l : List α) : ∀ s s', rs s s' → (∃ x y, forEach f l s = .inl x ∧ forEach g l s' = .inl y ∧ rr x y) ∨
      ∃ x y, forEach f l s = .inr x ∧ forEach g l s' = .inr y ∧ rs x y := by
  induction l with
  | nil => intro s s' hs; exact .inr ⟨s, s', rfl, rfl, hs⟩
  | cons a l ih =>
    intro s s' hs
    unfold forEach
    rcases h a s s' hs with ⟨x, y, h1, h2, h3⟩ | ⟨x, y, h1, h2, h3⟩
    · rw [h1, h2]; exact .inl ⟨x, y, rfl, rfl, h3⟩
    · rw [h1, h2]; exact ih x y h3

theorem detect_alike {w : World} (hn : Blind w.net) (he : ∀ tr tr', outline tr = outline tr' → w.entropy tr = w.entropy tr')
    (prompt : Option Str) {f : Flags} {p : Str} (h : AlikePasswords f.password p) :
    SameToObserver (detectSettings w f) (detectSettings { w with prompt := prompt } { f with password := p }) := by
  rw [detect_eq, detect_eq]
  have key := forEach_alike (f := detectStep w f) (g := detectStep { w with prompt := prompt } { f with password := p })
    (rs := fun d d' => d.attempts = d'.attempts ∧ d.out = d'.out ∧ outline d.trace = outline d'.trace) (rr := SameToObserver)
    (by
      intro s d d' hd
      obtain ⟨h1, h2, h3⟩ := hd
      rcases tryProfile_alike hn he prompt h s h3 with ⟨e, g1, g2⟩ | ⟨b, t, t', g1, g2, g3⟩
      · left
        unfold detectStep
        rw [g1, g2]
        exact ⟨_, _, rfl, rfl, by simp [h2], rfl, rfl, h3⟩
      · unfold detectStep
        rw [g1, g2]
        cases b with
        | true => left; exact ⟨_, _, rfl, rfl, by simp [h2], rfl, rfl, g3⟩
        | false =>
          right
          exact ⟨_, _, rfl, rfl, by simp [h1], by simp [h1, h2], by simp only [outline_append, g3]⟩)
    combinations ⟨0, [], []⟩ ⟨0, [], []⟩ ⟨rfl, rfl, rfl⟩
  rcases key with ⟨x, y, h1, h2, h3⟩ | ⟨x, y, h1, h2, h3⟩
  · rw [h1, h2]; exact h3
  · rw [h1, h2]; exact ⟨h3.2.1, rfl, rfl, h3.2.2⟩

theorem run_alike {w : World} (hn : Blind w.net) (he : ∀ tr tr', outline tr = outline tr' → w.entropy tr = w.entropy tr')
    (prompt : Option Str) {f : Flags} (hd : f.dryrun = false) {p : Str} (h : AlikePasswords f.password p) (c : Command) :
    SameToObserver (c.run w f) (c.run { w with prompt := prompt } { f with password := p }) := by
  cases c
  case detectSettings => exact detect_alike hn he prompt h
  case downloadProfile => exact save_alike hn prompt hd h .downloadProfile _
  case downloadBank => exact save_alike hn prompt hd h .downloadBank _
  case downloadCC => exact save_alike hn prompt hd h .downloadCC _
  case downloadInv => exact save_alike hn prompt hd h .downloadInv _
  case getAccounts => exact show_alike hn prompt hd h .getAccounts _ _
  case transactionsBank => exact show_alike hn prompt hd h .transactionsBank _ _
  case transactionsCC => exact show_alike hn prompt hd h .transactionsCC _ _
  case transactionsInv => exact show_alike hn prompt hd h .transactionsInv _ _

theorem same_prefix {a b : Ran} (h : SameToObserver a b) (out : Str) :
    SameToObserver { a with out := out ++ a.out } { b with out := out ++ b.out } :=
  ⟨by show out ++ a.out = out ++ b.out; rw [h.1], h.2.1, h.2.2.1, h.2.2.2⟩

/-- What checking the flags of the server comes to, for two passwords. -/
theorem checkServer_alike (w : World) (prompt : Option Str) (f : Flags) {p : Str} (h : AlikePasswords f.password p)
    (hp : AlikePrompts w.prompt prompt) :
    ∃ out ok p1 p2, AlikePasswords p1 p2 ∧ checkServerFlags w f = (out, ok, { f with password := p1 }) ∧
      checkServerFlags { w with prompt := prompt } { f with password := p } = (out, ok, { f with password := p2 }) := by
  have e1 : (blen p = 0) = (blen f.password = 0) := by
    rw [eq_iff_iff, blen_zero, blen_zero]; exact h.1.symm
  unfold checkServerFlags
  simp only [e1]
  by_cases hc : (!decide (blen f.serverURL = 0) && !decide (blen f.username = 0) && decide (blen f.password = 0)) = true
  · rw [if_pos hc, if_pos hc]
    cases hw : w.prompt with
    | none =>
      cases prompt with
      | none => exact ⟨_, _, f.password, p, h, rfl, rfl⟩
      | some q => rw [hw] at hp; exact hp.elim
    | some q =>
      cases prompt with
      | none => rw [hw] at hp; exact hp.elim
      | some q' => rw [hw] at hp; exact ⟨_, _, q, q', hp, rfl, rfl⟩
  · rw [if_neg hc, if_neg hc]
    exact ⟨_, _, f.password, p, h, rfl, rfl⟩

theorem checkFlags_alike (w : World) (prompt : Option Str) (f : Flags) {p : Str} (h : AlikePasswords f.password p)
    (hp : AlikePrompts w.prompt prompt) (c : Command) :
    ∃ out ok g p2, AlikePasswords g.password p2 ∧ g.dryrun = f.dryrun ∧ c.checkFlags w f = (out, ok, g) ∧
      c.checkFlags { w with prompt := prompt } { f with password := p } = (out, ok, { g with password := p2 }) := by
  have hserver : ∃ out ok g p2, AlikePasswords g.password p2 ∧ g.dryrun = f.dryrun ∧ checkServerFlags w f = (out, ok, g) ∧
      checkServerFlags { w with prompt := prompt } { f with password := p } = (out, ok, { g with password := p2 }) := by
    obtain ⟨out, ok, p1, p2, h1, h2, h3⟩ := checkServer_alike w prompt f h hp
    exact ⟨out, ok, { f with password := p1 }, p2, h1, rfl, h2, h3⟩
  have hdown : ∀ (f : Flags) (p : Str), AlikePasswords f.password p →
      ∃ out ok g p2, AlikePasswords g.password p2 ∧ g.dryrun = f.dryrun ∧ downloadCheckFlags w f = (out, ok, g) ∧
      downloadCheckFlags { w with prompt := prompt } { f with password := p } = (out, ok, { g with password := p2 }) := by
    intro f p h
    obtain ⟨out, ok, p1, p2, h1, h2, h3⟩ := checkServer_alike w prompt f h hp
    unfold downloadCheckFlags
    rw [h2, h3]
    simp only
    by_cases hf : blen f.filename = 0
    · rw [if_pos hf, if_pos hf]; exact ⟨_, _, { f with password := p1 }, p2, h1, rfl, rfl, rfl⟩
    · rw [if_neg hf, if_neg hf]; exact ⟨_, _, { f with password := p1 }, p2, h1, rfl, rfl, rfl⟩
  cases c
  case downloadProfile =>
    show ∃ out ok g p2, _ ∧ _ ∧ downloadProfileCheckFlags w f = _ ∧ downloadProfileCheckFlags _ _ = _
    unfold downloadProfileCheckFlags
    by_cases hu : blen f.username = 0
    · rw [if_pos hu, if_pos hu]
      exact hdown { f with username := anonymous, password := anonymous } anonymous ⟨Iff.rfl, Iff.rfl⟩
    · rw [if_neg hu, if_neg hu]; exact hdown f p h
  case downloadBank => exact hdown f p h
  case downloadCC => exact hdown f p h
  case downloadInv => exact hdown f p h
  all_goals exact hserver

/-- C82: outside of dry runs, what a command prints, how it ends, which files it writes with which
contents and everything it sends but the documents themselves is the same for any two passwords,
given as flags or typed in (both missing, both acceptable or both too long), if the server, and
the source of randomness, do not react to the documents. -/
theorem C82_password_unseen (w : World) (hn : Blind w.net)
    (he : ∀ tr tr', outline tr = outline tr' → w.entropy tr = w.entropy tr') (f : Flags) (hd : f.dryrun = false)
    (p : Str) (h : AlikePasswords f.password p) (prompt : Option Str) (hp : AlikePrompts w.prompt prompt)
    (usage : Str) (c : Command) :
    SameToObserver (runCmd w f usage c) (runCmd { w with prompt := prompt } { f with password := p } usage c) := by
  obtain ⟨out, ok, g, p2, h1, h0, h2, h3⟩ := checkFlags_alike w prompt f h hp c
  unfold runCmd
  rw [h2, h3]
  cases ok with
  | false => exact ⟨rfl, rfl, rfl, rfl⟩
  | true => exact same_prefix (run_alike hn he prompt (h0.trans hd) h1 c) out

/-- A server that always answers the same is such a server; and the two passwords do matter for
the documents. -/
theorem answering_blind (now : GoTime) (body : List UInt8) : Blind (answering now body).net :=
  ⟨fun _ _ _ _ _ _ => rfl, fun _ _ _ _ => rfl, fun _ _ c h => by cases h; exact ⟨rfl, fun _ _ => rfl⟩⟩

example (now : GoTime) (body : List UInt8) (usage : Str) :
    SameToObserver (runCmd (answering now body) sampleFlags usage .transactionsBank)
      (runCmd (answering now body) { sampleFlags with password := "hunter2".toList } usage .transactionsBank) :=
  C82_password_unseen (answering now body) (answering_blind now body) (fun _ _ _ => rfl) sampleFlags rfl "hunter2".toList
    (by unfold AlikePasswords; decide +kernel) (answering now body).prompt (by
      show AlikePrompts (offline now).prompt (offline now).prompt
      cases (offline now).prompt with
      | none => trivial
      | some p => exact ⟨Iff.rfl, Iff.rfl⟩) usage .transactionsBank

example (now : GoTime) (body : List UInt8) : Blind (answering now body).net ∧
    BlindPolicy ((Client.basic sampleClient).bc.HTTPClient.getD defaultHttpClient) ∧
    AlikePasswords sampleRequest.signon.UserPass "hunter2".toList ∧
    sampleRequest.signon.UserPass ≠ "hunter2".toList :=
  ⟨answering_blind now body, default_blind, by unfold AlikePasswords; decide +kernel, by decide +kernel⟩

end Ofx.Props
