import Verif.Props.CliCrash
/-
C61: what the commands do before they run; C62: what they ask the server.
-/
namespace Ofx.Props
open Ofx Spec

/-! ### C61 -/

theorem blen_eq_zero {s : Str} : blen s = 0 ↔ s = [] := blen_zero

/-- What checkServerFlags does. -/
theorem checkServer_cases (w : World) (f : Flags) :
    ((f.serverURL = [] ∨ f.username = []) ∧ (checkServerFlags w f).2.1 = false ∧ (checkServerFlags w f).2.2 = f) ∨
    (f.serverURL ≠ [] ∧ f.username ≠ [] ∧
      ((f.password ≠ [] ∧ checkServerFlags w f = ([], true, f)) ∨
       (f.password = [] ∧ w.prompt = none ∧ (checkServerFlags w f).2.1 = false ∧ (checkServerFlags w f).2.2 = f) ∨
       (f.password = [] ∧ ∃ p, w.prompt = some p ∧
          checkServerFlags w f = ("Password for ".toList ++ f.username ++ ": ".toList, true, { f with password := p })))) := by
  have hz : ∀ {s : Str}, s = [] → decide (blen s = 0) = true := by rintro _ rfl; rfl
  have hnz : ∀ {s : Str}, s ≠ [] → decide (blen s = 0) = false := by
    intro s h; rw [decide_eq_false_iff_not, blen_eq_zero]; exact h
  unfold checkServerFlags
  by_cases hu : f.serverURL = []
  · left
    refine ⟨.inl hu, ?_⟩
    dsimp only
    rw [hz hu, if_neg (fun h => by simp only [Bool.not_true, Bool.false_and] at h; cases h)]
    exact ⟨rfl, rfl⟩
  by_cases hn : f.username = []
  · left
    refine ⟨.inr hn, ?_⟩
    dsimp only
    rw [hz hn, if_neg (fun h => by simp only [Bool.not_true, Bool.false_and, Bool.and_false] at h; cases h)]
    exact ⟨by simp only [Bool.not_true, Bool.and_false], rfl⟩
  right
  refine ⟨hu, hn, ?_⟩
  dsimp only
  rw [hnz hu, hnz hn, if_neg (fun h => hu (blen_eq_zero.mp h)), if_neg (fun h => hn (blen_eq_zero.mp h))]
  by_cases hp : f.password = []
  · right
    rw [hz hp, if_pos (show (!false && !false && true) = true from rfl)]
    cases w.prompt with
    | none => exact .inl ⟨hp, rfl, rfl, rfl⟩
    | some p => exact .inr ⟨hp, p, rfl, rfl⟩
  · left
    rw [hnz hp, if_neg (by decide)]
    exact ⟨hp, rfl⟩

theorem runCmd_false {w : World} {f : Flags} {usage : Str} {c : Command} (h : (c.checkFlags w f).2.1 = false) :
    (runCmd w f usage c).fin = .exit 1 ∧ (runCmd w f usage c).trace = [] ∧ (runCmd w f usage c).files = [] := by
  unfold runCmd
  revert h
  generalize c.checkFlags w f = x
  obtain ⟨out, ok, f'⟩ := x
  intro h
  have h : ok = false := h
  subst h
  exact ⟨rfl, rfl, rfl⟩

theorem download_false {w : World} {f : Flags} (h : (checkServerFlags w f).2.1 = false) : (downloadCheckFlags w f).2.1 = false := by
  unfold downloadCheckFlags
  revert h
  generalize checkServerFlags w f = x
  obtain ⟨out, ok, f'⟩ := x
  intro h
  simp only
  by_cases h' : blen f'.filename = 0
  · rw [if_pos h']
  · rw [if_neg h']; exact h

theorem download_nofile {w : World} {f : Flags} (h : f.filename = []) : (downloadCheckFlags w f).2.1 = false := by
  have hf : (checkServerFlags w f).2.2.filename = f.filename := by
    rcases checkServer_cases w f with ⟨-, -, h'⟩ | ⟨-, -, ⟨-, h'⟩ | ⟨-, -, -, h'⟩ | ⟨-, p, -, h'⟩⟩ <;> rw [h']
  unfold downloadCheckFlags
  revert hf
  generalize checkServerFlags w f = x
  obtain ⟨out, ok, f'⟩ := x
  intro hf
  have hf : f'.filename = f.filename := hf
  simp only
  rw [if_pos (by rw [hf, h]; decide)]

theorem download_true {w : World} {f f' : Flags} {out : Str} (h : checkServerFlags w f = (out, true, f')) (hn : f'.filename ≠ []) :
    downloadCheckFlags w f = (out, true, f') := by
  unfold downloadCheckFlags
  rw [h]
  simp only
  rw [if_neg (by rw [blen_eq_zero]; exact hn)]

/-- The flags checkFlags starts from. -/
def startFlags (c : Command) (f : Flags) : Flags :=
  if c = .downloadProfile ∧ f.username = [] then { f with username := anonymous, password := anonymous } else f

theorem checkFlags_eq (w : World) (f : Flags) (c : Command) : c.checkFlags w f =
    if c = .downloadProfile ∨ c = .downloadBank ∨ c = .downloadCC ∨ c = .downloadInv then downloadCheckFlags w (startFlags c f)
    else checkServerFlags w (startFlags c f) := by
  cases c
  case downloadProfile =>
    rw [if_pos (.inl rfl)]
    have hst : startFlags .downloadProfile f =
        if blen f.username = 0 then { f with username := anonymous, password := anonymous } else f := by
      unfold startFlags
      by_cases h : f.username = []
      · rw [if_pos ⟨rfl, h⟩, if_pos (by rw [h]; decide)]
      · rw [if_neg (fun h' => h h'.2), if_neg (by rw [blen_eq_zero]; exact h)]
    rw [hst]; rfl
  all_goals
    have hst : ∀ c : Command, c ≠ .downloadProfile → startFlags c f = f := by
      intro c hc
      unfold startFlags; rw [if_neg (fun h => hc h.1)]
    rw [hst _ (by decide)]
    first
      | rw [if_pos (by decide)]; rfl
      | rw [if_neg (by decide)]; rfl

/-- C61: a command whose flags are incomplete sends and writes nothing and exits with status 1. -/
theorem C61_incomplete (w : World) (f : Flags) (usage : Str) (c : Command) (h : ¬ Complete c f) :
    (runCmd w f usage c).fin = .exit 1 ∧ (runCmd w f usage c).trace = [] ∧ (runCmd w f usage c).files = [] := by
  apply runCmd_false
  rw [checkFlags_eq]
  have hs : (f.serverURL = [] ∨ (f.username = [] ∧ c ≠ .downloadProfile)) → (checkServerFlags w (startFlags c f)).2.1 = false := by
    intro h
    have : (startFlags c f).serverURL = [] ∨ (startFlags c f).username = [] := by
      unfold startFlags
      rcases h with h | ⟨h, hc⟩
      · left; split_ifs <;> exact h
      · right; rw [if_neg (fun h' => hc h'.1)]; exact h
    rcases checkServer_cases w (startFlags c f) with ⟨-, h', -⟩ | ⟨h1, h2, -⟩
    · exact h'
    · rcases this with h | h
      · exact absurd h h1
      · exact absurd h h2
  have hf : (startFlags c f).filename = f.filename := by unfold startFlags; split_ifs <;> rfl
  by_cases h1 : f.serverURL = [] ∨ (f.username = [] ∧ c ≠ .downloadProfile)
  · split_ifs
    · exact download_false (hs h1)
    · exact hs h1
  · have : Saves c ∧ f.filename = [] := by
      by_contra hn
      exact h ⟨fun h' => h1 (.inl h'), fun h' => by by_contra hc; exact h1 (.inr ⟨h', hc⟩), fun h' h'' => hn ⟨h', h''⟩⟩
    rw [if_pos (show c = .downloadProfile ∨ c = .downloadBank ∨ c = .downloadCC ∨ c = .downloadInv from this.1)]
    exact download_nofile (by rw [hf]; exact this.2)

/-- C61: with complete flags the command runs with the login in full, after asking for the
password if it was not given; if it cannot be read nothing is sent or written and the status
is 1. -/
theorem C61_complete (w : World) (f : Flags) (usage : Str) (c : Command) (h : Complete c f) :
    (∃ f', LoginOf w c f f' ∧ (runCmd w f usage c).fin = (c.run w f').fin ∧
      (runCmd w f usage c).trace = (c.run w f').trace ∧ (runCmd w f usage c).files = (c.run w f').files ∧
      (runCmd w f usage c).out = (if f.username ≠ [] ∧ f.password = [] then
          "Password for ".toList ++ f.username ++ ": ".toList else []) ++ (c.run w f').out) ∨
    ((f.username ≠ [] ∧ f.password = [] ∧ w.prompt = none) ∧
      (runCmd w f usage c).fin = .exit 1 ∧ (runCmd w f usage c).trace = [] ∧ (runCmd w f usage c).files = []) := by
  obtain ⟨h1, h2, h3⟩ := h
  have hrun : ∀ out f', checkServerFlags w (startFlags c f) = (out, true, f') → f'.filename = f.filename →
      (runCmd w f usage c) = { c.run w f' with out := out ++ (c.run w f').out } := by
    intro out f' hx hn
    have : c.checkFlags w f = (out, true, f') := by
      rw [checkFlags_eq]
      by_cases hs : Saves c
      · rw [if_pos (show c = .downloadProfile ∨ c = .downloadBank ∨ c = .downloadCC ∨ c = .downloadInv from hs)]; exact download_true hx (by rw [hn]; exact h3 hs)
      · rw [if_neg (show ¬ (c = .downloadProfile ∨ c = .downloadBank ∨ c = .downloadCC ∨ c = .downloadInv) from hs)]; exact hx
    unfold runCmd; rw [this]
  by_cases hu : f.username = []
  · left
    have hc := h2 hu
    have hst : startFlags c f = { f with username := anonymous, password := anonymous } := by
      unfold startFlags; rw [if_pos ⟨hc, hu⟩]
    refine ⟨startFlags c f, .inl ⟨hc, hu, hst⟩, ?_⟩
    have hx : checkServerFlags w (startFlags c f) = ([], true, startFlags c f) := by
      rw [hst]
      rcases checkServer_cases w { f with username := anonymous, password := anonymous } with
        ⟨h' | h', -⟩ | ⟨-, -, ⟨-, h'⟩ | ⟨h', -⟩ | ⟨h', -⟩⟩
      · exact absurd h' h1
      · cases h'
      · exact h'
      · cases h'
      · cases h'
    rw [hrun _ _ hx (by rw [hst]), if_neg (fun h' => h'.1 hu)]
    exact ⟨rfl, rfl, rfl, rfl⟩
  · have hst : startFlags c f = f := by
      unfold startFlags; rw [if_neg (fun h' => hu h'.2)]
    rw [hst] at hrun
    rcases checkServer_cases w f with ⟨h' | h', -⟩ | ⟨-, -, ⟨hp, h'⟩ | ⟨hp, hq, h', -⟩ | ⟨hp, p, hq, h'⟩⟩
    · exact absurd h' h1
    · exact absurd h' hu
    · left
      refine ⟨f, .inr (.inl ⟨hu, hp, rfl⟩), ?_⟩
      rw [hrun _ _ h' rfl, if_neg (fun h' => hp h'.2)]
      exact ⟨rfl, rfl, rfl, rfl⟩
    · right
      refine ⟨⟨hu, hp, hq⟩, ?_⟩
      apply runCmd_false
      rw [checkFlags_eq, hst]
      split_ifs
      · exact download_false h'
      · exact h'
    · left
      refine ⟨{ f with password := p }, .inr (.inr ⟨hu, hp, p, hq, rfl⟩), ?_⟩
      rw [hrun _ _ h' rfl, if_pos ⟨hu, hp⟩]
      exact ⟨rfl, rfl, rfl, rfl⟩

/-- A case of C61_complete: a user name but no password, which is then typed in. -/
example (now : GoTime) (f : Flags) (h1 : f.serverURL = "https://x".toList) (h2 : f.username = "me".toList) (h3 : f.password = []) :
    Complete .getAccounts f ∧ LoginOf { offline now with prompt := some "pw".toList } .getAccounts f { f with password := "pw".toList } := by
  refine ⟨⟨by rw [h1]; decide, fun h => (by rw [h2] at h; cases h), ?_⟩, .inr (.inr ⟨by rw [h2]; decide, h3, _, rfl, rfl⟩)⟩
  rintro (h | h | h | h) <;> cases h

/-! ### C62 -/

theorem sonrq_element (so : SignonRequest) (hp : so.UserPass ≠ []) (hk : so.UserKey = []) (hg : so.GenUserKey = false) :
    encodeAs "SONRQ".toList so = .ok [.elem "SONRQ".toList
      ([textNode "DTCLIENT".toList (Date.marshal so.DtClient), textNode "USERID".toList so.UserID,
        textNode "USERPASS".toList so.UserPass, textNode "LANGUAGE".toList so.Language,
        .elem "FI".toList [textNode "ORG".toList so.Org, textNode "FID".toList so.Fid],
        textNode "APPID".toList so.AppID, textNode "APPVER".toList so.AppVer] ++
       (if so.ClientUID = [] then [] else [textNode "CLIENTUID".toList so.ClientUID]))] := by
  have h1 : (Ty.leaf .str).enc "USERPASS".toList true so.UserPass = .ok [textNode "USERPASS".toList so.UserPass] := by
    simp only [Ty.enc]
    rw [if_neg]
    · rfl
    · show ¬ (true && so.UserPass.isEmpty) = true
      simpa using hp
  have h2 : (Ty.leaf .str).enc "USERKEY".toList true so.UserKey = .ok [] := by rw [hk]; rfl
  have h3 : (Ty.leaf .bool).enc "GENUSERKEY".toList true so.GenUserKey = .ok [] := by rw [hg]; rfl
  have h4 : (Ty.leaf .uid).enc "CLIENTUID".toList true so.ClientUID =
      .ok (if so.ClientUID = [] then [] else [textNode "CLIENTUID".toList so.ClientUID]) := by
    simp only [Ty.enc]
    by_cases h : so.ClientUID = []
    · rw [if_pos h, h]; rfl
    · rw [if_neg h, if_neg]
      · rfl
      · show ¬ (true && so.ClientUID.isEmpty) = true
        simpa using h
  have e : SignonRequest.fields.enc (SignonRequest.toDen so).2 = .ok
      [⟨[], true, [textNode "DTCLIENT".toList (Date.marshal so.DtClient)]⟩, ⟨[], true, [textNode "USERID".toList so.UserID]⟩,
       ⟨[], true, [textNode "USERPASS".toList so.UserPass]⟩, ⟨[], true, []⟩, ⟨[], true, []⟩, ⟨[], true, [textNode "LANGUAGE".toList so.Language]⟩,
       ⟨["FI".toList], true, [textNode "ORG".toList so.Org]⟩, ⟨["FI".toList], true, [textNode "FID".toList so.Fid]⟩,
       ⟨[], true, [textNode "APPID".toList so.AppID]⟩, ⟨[], true, [textNode "APPVER".toList so.AppVer]⟩,
       ⟨[], true, if so.ClientUID = [] then [] else [textNode "CLIENTUID".toList so.ClientUID]⟩] := by
    unfold SignonRequest.fields SignonRequest.toDen
    simp only [Fields.enc]
    erw [h1, h2, h3, h4]
    rfl
  refine (struct_enc (SignonRequest.toDen so) e).trans ?_
  have hd : SignonRequest.fields.depth = 1 := by decide
  rw [hd]
  by_cases h : so.ClientUID = []
  · rw [if_pos h]; rfl
  · rw [if_neg h]; rfl

theorem bank_element (uid bank acct : Str) (n : Nat) (kind : Str) (hk : enumAcctType.valid n = true)
    (hs : enumAcctType.string n = .ret kind) :
    (Message.statementRequest ⟨uid, [], [], ⟨[], bank, [], acct, n, []⟩, none, none, true, false, false⟩).encode =
    .ok [.elem "STMTTRNRQ".toList [textNode "TRNUID".toList uid, .elem "STMTRQ".toList [
        .elem "BANKACCTFROM".toList [textNode "BANKID".toList bank, textNode "ACCTID".toList acct,
          textNode "ACCTTYPE".toList kind], includeAll "INCTRAN"]]] := by
  have hn : n = 1 ∨ n = 2 ∨ n = 3 ∨ n = 4 ∨ n = 5 := by
    have : (decide (1 ≤ n) && decide (n ≤ 5)) = true := hk
    rw [Bool.and_eq_true, decide_eq_true_iff, decide_eq_true_iff] at this
    omega
  have key : ∀ {k s : Str}, Outcome.ret k = Outcome.ret s → k = s := by intro k s h; injection h
  rcases hn with rfl | rfl | rfl | rfl | rfl
  · obtain rfl := key (hs.symm.trans (show enumAcctType.string 1 = .ret "CHECKING".toList by rfl)); rfl
  · obtain rfl := key (hs.symm.trans (show enumAcctType.string 2 = .ret "SAVINGS".toList by rfl)); rfl
  · obtain rfl := key (hs.symm.trans (show enumAcctType.string 3 = .ret "MONEYMRKT".toList by rfl)); rfl
  · obtain rfl := key (hs.symm.trans (show enumAcctType.string 4 = .ret "CREDITLINE".toList by rfl)); rfl
  · obtain rfl := key (hs.symm.trans (show enumAcctType.string 5 = .ret "CD".toList by rfl)); rfl

theorem cc_element (uid acct : Str) :
    (Message.ccStatementRequest ⟨uid, [], [], ⟨[], acct, []⟩, none, none, true, false, false⟩).encode =
    .ok [.elem "CCSTMTTRNRQ".toList [textNode "TRNUID".toList uid,
      .elem "CCSTMTRQ".toList [.elem "CCACCTFROM".toList [textNode "ACCTID".toList acct], includeAll "INCTRAN"]]] := by
  rfl

theorem inv_element (uid broker acct : Str) :
    (Message.invStatementRequest ⟨uid, [], [], ⟨[], broker, acct⟩, none, none, true, true, none, true, true, true, true, false⟩).encode =
    .ok [.elem "INVSTMTTRNRQ".toList [textNode "TRNUID".toList uid,
      .elem "INVSTMTRQ".toList [
        .elem "INVACCTFROM".toList [textNode "BROKERID".toList broker, textNode "ACCTID".toList acct],
        includeAll "INCTRAN", textNode "INCOO".toList "Y".toList, includeAll "INCPOS",
        textNode "INCBAL".toList "Y".toList, textNode "INC401K".toList "Y".toList, textNode "INC401KBAL".toList "Y".toList]]] := by
  rfl

theorem accounts_element (uid : Str) (t : GoTime) :
    (Message.acctInfoRequest ⟨uid, [], [], t⟩).encode =
    .ok [.elem "ACCTINFOTRNRQ".toList [textNode "TRNUID".toList uid,
      .elem "ACCTINFORQ".toList [textNode "DTACCTUP".toList (Date.marshal t)]]] := by
  rfl

theorem profile_element (uid : Str) (t : GoTime) :
    (Message.profileRequest ⟨uid, [], [], "NONE".toList, t⟩).encode =
    .ok [.elem "PROFTRNRQ".toList [textNode "TRNUID".toList uid,
      .elem "PROFRQ".toList [textNode "CLIENTROUTING".toList "NONE".toList,
        textNode "DTPROFUP".toList (Date.marshal t)]]] := by
  rfl

theorem signon_kept_all (v : Nat) (so : SignonRequest) (hl : so.Language = []) (hk : so.UserKey = [])
    (h : (so.valid v).1 = none) : so.UserPass ≠ [] ∧ (so.valid v).2 = { so with Language := "ENG".toList } := by
  have hk' : blen so.UserKey = 0 := by rw [hk]; rfl
  have hl' : blen so.Language = 0 := by rw [hl]; rfl
  unfold SignonRequest.valid at h ⊢
  rw [hk', hl'] at h ⊢
  by_cases h1 : blen so.UserID < 1 ∨ blen so.UserID > 32
  · rw [if_pos h1] at h; cases h
  rw [if_neg h1] at h ⊢
  by_cases h2 : (blen so.UserPass = 0) = (0 = 0)
  · rw [if_pos h2] at h; cases h
  rw [if_neg h2] at h ⊢
  by_cases h3 : blen so.UserPass > 32
  · rw [if_pos h3] at h; cases h
  rw [if_neg h3] at h ⊢
  rw [if_neg (by decide), if_neg (by decide)] at h ⊢
  refine ⟨?_, ?_⟩
  · intro hp
    exact h2 (by rw [hp]; rfl)
  · dsimp only at h ⊢
    rw [if_pos rfl] at h ⊢
    by_cases h4 : blen so.AppID < 1 ∨ blen so.AppID > 5
    · rw [if_pos h4] at h; cases h
    rw [if_neg h4] at h ⊢
    by_cases h5 : blen so.AppVer < 1 ∨ blen so.AppVer > 4
    · rw [if_pos h5] at h; cases h
    rw [if_neg h5]

theorem client_bc (url : Str) (bc : BasicClient) : (getClient url bc).bc = bc := by
  unfold getClient
  split_ifs <;> rfl

/-- The body with a single message. -/
theorem one_message (signon : Node) (X : MsgSet) (hX : X ≠ .signon) (m : Message) (content : MsgSet → List Node) :
    ∃ name, (X, name) ∈ requestOrder ∧ bodyOf requestOrder "SIGNONMSGSRQV1" signon (fun s => if s = X then [m] else []) content =
      .elem "OFX".toList [.elem "SIGNONMSGSRQV1".toList [signon], .elem name.toList (content X)] := by
  cases X
  case signon => exact absurd rfl hX
  all_goals refine ⟨_, by simp [requestOrder], rfl⟩

theorem asks_document {w : World} {c : Command} {f : Flags} {cl : Client} {r : Request Message} {d : Doc} (hc : OneRequest c)
    (hq : c.query w f = .ok (cl, r)) (h : (r.setClientFields w.net.now cl.bc).marshal.1 = .ok d) : AsksDocument w c f d := by
  obtain ⟨ver, uid, h1, h2, h3, h4, h5, h6⟩ := query_ok hq
  have hbc : cl.bc = ⟨ver, f.appID, f.appVer, f.noIndentRequests, f.carriageReturn, f.userAgent, none⟩ := by
    rw [h3, client_bc]
  obtain ⟨hv, version, hs, ht⟩ := (C10_parse_iff _ (by decide +kernel) _ _).mp ((C10_new_unmarshal _ _ _).1.mp h1)
  obtain ⟨k1, k2, k3, k4, -⟩ := C43_defaults cl.bc
  have hver : cl.bc.ofxVersion = ver := by
    rw [k1, hbc]
    unfold effectiveVersion
    have : (decide (1 ≤ ver) && decide (ver ≤ 11)) = true := hv
    rw [Bool.and_eq_true, decide_eq_true_iff, decide_eq_true_iff] at this
    rw [if_pos this]
  obtain ⟨signon, content, hb, -, hso, hf⟩ := C25_request_body _ d h
  have hval := ((request_marshal_ok _ d).mp h).1
  obtain ⟨hp, hso'⟩ := signon_kept_all _ _ (show (r.setClientFields w.net.now cl.bc).signon.Language = [] by
    show r.signon.Language = []; rw [h5]) (show r.signon.UserKey = [] by rw [h5]) hval
  rw [hso', sonrq_element { (r.setClientFields w.net.now cl.bc).signon with Language := "ENG".toList } hp (show r.signon.UserKey = [] by rw [h5]) (show r.signon.GenUserKey = false by rw [h5])] at hso
  have hsig : signon = signonOf w.net.now f := by
    injection hso with hso
    injection hso with hso
    rw [← hso]
    show Node.elem "SONRQ".toList ([textNode "DTCLIENT".toList (Date.marshal w.net.now),
      textNode "USERID".toList r.signon.UserID, textNode "USERPASS".toList r.signon.UserPass, textNode "LANGUAGE".toList "ENG".toList,
      .elem "FI".toList [textNode "ORG".toList r.signon.Org, textNode "FID".toList r.signon.Fid],
      textNode "APPID".toList cl.bc.id, textNode "APPVER".toList cl.bc.version] ++
       (if r.signon.ClientUID = [] then [] else [textNode "CLIENTUID".toList r.signon.ClientUID])) = _
    rw [h5, k2, k3, hbc]
    rfl
  have hsets : (r.setClientFields w.net.now cl.bc).sets = fun s => if s = (c.message w f uid).1 then [(c.message w f uid).2] else [] :=
    funext h6
  have hX : (c.message w f uid).1 ≠ .signon := by cases c <;> (intro h; cases h)
  obtain ⟨name, hn, hbody⟩ := one_message signon (c.message w f uid).1 hX (c.message w f uid).2 content
  rw [hsets, hbody, hsig] at hb
  have hf := hf _ hX
  rw [hsets] at hf
  simp only [if_true] at hf
  have hset : ∃ n, content (c.message w f uid).1 = [n] ∧ ((c.message w f uid).2.valid (r.setClientFields w.net.now cl.bc).version).2.encode = .ok [n] := by
    cases hcm : content (c.message w f uid).1 with
    | nil => rw [hcm] at hf; cases hf
    | cons n l =>
      rw [hcm] at hf
      cases hf with
      | cons h1 h2 =>
        cases h2
        obtain ⟨cs, -, h1⟩ := h1
        exact ⟨n, rfl, h1⟩
  obtain ⟨n, hn1, hn2⟩ := hset
  rw [hn1] at hb
  have hname : ∀ a ∈ requestOrder, ∀ b ∈ requestOrder, a.1 = b.1 → a.2 = b.2 := by decide +kernel
  have hset : ∀ nm, ((c.message w f uid).1, nm) ∈ requestOrder → name = nm := fun nm h => hname _ hn _ h rfl
  have huid : UID.valid uid = none := (C09_valid _ _ h2).2
  refine ⟨ver, version, uid, .elem name.toList [n], hs, ht, ?_, ?_, ?_, ?_, h2, ?_, hb⟩
  · have := (C31_header_partial (r.setClientFields w.net.now cl.bc) k4 d h).2
    rw [show (r.setClientFields w.net.now cl.bc).version = ver from hver,
      show (r.setClientFields w.net.now cl.bc).carriageReturn = f.carriageReturn by
        show cl.bc.CarriageReturn = _; rw [hbc]] at this
    exact this
  · obtain ⟨_, ns, rest, _, _, rfl⟩ := (request_marshal_ok _ d).mp h
    show (!cl.bc.NoIndent) = _
    rw [hbc]
  · obtain ⟨_, ns, rest, _, _, rfl⟩ := (request_marshal_ok _ d).mp h
    show cl.bc.CarriageReturn = _
    rw [hbc]
  · obtain ⟨_, ns, rest, _, _, rfl⟩ := (request_marshal_ok _ d).mp h
    show decide (cl.bc.ofxVersion < 5) = _
    rw [hver]
  · have hbank : ∀ {x}, prepareBank w f = .ok x → ∃ kind ∈ enumAcctType.names, TrimsTo f.acctType kind ∧
        enumAcctType.valid (enumAcctType.new f.acctType).1 = true ∧ enumAcctType.string (enumAcctType.new f.acctType).1 = .ret kind := by
      intro x hx
      have h0 : enumAcctType.new f.acctType = ((enumAcctType.new f.acctType).1, none) :=
        Prod.ext rfl (prepareBank_ok hx).1
      obtain ⟨g1, kind, g2, g3⟩ := (C10_parse_iff _ (by decide +kernel) _ _).mp ((C10_new_unmarshal _ _ _).1.mp h0)
      refine ⟨kind, ?_, g3, g1, g2⟩
      obtain ⟨s, g4, g5⟩ := (good_of_mem (show enumAcctType ∈ allEnums by decide +kernel)).string_valid g1
      rw [g2] at g5; cases g5
      exact List.mem_of_getElem? g4
    have hone : ∀ {a b : Node}, Except.ok (ε := String) [a] = .ok [b] → b = a := by
      intro a b h; injection h with h; injection h with h; exact h.symm
    cases c
    case detectSettings => exact absurd rfl hc
    case downloadBank =>
      obtain ⟨kind, g1, g2, g3, g4⟩ := hbank hq
      obtain rfl := hset "BANKMSGSRQV1" (show (MsgSet.bank, "BANKMSGSRQV1") ∈ requestOrder by decide +kernel)
      exact ⟨kind, g1, g2, by rw [hone ((bank_element _ _ _ _ _ g3 g4).symm.trans hn2)]⟩
    case transactionsBank =>
      obtain ⟨kind, g1, g2, g3, g4⟩ := hbank hq
      obtain rfl := hset "BANKMSGSRQV1" (show (MsgSet.bank, "BANKMSGSRQV1") ∈ requestOrder by decide +kernel)
      exact ⟨kind, g1, g2, by rw [hone ((bank_element _ _ _ _ _ g3 g4).symm.trans hn2)]⟩
    case downloadCC =>
      obtain rfl := hset "CREDITCARDMSGSRQV1" (show (MsgSet.creditCard, "CREDITCARDMSGSRQV1") ∈ requestOrder by decide +kernel)
      show _ = _
      rw [hone ((cc_element _ _).symm.trans hn2)]
    case transactionsCC =>
      obtain rfl := hset "CREDITCARDMSGSRQV1" (show (MsgSet.creditCard, "CREDITCARDMSGSRQV1") ∈ requestOrder by decide +kernel)
      show _ = _
      rw [hone ((cc_element _ _).symm.trans hn2)]
    case downloadInv =>
      obtain rfl := hset "INVSTMTMSGSRQV1" (show (MsgSet.invStmt, "INVSTMTMSGSRQV1") ∈ requestOrder by decide +kernel)
      show _ = _
      rw [hone ((inv_element _ _ _).symm.trans hn2)]
    case transactionsInv =>
      obtain rfl := hset "INVSTMTMSGSRQV1" (show (MsgSet.invStmt, "INVSTMTMSGSRQV1") ∈ requestOrder by decide +kernel)
      show _ = _
      rw [hone ((inv_element _ _ _).symm.trans hn2)]
    case getAccounts =>
      obtain rfl := hset "SIGNUPMSGSRQV1" (show (MsgSet.signup, "SIGNUPMSGSRQV1") ∈ requestOrder by decide +kernel)
      exact ⟨unixEpoch w, rfl, by rw [hone ((accounts_element _ _).symm.trans hn2)]⟩
    case downloadProfile =>
      obtain rfl := hset "PROFMSGSRQV1" (show (MsgSet.prof, "PROFMSGSRQV1") ∈ requestOrder by decide +kernel)
      have hv : ((Message.profileRequest ⟨uid, [], [], [], GoTime.zero⟩).valid (r.setClientFields w.net.now cl.bc).version).2 =
          .profileRequest ⟨uid, [], [], "NONE".toList, GoTime.zero⟩ := by
        show Message.profileRequest (ProfileRequest.valid _ _).2 = _
        unfold ProfileRequest.valid
        rw [show UID.valid (ProfileRequest.mk uid [] [] [] GoTime.zero).TrnUID = none from huid]
      rw [show (Command.message w f uid .downloadProfile).2 = .profileRequest ⟨uid, [], [], [], GoTime.zero⟩ from rfl, hv] at hn2
      show _ = _
      rw [hone ((profile_element _ _).symm.trans hn2)]

/-- C62: every document a command other than detect-settings posts, or writes to a connection it
made itself after some header lines (as far as it gets), is the one that asks for what the flags
say. -/
theorem C62_asks (w : World) (f : Flags) (c : Command) (hc : OneRequest c) :
    (∀ q ∈ posts (c.run w f).trace, ∃ d, q.body = d.bytes ∧ AsksDocument w c f d) ∧
    ∀ b ∈ written (c.run w f).trace, ∃ d path host, AsksDocument w c f d ∧
      b <+: toBytes (discoverHeaders path host d.bytes.length) ++ d.bytes := by
  rcases run_docs hc w f with ⟨h1, h2⟩ | ⟨cl, r, hq, h1, h2⟩
  · rw [h1, h2]
    exact ⟨fun q hq => (by cases hq), fun q hq => (by cases hq)⟩
  · rw [h1, h2]
    obtain ⟨h3, h4⟩ := noParse_docs w.net cl r
    refine ⟨?_, ?_⟩
    · intro q hq'
      obtain ⟨d, hd, hb⟩ := h3 q hq'
      exact ⟨d, hb, asks_document hc hq hd⟩
    · intro b hb
      obtain ⟨d, path, host, hd, hb⟩ := h4 b hb
      exact ⟨d, path, host, asks_document hc hq hd, hb⟩

/-- The commands do send documents: with a server that answers, whatever it answers, there is a
post. -/
theorem sample_posts (c : Command) (hc : Shows c) (now : GoTime) (body : List UInt8) :
    posts (c.run (answering now body) sampleFlags).trace ≠ [] := by
  obtain ⟨bc, r, d, hq, hu, hd⟩ := sample_query c (by rcases hc with rfl | rfl | rfl | rfl <;> (unfold OneRequest; decide)) now body
  obtain ⟨onError, he⟩ := run_shows hc (answering now body) sampleFlags
  rw [he]
  rcases show_cases (answering now body) sampleFlags (c.query (answering now body) sampleFlags) onError c.printer with
    ⟨e, g, -⟩ | ⟨cl', r', g, ⟨g', -⟩ | ⟨-, ht, -⟩⟩
  · rw [hq] at g; cases g
  · cases g'
  · rw [hq] at g; cases g
    rw [ht]
    have hraw : (posts ((Client.basic bc).requestNoParse (answering now body).net r []).2.2) ≠ [] := by
      obtain ⟨hs', k1⟩ := constNet_first now ⟨200, "200 OK".toList, body.length, [], [], body⟩ rfl (.basic bc)
        (by intro bc h; cases h) r.url (by rw [hu]; decide) d.bytes []
      rcases noParse_cases (answering now body).net (.basic bc) r [] with ⟨e, h', -⟩ | ⟨d', h', h''⟩
      · erw [hd] at h'; cases h'
      erw [hd] at h'
      cases h'
      rcases h'' with ⟨-, h''⟩ | ⟨resp', -, hr, -⟩
      · rw [h'']; erw [k1]; intro h; cases h
      · obtain ⟨⟨bc, hr⟩, -⟩ := hr; cases hr
    rcases request_cases (answering now body).env (answering now body).names (answering now body).net (.basic bc) r [] with
      ⟨e, -, g⟩ | ⟨resp, -, -, g, -⟩
    · rw [g]; exact hraw
    · rw [g, (posts_closed _ _).1]; exact hraw

end Ofx.Props
