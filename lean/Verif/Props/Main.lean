import Verif.Lemmas.Main
import Verif.Props.CliAsk
/-
C64: which sub-command runs; C65: what becomes of the arguments.
-/
namespace Ofx.Props
open Ofx Spec

theorem find_command (c : Command) : commands.find? (·.name == c.name) = some c := by
  cases c <;> rfl

theorem subcommand_name : ∀ s ∈ subcommands, s.2.2.name = s.1.toList ∧ s.2.2.description = s.2.1.toList := by
  decide

theorem subcommand_of (c : Command) : ∃ s ∈ subcommands, s.2.2 = c := by
  cases c <;> decide

theorem not_command {name : Str} (h : ∀ s ∈ subcommands, name ≠ s.1.toList) : commands.find? (·.name == name) = none := by
  rw [List.find?_eq_none]
  intro c _ hc
  obtain ⟨s, hs, rfl⟩ := subcommand_of c
  have : s.2.2.name = name := by simpa using hc
  exact h s hs (by rw [← this, (subcommand_name s hs).1])

theorem flatMap_ends (f : Command → Str) (hf : ∀ c, ∃ t, f c = t ++ ['\n']) (l : List Command) (h : Str) :
    ∃ t, (h ++ ['\n']) ++ l.flatMap f = t ++ ['\n'] := by
  induction l using List.reverseRecOn with
  | nil => exact ⟨h, by simp⟩
  | append_singleton l c _ =>
    obtain ⟨t, ht⟩ := hf c
    exact ⟨h ++ ['\n'] ++ l.flatMap f ++ t, by rw [List.flatMap_append]; simp [ht]⟩

theorem command_mem (c : Command) : c ∈ commands := by cases c <;> decide

/-- C64: the list of commands names every sub-command and says what it does, each on a line of
its own. -/
theorem C64_usage : ∀ s ∈ subcommands, ∃ before pad after,
    usage = before ++ "\n    ".toList ++ s.1.toList ++ List.replicate pad ' ' ++ "    ".toList ++ s.2.1.toList ++ "\n".toList ++ after := by
  intro s hs
  obtain ⟨h1, h2⟩ := subcommand_name s hs
  obtain ⟨l1, l2, hl⟩ := List.append_of_mem (command_mem s.2.2)
  unfold usage
  generalize hf : (fun c : Command => "    ".toList ++ padRight maxNameLen c.name ++ "    ".toList ++ c.description ++ ['\n']) = f
  have hh : ∃ h : Str, ("The ofxgo command-line client provides a simple interface to\n" ++
   "query, parse, and display financial data via the OFX specification.\n\n" ++
   "Usage:\n\tofx command [arguments]\n\nThe commands are:\n").toList = h ++ ['\n'] := by
    rw [show "Usage:\n\tofx command [arguments]\n\nThe commands are:\n" = "Usage:\n\tofx command [arguments]\n\nThe commands are:" ++ "\n" by decide,
      ← String.append_assoc, String.toList_append, show "\n".toList = ['\n'] by decide]
    exact ⟨_, rfl⟩
  obtain ⟨h, hh⟩ := hh
  rw [hh]
  obtain ⟨t, ht⟩ := flatMap_ends f (fun c => by rw [← hf]; exact ⟨_, rfl⟩) l1 h
  refine ⟨t, maxNameLen - s.2.2.name.length, l2.flatMap f, ?_⟩
  have hc : f s.2.2 = "    ".toList ++ (s.1.toList ++ List.replicate (maxNameLen - s.2.2.name.length) ' ') ++ "    ".toList ++
      s.2.1.toList ++ ['\n'] := by
    rw [← hf, ← h1, ← h2]; rfl
  rw [hl, List.flatMap_append, List.flatMap_cons, ← List.append_assoc, ht, hc]
  have e1 : "\n    ".toList = ['\n'] ++ "    ".toList := by decide
  have e2 : "\n".toList = ['\n'] := by decide
  rw [e1, e2]
  generalize "    ".toList = sp
  simp only [List.append_assoc]

/-- C64: without one of the nine sub-commands nothing is sent or written; the list of commands is
printed, and the exit status is 0 if help was asked for and 1 otherwise. -/
theorem C64_no_command (w : World) (args : List Str) (h : ∀ s ∈ subcommands, args[1]? ≠ some s.1.toList) :
    Idle (mainProgram w args) ∧ (∃ message, (mainProgram w args).out = message ++ usage) ∧
    (mainProgram w args).fin = .exit (if ∃ word ∈ helpWords, args[1]? = some word.toList then 0 else 1) := by
  match args, h with
  | [], _ => exact ⟨⟨rfl, rfl⟩, ⟨_, rfl⟩, by rw [if_neg (by simp)]; rfl⟩
  | [_], _ => exact ⟨⟨rfl, rfl⟩, ⟨_, rfl⟩, by rw [if_neg (by simp)]; rfl⟩
  | p :: name :: rest, h =>
    have hn := not_command (name := name) (fun s hs h' => h s hs (by rw [h']; rfl))
    have hw : (∃ word ∈ helpWords, (p :: name :: rest)[1]? = some word.toList) ↔
        (name = "-h".toList ∨ name = "-help".toList ∨ name = "--help".toList ∨ name = "help".toList) := by
      simp [helpWords]
    have hm : mainProgram w (p :: name :: rest) =
        if name = "-h".toList ∨ name = "-help".toList ∨ name = "--help".toList ∨ name = "help".toList then
          ⟨usage, .exit 0, [], []⟩
        else ⟨"Error: Invalid sub-command. Usage:\n".toList ++ usage, .exit 1, [], []⟩ := by
      unfold mainProgram
      simp only [hn]
    rw [hm]
    by_cases hh : name = "-h".toList ∨ name = "-help".toList ∨ name = "--help".toList ∨ name = "help".toList
    · rw [if_pos hh, if_pos (hw.mpr hh)]
      exact ⟨⟨rfl, rfl⟩, ⟨[], (List.nil_append usage).symm⟩, rfl⟩
    · rw [if_neg hh, if_neg (fun h => hh (hw.mp h))]
      exact ⟨⟨rfl, rfl⟩, ⟨"Error: Invalid sub-command. Usage:\n".toList, rfl⟩, rfl⟩

theorem main_command (w : World) (p : Str) (c : Command) (args : List Str) :
    mainProgram w (p :: c.name :: args) = runArgs w c args := by
  unfold mainProgram
  simp only [find_command]

theorem honours_of {given : List (String × Value)} {f : Flags} (h : settings f = setAll given (settings defaultFlags)) :
    Honours given f := by
  intro d hd
  rw [h]
  have : settings defaultFlags = defaults := rfl
  rw [this]
  exact List.mem_map.mpr ⟨d, hd, rfl⟩

/-- C64, C65: after the name of a sub-command, flags spelled in any of the accepted ways take
effect, the last one counting if one is repeated, and that sub-command runs with them. -/
theorem C65_spelled (w : World) (prog : Str) (s : String × String × Command) (hs : s ∈ subcommands)
    (given : List (String × Value)) (args rest : List Str) (h : Spelled s.2.2 given args) (hr : LeftAlone rest) :
    ∃ f usage, Honours given f ∧ mainProgram w (prog :: s.1.toList :: (args ++ rest)) = runCmd w f usage s.2.2 := by
  rw [← (subcommand_name s hs).1, main_command]
  obtain ⟨f, h1, h2⟩ := parse_spelled h hr defaultFlags
  refine ⟨f, s.2.2.usage, honours_of h2, ?_⟩
  unfold runArgs
  rw [h1]

/-- C65 as far as it holds: for all arguments after the name of a sub-command, either flags are
spelled in the accepted ways, up to the end or a first argument that is not a flag, and the
sub-command runs with them; or nothing is sent or written, and the exit status is 2, or 0 if an
argument asks for help.  Missing: arguments after the first one that is not a flag are ignored
(`C65_ignored`). -/
theorem C65_arguments_partial (w : World) (prog : Str) (s : String × String × Command) (hs : s ∈ subcommands) (args : List Str) :
    (∃ given a rest f usage, args = a ++ rest ∧ Spelled s.2.2 given a ∧ LeftAlone rest ∧ Honours given f ∧
      mainProgram w (prog :: s.1.toList :: args) = runCmd w f usage s.2.2) ∨
    ((∀ given a rest, args = a ++ rest → Spelled s.2.2 given a → ¬ LeftAlone rest) ∧
      Idle (mainProgram w (prog :: s.1.toList :: args)) ∧
      ((mainProgram w (prog :: s.1.toList :: args)).fin = .exit 2 ∨
       (mainProgram w (prog :: s.1.toList :: args)).fin = .exit 0 ∧ ∃ arg ∈ args, HelpArg arg)) := by
  rw [← (subcommand_name s hs).1, main_command]
  rcases parse_cases s.2.2 args.length args (Nat.le_refl _) defaultFlags with
    ⟨given, a, rest, f, h1, h2, h3, h4, h5⟩ | h | ⟨h, h'⟩
  · left
    refine ⟨given, a, rest, f, s.2.2.usage, h1, h2, h3, honours_of h5, ?_⟩
    unfold runArgs
    rw [h4]
  · right
    refine ⟨?_, ?_⟩
    · intro given a rest h1 h2 h3
      obtain ⟨f, h4, -⟩ := parse_spelled h2 h3 defaultFlags
      rw [← h1, h] at h4
      cases h4
    · unfold runArgs
      rw [h]
      exact ⟨⟨rfl, rfl⟩, .inl rfl⟩
  · right
    refine ⟨?_, ?_⟩
    · intro given a rest h1 h2 h3
      obtain ⟨f, h4, -⟩ := parse_spelled h2 h3 defaultFlags
      rw [← h1, h] at h4
      cases h4
    · unfold runArgs
      rw [h]
      exact ⟨⟨rfl, rfl⟩, .inr ⟨rfl, h'⟩⟩

/-- C65: delays are decimal numbers below 2^64 (at least). -/
theorem C65_delay (n : Nat) : Means "delay" (natStr n) (.number n) ↔ n < 2 ^ 64 := by
  show (_ ∧ _) ↔ _
  rw [← parseUint_iff, parseUint_natStr]
  by_cases h : n < 2 ^ 64
  · rw [if_pos h]; exact ⟨fun _ => h, fun _ => ⟨rfl, rfl⟩⟩
  · rw [if_neg h]; exact ⟨fun h' => (by cases h'.2), fun h' => absurd h' h⟩

/-- Some delays: 1_000, octal 0750 and 0x_1F4; and words that are none. -/
example : Means "delay" "1_000".toList (.number 1000) ∧ Means "delay" "0750".toList (.number 488) ∧
    Means "delay" "0x_1F4".toList (.number 500) ∧ GoLiteral "0x_1F4".toList 500 ∧
    ∀ n, ¬ Means "delay" "09".toList (.number n) ∧ ¬ Means "delay" "1__0".toList (.number n) ∧ ¬ Means "delay" "-1".toList (.number n) := by
  have h : Means "delay" "0x_1F4".toList (.number 500) := ⟨rfl, (parseUint_iff _ _).mp (by decide +kernel)⟩
  refine ⟨⟨rfl, (parseUint_iff _ _).mp (by decide +kernel)⟩, ⟨rfl, (parseUint_iff _ _).mp (by decide +kernel)⟩, h, h.2.1, fun n => ⟨?_, ?_, ?_⟩⟩ <;>
    (rintro ⟨-, h⟩; rw [← parseUint_iff] at h; revert h; rw [show parseUint _ = none from by decide +kernel]; exact fun h => by cases h)

theorem honours_url {given : List (String × Value)} {f : Flags} (h : Honours given f) {url : Str}
    (hu : lastValue given "url" = some (.text url)) : f.serverURL = url := by
  have := h ("url", .text []) (by decide)
  rw [hu] at this
  simpa [settings, eq_comm] using this

theorem honours_dryrun {given : List (String × Value)} {f : Flags} (h : Honours given f) {b : Bool}
    (hu : lastValue given "dryrun" = some (.yes b)) : f.dryrun = b := by
  have := h ("dryrun", .yes false) (by decide)
  rw [hu] at this
  simpa [settings, eq_comm] using this

/-- C42 for command lines: if the URL given does not start with https://, nothing happens on the
network and no file is written. -/
theorem C42_command_line (w : World) (prog : Str) (s : String × String × Command) (hs : s ∈ subcommands)
    (given : List (String × Value)) (args rest : List Str) (h : Spelled s.2.2 given args) (hr : LeftAlone rest) (url : Str)
    (hu : lastValue given "url" = some (.text url)) (hn : ¬ "https://".toList <+: url) :
    NoNetwork (mainProgram w (prog :: s.1.toList :: (args ++ rest))).trace ∧
      (mainProgram w (prog :: s.1.toList :: (args ++ rest))).files = [] := by
  obtain ⟨f, usage, h1, h2⟩ := C65_spelled w prog s hs given args rest h hr
  rw [h2]
  exact C42_command w f usage s.2.2 (by rw [honours_url h1 hu]; exact hn)

theorem checkServerFlags_dryrun (w : World) (f : Flags) : (checkServerFlags w f).2.2.dryrun = f.dryrun := by
  unfold checkServerFlags
  simp only
  by_cases h : (!decide (blen f.serverURL = 0) && !decide (blen f.username = 0) && decide (blen f.password = 0)) = true
  · rw [if_pos h]; cases w.prompt <;> rfl
  · rw [if_neg h]

theorem downloadCheckFlags_dryrun (w : World) (f : Flags) : (downloadCheckFlags w f).2.2.dryrun = f.dryrun := by
  have h := checkServerFlags_dryrun w f
  unfold downloadCheckFlags
  revert h
  generalize checkServerFlags w f = x
  obtain ⟨out, ret, f'⟩ := x
  intro h
  simp only
  by_cases h' : blen f'.filename = 0
  · rw [if_pos h']; exact h
  · rw [if_neg h']; exact h

theorem checkFlags_dryrun (w : World) (f : Flags) (c : Command) : (c.checkFlags w f).2.2.dryrun = f.dryrun := by
  cases c
  case downloadProfile =>
    show (downloadCheckFlags w _).2.2.dryrun = _
    rw [downloadCheckFlags_dryrun]
    by_cases h : blen f.username = 0
    · rw [if_pos h]
    · rw [if_neg h]
  case downloadBank => exact downloadCheckFlags_dryrun w f
  case downloadCC => exact downloadCheckFlags_dryrun w f
  case downloadInv => exact downloadCheckFlags_dryrun w f
  all_goals exact checkServerFlags_dryrun w f

/-- C57 for command lines: with -dryrun among the flags (and not undone by -dryrun=false later),
nothing is sent and no file is written. -/
theorem C57_command_line (w : World) (prog : Str) (s : String × String × Command) (hs : s ∈ subcommands)
    (given : List (String × Value)) (args rest : List Str) (h : Spelled s.2.2 given args) (hr : LeftAlone rest)
    (hu : lastValue given "dryrun" = some (.yes true)) :
    Idle (mainProgram w (prog :: s.1.toList :: (args ++ rest))) := by
  obtain ⟨f, usage, h1, h2⟩ := C65_spelled w prog s hs given args rest h hr
  rw [h2]
  have hc : OneRequest s.2.2 := by
    intro hc
    have hmem : ∃ v, ("dryrun", v) ∈ given := by
      unfold lastValue at hu
      rw [Option.map_eq_some_iff] at hu
      obtain ⟨p, hp, -⟩ := hu
      have h3 := List.mem_of_find?_eq_some hp
      have h4 := List.find?_some hp
      have h4 : p.1 = "dryrun" := by simpa using h4
      exact ⟨p.2, by rw [← h4]; exact List.mem_reverse.mp h3⟩
    obtain ⟨v, hv⟩ := hmem
    have hall : ∀ {given args}, Spelled s.2.2 given args → ∀ p ∈ given, p.1 ∈ takes s.2.2 := by
      intro given args h
      induction h with
      | nil => intro p hp; cases hp
      | joined _ hn _ _ ih => intro p hp; rcases List.mem_cons.mp hp with rfl | hp; exacts [hn, ih p hp]
      | apart _ hn _ _ _ ih => intro p hp; rcases List.mem_cons.mp hp with rfl | hp; exacts [hn, ih p hp]
      | switch _ hn _ _ ih => intro p hp; rcases List.mem_cons.mp hp with rfl | hp; exacts [hn, ih p hp]
    have := hall h _ hv
    rw [hc] at this
    exact absurd this (show "dryrun" ∉ takes .detectSettings by decide)
  have hd := checkFlags_dryrun w f s.2.2
  unfold runCmd
  revert hd
  generalize s.2.2.checkFlags w f = x
  obtain ⟨out, ok, f'⟩ := x
  intro hd
  cases ok
  · exact ⟨rfl, rfl⟩
  · have := C57_dryrun_quiet w f' s.2.2 hc (by rw [show f'.dryrun = f.dryrun from hd]; exact honours_dryrun h1 hu)
    exact ⟨this.1, this.2.1⟩

/-- C65 fails: whatever follows the first argument that is not a flag is ignored. -/
theorem C65_ignored (w : World) (prog : Str) (s : String × String × Command) (hs : s ∈ subcommands)
    (given : List (String × Value)) (args : List Str) (h : Spelled s.2.2 given args) (stray : Str)
    (hr : stray.head? ≠ some '-') (more : List Str) :
    mainProgram w (prog :: s.1.toList :: (args ++ stray :: more)) = mainProgram w (prog :: s.1.toList :: args) := by
  rw [← (subcommand_name s hs).1, main_command, main_command]
  obtain ⟨f, h1, h2⟩ := parse_spelled h (rest := stray :: more) (.inl hr) defaultFlags
  obtain ⟨f', h1', h2'⟩ := parse_spelled h (rest := []) trivial defaultFlags
  rw [List.append_nil] at h1'
  unfold runArgs
  have : f = f' := by
    rw [← h2'] at h2
    obtain ⟨⟩ := f
    obtain ⟨⟩ := f'
    simp only [settings, List.cons.injEq, Prod.mk.injEq, Value.text.injEq, Value.yes.injEq, Value.number.injEq, true_and, and_true] at h2
    obtain ⟨rfl, rfl, rfl, rfl, rfl, rfl, rfl, rfl, rfl, rfl, rfl, rfl, rfl, rfl, rfl, rfl, rfl, rfl, rfl⟩ := h2
    rfl
  rw [h1, h1', this]

/-- A command line: everything a request for bank transactions needs. -/
def sampleArgs : List Str :=
  ["-url".toList, "https://ofx.example.com".toList, "--username=someone".toList, "-password".toList, "secret".toList,
   "-org".toList, "B1".toList, "-fid".toList, "10898".toList, "-bankid=1".toList, "--acctid".toList, "2".toList]

def sampleGiven : List (String × Value) :=
  [("url", .text "https://ofx.example.com".toList), ("username", .text "someone".toList), ("password", .text "secret".toList),
   ("org", .text "B1".toList), ("fid", .text "10898".toList), ("bankid", .text "1".toList), ("acctid", .text "2".toList)]

theorem sample_spelled : Spelled .transactionsBank sampleGiven sampleArgs := by
  have t : ∀ name word, name ∉ switches → name ≠ "delay" → Means name word (.text word) := fun _ _ h1 h2 => ⟨h1, h2, rfl⟩
  refine .apart (dash := "-") (.inl rfl) (by decide) (by decide) (t "url" _ (by decide) (by decide)) ?_
  refine .joined (dash := "--") (.inr rfl) (by decide) (t "username" _ (by decide) (by decide)) ?_
  refine .apart (dash := "-") (.inl rfl) (by decide) (by decide) (t "password" _ (by decide) (by decide)) ?_
  refine .apart (dash := "-") (.inl rfl) (by decide) (by decide) (t "org" _ (by decide) (by decide)) ?_
  refine .apart (dash := "-") (.inl rfl) (by decide) (by decide) (t "fid" _ (by decide) (by decide)) ?_
  refine .joined (dash := "-") (.inl rfl) (by decide) (t "bankid" _ (by decide) (by decide)) ?_
  refine .apart (dash := "--") (.inr rfl) (by decide) (by decide) (t "acctid" _ (by decide) (by decide)) ?_
  exact .nil

/-- The sample command line sets what it says; `-dryrun` and `-noindent=false` can be added. -/
example : Spelled .transactionsBank (("dryrun", .yes true) :: ("noindent", .yes false) :: sampleGiven)
    ("--dryrun".toList :: "-noindent=false".toList :: sampleArgs) :=
  .switch (dash := "--") (.inr rfl) (by decide) (by decide)
    (.joined (dash := "-") (name := "noindent") (word := "false".toList) (.inl rfl) (by decide) ⟨by decide, .inr ⟨rfl, by decide⟩⟩
      sample_spelled)

/-- Arguments that are not spelled flags: an unknown flag, a switch with a strange value, a flag
without a value. -/
example (w : World) (prog : Str) : ∀ args ∈ [["-verbose".toList], ["-dryrun=maybe".toList], ["-url".toList]],
    (mainProgram w (prog :: "get-accounts".toList :: args)).fin = .exit 2 := by
  have hp : ∀ args ∈ [["-verbose".toList], ["-dryrun=maybe".toList], ["-url".toList]],
      (match parseFlags (Command.flags .getAccounts) defaultFlags args with | .exit n => n | .ok _ => 0) = 2 := by
    decide +kernel
  intro args h
  rw [show "get-accounts".toList = Command.name .getAccounts from rfl, main_command]
  unfold runArgs
  have := hp args h
  revert this
  cases parseFlags (Command.flags .getAccounts) defaultFlags args with
  | exit n => intro (h : n = 2); rw [h]
  | ok f => intro (h : 0 = 2); cases h

deriving instance DecidableEq for Flags

theorem sample_checks (w : World) (filename brokerID : Str) :
    Command.checkFlags w { sampleFlags with filename := filename, brokerID := brokerID } .transactionsBank =
      ([], true, { sampleFlags with filename := filename, brokerID := brokerID }) := by
  have h1 : blen sampleFlags.serverURL ≠ 0 := by decide +kernel
  have h2 : blen sampleFlags.username ≠ 0 := by decide +kernel
  have h3 : blen sampleFlags.password ≠ 0 := by decide +kernel
  generalize sampleFlags = f at *
  unfold Command.checkFlags checkServerFlags
  simp [h1, h2, h3]

theorem run_ignores (w : World) (f : Flags) (filename brokerID : Str) :
    Command.run w { f with filename := filename, brokerID := brokerID } .transactionsBank = Command.run w f .transactionsBank := rfl

/-- C65 fails for a switch that matters: a request is sent although the command line says -dryrun,
because of a stray word before it. -/
theorem C65_dryrun_ignored (now : GoTime) (prog : Str) : ∃ w : World, w.net.now = now ∧
    posts (mainProgram w (prog :: "transactions-bank".toList :: (sampleArgs ++ ["please".toList, "-dryrun".toList]))).trace ≠ [] := by
  refine ⟨answering now [], rfl, ?_⟩
  have hs : ("transactions-bank", "Print bank transactions and balance", Command.transactionsBank) ∈ subcommands := by decide
  rw [C65_ignored (answering now []) prog ("transactions-bank", "Print bank transactions and balance", Command.transactionsBank) hs
    sampleGiven sampleArgs sample_spelled "please".toList (by decide) ["-dryrun".toList]]
  have hrun : parseFlags (Command.flags .transactionsBank) defaultFlags sampleArgs =
      .ok { sampleFlags with filename := "./response.ofx".toList, brokerID := [] } := by
    have h : (match parseFlags (Command.flags .transactionsBank) defaultFlags sampleArgs with
      | .ok f => decide (f = { sampleFlags with filename := "./response.ofx".toList, brokerID := [] })
      | .exit _ => false) = true := by decide +kernel
    revert h
    cases parseFlags (Command.flags .transactionsBank) defaultFlags sampleArgs with
    | ok f => intro h; rw [of_decide_eq_true h]
    | exit n => intro (h : false = true); cases h
  rw [show "transactions-bank".toList = Command.name .transactionsBank from rfl, main_command]
  unfold runArgs
  rw [hrun]
  have hc : Command.checkFlags (answering now []) { sampleFlags with filename := "./response.ofx".toList, brokerID := [] } .transactionsBank =
      ([], true, { sampleFlags with filename := "./response.ofx".toList, brokerID := [] }) := by
    exact sample_checks _ _ _
  unfold runCmd
  simp only [hc]
  rw [run_ignores]
  exact sample_posts .transactionsBank (.inr (.inl rfl)) now []

/-- C64: the sub-command named by the first argument is the one that runs, with whatever flags
the other arguments give; if they are not flags, nothing is sent or written. -/
theorem C64_named (w : World) (prog : Str) (s : String × String × Command) (hs : s ∈ subcommands) (args : List Str) :
    (∃ f usage, mainProgram w (prog :: s.1.toList :: args) = runCmd w f usage s.2.2) ∨
    Idle (mainProgram w (prog :: s.1.toList :: args)) := by
  rcases C65_arguments_partial w prog s hs args with ⟨_, _, _, f, u, _, _, _, _, h⟩ | ⟨_, h, _⟩
  · exact .inl ⟨f, u, h⟩
  · exact .inr h

/-- Without further arguments the sub-command runs (and asks for what it needs). -/
example (w : World) (prog : Str) : ∃ f usage,
    mainProgram w [prog, "download-cc".toList] = runCmd w f usage .downloadCC := by
  obtain ⟨f, u, _, h⟩ := C65_spelled w prog ("download-cc", "Download a credit card account statement to a file", .downloadCC)
    (by decide) [] [] [] .nil trivial
  exact ⟨f, u, h⟩

end Ofx.Props
