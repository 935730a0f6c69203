import Verif.Model.Cli
/-
The command line: package flag's parsing of arguments (Go's flag.go, behaviour assumed) with the
flags of each command, and `main`.  Arguments are texts.  What goes to standard error (messages
of package flag and the list of flags, PrintDefaults) is not modelled.
-/
namespace Ofx

/-- A flag: the variable it sets, by the kind of its value. StringVar, BoolVar and Uint64Var in
command.go 30-44 and the init functions of cmd/ofx. -/
inductive FlagVar where
  | text (set : Str → Flags → Flags)
  | yes (set : Bool → Flags → Flags)
  | number (set : Nat → Flags → Flags)

/-- command.go 30-44 `defineServerFlags`. -/
def serverFlags : List (Str × FlagVar) :=
  [("url".toList, .text fun v f => { f with serverURL := v }),
   ("username".toList, .text fun v f => { f with username := v }),
   ("password".toList, .text fun v f => { f with password := v }),
   ("org".toList, .text fun v f => { f with org := v }),
   ("fid".toList, .text fun v f => { f with fid := v }),
   ("appid".toList, .text fun v f => { f with appID := v }),
   ("appver".toList, .text fun v f => { f with appVer := v }),
   ("ofxversion".toList, .text fun v f => { f with ofxVersion := v }),
   ("clientuid".toList, .text fun v f => { f with clientUID := v }),
   ("noindent".toList, .yes fun v f => { f with noIndentRequests := v }),
   ("carriagereturn".toList, .yes fun v f => { f with carriageReturn := v }),
   ("useragent".toList, .text fun v f => { f with userAgent := v }),
   ("dryrun".toList, .yes fun v f => { f with dryrun := v })]

/-- bankdownload.go 23, ccdownload.go 21, invdownload.go 23, profiledownload.go 21. -/
def filenameFlag : Str × FlagVar := ("filename".toList, .text fun v f => { f with filename := v })

/-- bankdownload.go 24, banktransactions.go 20. -/
def bankidFlag : Str × FlagVar := ("bankid".toList, .text fun v f => { f with bankID := v })

/-- bankdownload.go 25, banktransactions.go 21, ccdownload.go 22, cctransactions.go 20,
invdownload.go 24, invtransactions.go 20. -/
def acctidFlag : Str × FlagVar := ("acctid".toList, .text fun v f => { f with acctID := v })

/-- bankdownload.go 26, banktransactions.go 22. -/
def accttypeFlag : Str × FlagVar := ("accttype".toList, .text fun v f => { f with acctType := v })

/-- invdownload.go 25, invtransactions.go 21. -/
def brokeridFlag : Str × FlagVar := ("brokerid".toList, .text fun v f => { f with brokerID := v })

/-- The flags of the commands: the init functions of bankdownload.go 21-27, banktransactions.go
18-23, ccdownload.go 19-23, cctransactions.go 18-21, detect_settings.go 21-28, get_accounts.go
19-21, invdownload.go 21-26, invtransactions.go 18-22 and profiledownload.go 19-22. -/
def Command.flags : Command → List (Str × FlagVar)
  | .downloadProfile => serverFlags ++ [filenameFlag]
  | .getAccounts => serverFlags
  | .downloadBank => serverFlags ++ [filenameFlag, bankidFlag, acctidFlag, accttypeFlag]
  | .downloadCC => serverFlags ++ [filenameFlag, acctidFlag]
  | .downloadInv => serverFlags ++ [filenameFlag, acctidFlag, brokeridFlag]
  | .transactionsBank => serverFlags ++ [bankidFlag, acctidFlag, accttypeFlag]
  | .transactionsCC => serverFlags ++ [acctidFlag]
  | .transactionsInv => serverFlags ++ [acctidFlag, brokeridFlag]
  | .detectSettings =>
    [("url".toList, .text fun v f => { f with serverURL := v }),
     ("username".toList, .text fun v f => { f with username := v }),
     ("password".toList, .text fun v f => { f with password := v }),
     ("org".toList, .text fun v f => { f with org := v }),
     ("fid".toList, .text fun v f => { f with fid := v }),
     ("delay".toList, .number fun v f => { f with delay := v })]

/-- The values of the variables after all init functions: every init function that defines a
flag gives its variable the same default. command.go 31-43, bankdownload.go 23-26,
detect_settings.go 27, invdownload.go 25. -/
def defaultFlags : Flags :=
  { serverURL := [], username := [], password := [], org := [], fid := [], appID := "QWIN".toList,
    appVer := "2400".toList, ofxVersion := "203".toList, clientUID := [], noIndentRequests := false,
    carriageReturn := false, dryrun := false, userAgent := [], filename := "./response.ofx".toList, bankID := [],
    acctID := [], acctType := "CHECKING".toList, brokerID := [], delay := 500 }

/-- strconv.ParseBool. cmd/ofx/command.go 40, 41, 43. -/
def parseBool (s : Str) : Option Bool :=
  if ["1", "t", "T", "true", "TRUE", "True"].any (·.toList == s) then some true
  else if ["0", "f", "F", "false", "FALSE", "False"].any (·.toList == s) then some false
  else none

/-- strconv `lower`. cmd/ofx/detect_settings.go 27. -/
def lowerC (c : Char) : Char := if 'A' ≤ c ∧ c ≤ 'Z' then Char.ofNat (c.toNat + 32) else c

/-- The value of a digit in strconv.ParseUint. cmd/ofx/detect_settings.go 27. -/
def digitOf (c : Char) : Option Nat :=
  if '0' ≤ c ∧ c ≤ '9' then some (c.toNat - '0'.toNat)
  else if 'a' ≤ lowerC c ∧ lowerC c ≤ 'z' then some ((lowerC c).toNat - 'a'.toNat + 10)
  else none

/-- The loop of strconv.ParseUint; `none` for a syntax error or a value of 2^64 or more.
cmd/ofx/detect_settings.go 27. -/
def parseDigits (base : Nat) : Nat → Str → Option Nat
  | n, [] => some n
  | n, c :: cs =>
    if c = '_' then parseDigits base n cs
    else
      match digitOf c with
      | none => none
      | some d =>
        if d ≥ base then none
        else if n * base + d ≥ 2 ^ 64 then none
        else parseDigits base (n * base + d) cs

/-- What strconv's `underscoreOK` saw last. cmd/ofx/detect_settings.go 27. -/
inductive Seen where
  | start | digit | underscore | other
deriving DecidableEq

/-- The loop of strconv's `underscoreOK`. cmd/ofx/detect_settings.go 27. -/
def underscoreLoop (hex : Bool) : Seen → Str → Bool
  | i, [] => i != .underscore
  | i, c :: cs =>
    if ('0' ≤ c ∧ c ≤ '9') ∨ (hex = true ∧ 'a' ≤ lowerC c ∧ lowerC c ≤ 'f') then underscoreLoop hex .digit cs
    else if c = '_' then (if i = .digit then underscoreLoop hex .underscore cs else false)
    else if i = .underscore then false
    else underscoreLoop hex .other cs

/-- The base strconv.ParseUint(s, 0, 64) uses for a text and the digits. cmd/ofx/detect_settings.go 27. -/
def baseOf : Str → Nat × Str
  | '0' :: x :: y :: r =>
    if lowerC x = 'b' then (2, y :: r) else if lowerC x = 'o' then (8, y :: r) else if lowerC x = 'x' then (16, y :: r)
    else (8, x :: y :: r)
  | '0' :: r => (8, r)
  | s => (10, s)

/-- strconv's `underscoreOK`, for texts whose other characters are digits. cmd/ofx/detect_settings.go 27. -/
def underscoreOK : Str → Bool
  | '0' :: x :: r =>
    if lowerC x = 'b' ∨ lowerC x = 'o' ∨ lowerC x = 'x' then underscoreLoop (lowerC x = 'x') .digit r
    else underscoreLoop false .start ('0' :: x :: r)
  | s => underscoreLoop false .start s

/-- strconv.ParseUint(s, 0, 64), as flag's uint64Value.Set uses it. cmd/ofx/detect_settings.go 27. -/
def parseUint (s : Str) : Option Nat :=
  if s = [] then none
  else
    match parseDigits (baseOf s).1 0 (baseOf s).2 with
    | none => none
    | some n => if s.contains '_' && !underscoreOK s then none else some n

/-- How parsing flags ends: with the flags, or with os.Exit (flag.ExitOnError: 0 for -h and -help,
otherwise 2). cmd/ofx/main.go 44. -/
inductive Parsed where
  | ok (f : Flags)
  | exit (code : Nat)

/-- The part of a flag before the first '=' that is not its first character, and the value after
it. cmd/ofx/main.go 44. -/
def splitFlag : Str → Str × Option Str
  | [] => ([], none)
  | c :: cs => if '=' ∈ cs then (c :: cs.takeWhile (· ≠ '='), some ((cs.dropWhile (· ≠ '=')).tail)) else (c :: cs, none)

/-- flag's `FlagSet.formal` lookup. cmd/ofx/main.go 44. -/
def findFlag (defs : List (Str × FlagVar)) (name : Str) : Option FlagVar :=
  (defs.find? (·.1 == name)).map (·.2)

/-- The name and value of an argument that is a flag: without the leading dashes. `none`: it is
not a flag, and parsing ends. cmd/ofx/main.go 44. -/
def flagBody : Str → Option Str
  | ['-'] => none
  | ['-', '-'] => none
  | '-' :: '-' :: s => some s
  | '-' :: s => some s
  | _ => none

/-- flag's `FlagSet.Parse`, `parseOne`. cmd/ofx/main.go 44. -/
def parseFlags (defs : List (Str × FlagVar)) (f : Flags) : List Str → Parsed
  | [] => .ok f
  | arg :: rest =>
    match flagBody arg with
    | none => .ok f
    | some body =>
      if body.head? = some '-' ∨ body.head? = some '=' then .exit 2
      else
        match findFlag defs (splitFlag body).1 with
        | none =>
          if (splitFlag body).1 = "help".toList ∨ (splitFlag body).1 = "h".toList then .exit 0 else .exit 2
        | some (.yes set) =>
          match (splitFlag body).2 with
          | none => parseFlags defs (set true f) rest
          | some v =>
            match parseBool v with
            | none => .exit 2
            | some b => parseFlags defs (set b f) rest
        | some (.text set) =>
          match (splitFlag body).2, rest with
          | some v, rest => parseFlags defs (set v f) rest
          | none, v :: rest => parseFlags defs (set v f) rest
          | none, [] => .exit 2
        | some (.number set) =>
          match (splitFlag body).2, rest with
          | some v, rest =>
            match parseUint v with
            | none => .exit 2
            | some n => parseFlags defs (set n f) rest
          | none, v :: rest =>
            match parseUint v with
            | none => .exit 2
            | some n => parseFlags defs (set n f) rest
          | none, [] => .exit 2

/-- main.go 9-19 `commands`. -/
def commands : List Command :=
  [.downloadProfile, .getAccounts, .downloadBank, .downloadCC, .downloadInv, .transactionsBank, .transactionsCC,
   .transactionsInv, .detectSettings]

/-- The fields `Description` of the commands. profiledownload.go 13, get_accounts.go 13,
bankdownload.go 13, ccdownload.go 13, invdownload.go 13, banktransactions.go 12,
cctransactions.go 12, invtransactions.go 12, detect_settings.go 13. -/
def Command.description : Command → Str
  | .downloadProfile => "Download a FI profile to a file".toList
  | .getAccounts => "List accounts at your financial institution".toList
  | .downloadBank => "Download a bank account statement to a file".toList
  | .downloadCC => "Download a credit card account statement to a file".toList
  | .downloadInv => "Download a investment account statement to a file".toList
  | .transactionsBank => "Print bank transactions and balance".toList
  | .transactionsCC => "Print credit card transactions and balance".toList
  | .transactionsInv => "Print investment transactions".toList
  | .detectSettings => "Attempt to guess client settings needed for a particular financial institution".toList

/-- main.go 30-35: the length of the longest name. -/
def maxNameLen : Nat := commands.foldl (fun m c => if c.name.length > m then c.name.length else m) 0

/-- main.go 21-41 `usage`. -/
def usage : Str :=
  ("The ofxgo command-line client provides a simple interface to\n" ++
   "query, parse, and display financial data via the OFX specification.\n\n" ++
   "Usage:\n\tofx command [arguments]\n\nThe commands are:\n").toList ++
  commands.flatMap fun c => "    ".toList ++ padRight maxNameLen c.name ++ "    ".toList ++ c.description ++ ['\n']

/-- command.go 19-22 `usage`: what goes to standard output. -/
def Command.usage (c : Command) : Str := "Usage of ".toList ++ c.name ++ ":\n".toList

/-- main.go 43-58 `runCmd`, and 70.  As the flag sets exit on errors, lines 45-49 are not
reached. -/
def runArgs (w : World) (c : Command) (args : List Str) : Ran :=
  match parseFlags c.flags defaultFlags args with
  | .exit n => ⟨[], .exit n, [], []⟩
  | .ok f => runCmd w f c.usage c

/-- main.go 60-82 `main`; `args` is os.Args. -/
def mainProgram (w : World) (args : List Str) : Ran :=
  match args with
  | _ :: name :: rest =>
    match commands.find? (·.name == name) with
    | some c => runArgs w c rest
    | none =>
      if name = "-h".toList ∨ name = "-help".toList ∨ name = "--help".toList ∨ name = "help".toList then
        ⟨usage, .exit 0, [], []⟩
      else ⟨"Error: Invalid sub-command. Usage:\n".toList ++ usage, .exit 1, [], []⟩
  | _ => ⟨"Error: Please supply a sub-command. Usage:\n\n".toList ++ usage, .exit 1, [], []⟩

end Ofx
