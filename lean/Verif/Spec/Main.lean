import Verif.Model.Main
import Verif.Spec.Cli
import Verif.Spec.Number
/-
What is said about the command line: sub-commands, their flags and how flags are spelled.
-/
namespace Ofx.Spec
open Ofx

/-- The sub-commands, with what the list of commands says about them. -/
def subcommands : List (String × String × Command) :=
  [("download-profile", "Download a FI profile to a file", .downloadProfile),
   ("get-accounts", "List accounts at your financial institution", .getAccounts),
   ("download-bank", "Download a bank account statement to a file", .downloadBank),
   ("download-cc", "Download a credit card account statement to a file", .downloadCC),
   ("download-inv", "Download a investment account statement to a file", .downloadInv),
   ("transactions-bank", "Print bank transactions and balance", .transactionsBank),
   ("transactions-cc", "Print credit card transactions and balance", .transactionsCC),
   ("transactions-inv", "Print investment transactions", .transactionsInv),
   ("detect-settings", "Attempt to guess client settings needed for a particular financial institution", .detectSettings)]

/-- The ways to ask for help instead of a sub-command. -/
def helpWords : List String := ["-h", "-help", "--help", "help"]

/-- The value of a flag. -/
inductive Value where
  | text (s : Str)
  | yes (b : Bool)
  | number (n : Nat)
deriving DecidableEq

/-- The settings of a run, by the names of their flags. -/
def settings (f : Flags) : List (String × Value) :=
  [("url", .text f.serverURL), ("username", .text f.username), ("password", .text f.password), ("org", .text f.org),
   ("fid", .text f.fid), ("appid", .text f.appID), ("appver", .text f.appVer), ("ofxversion", .text f.ofxVersion),
   ("clientuid", .text f.clientUID), ("noindent", .yes f.noIndentRequests), ("carriagereturn", .yes f.carriageReturn),
   ("useragent", .text f.userAgent), ("dryrun", .yes f.dryrun), ("filename", .text f.filename), ("bankid", .text f.bankID),
   ("acctid", .text f.acctID), ("accttype", .text f.acctType), ("brokerid", .text f.brokerID), ("delay", .number f.delay)]

/-- The settings of a run without flags. -/
def defaults : List (String × Value) :=
  [("url", .text []), ("username", .text []), ("password", .text []), ("org", .text []), ("fid", .text []),
   ("appid", .text "QWIN".toList), ("appver", .text "2400".toList), ("ofxversion", .text "203".toList),
   ("clientuid", .text []), ("noindent", .yes false), ("carriagereturn", .yes false), ("useragent", .text []),
   ("dryrun", .yes false), ("filename", .text "./response.ofx".toList), ("bankid", .text []), ("acctid", .text []),
   ("accttype", .text "CHECKING".toList), ("brokerid", .text []), ("delay", .number 500)]

/-- The flags that are switches. -/
def switches : List String := ["noindent", "carriagereturn", "dryrun"]

/-- The flags about the server and how to talk to it. -/
def serverNames : List String :=
  ["url", "username", "password", "org", "fid", "appid", "appver", "ofxversion", "clientuid", "useragent",
   "noindent", "carriagereturn", "dryrun"]

/-- The flags of the sub-commands. -/
def takes : Command → List String
  | .downloadProfile => "filename" :: serverNames
  | .getAccounts => serverNames
  | .downloadBank => ["filename", "bankid", "acctid", "accttype"] ++ serverNames
  | .downloadCC => ["filename", "acctid"] ++ serverNames
  | .downloadInv => ["filename", "acctid", "brokerid"] ++ serverNames
  | .transactionsBank => ["bankid", "acctid", "accttype"] ++ serverNames
  | .transactionsCC => "acctid" :: serverNames
  | .transactionsInv => ["acctid", "brokerid"] ++ serverNames
  | .detectSettings => ["url", "username", "password", "org", "fid", "delay"]

/-- What a word after a flag means: yes or no for switches, a number (an integer literal of Go,
below 2^64) for delays, and itself for all others. -/
def Means (name : String) (word : Str) : Value → Prop
  | .yes b => name ∈ switches ∧
      ((b = true ∧ word ∈ ["1", "t", "T", "true", "TRUE", "True"].map String.toList) ∨
       (b = false ∧ word ∈ ["0", "f", "F", "false", "FALSE", "False"].map String.toList))
  | .number n => name = "delay" ∧ GoLiteral word n ∧ n < 2 ^ 64
  | .text s => name ∉ switches ∧ name ≠ "delay" ∧ s = word

/-- Arguments that give flags of a sub-command values: `-name=value`, `-name value` (not for
switches) and `-name` (only for switches), with one dash or two. -/
inductive Spelled (c : Command) : List (String × Value) → List Str → Prop where
  | nil : Spelled c [] []
  | joined {dash : String} {name : String} {word : Str} {v : Value} {given args} :
      dash = "-" ∨ dash = "--" → name ∈ takes c → Means name word v → Spelled c given args →
      Spelled c ((name, v) :: given) ((dash.toList ++ name.toList ++ "=".toList ++ word) :: args)
  | apart {dash : String} {name : String} {word : Str} {v : Value} {given args} :
      dash = "-" ∨ dash = "--" → name ∈ takes c → name ∉ switches → Means name word v → Spelled c given args →
      Spelled c ((name, v) :: given) ((dash.toList ++ name.toList) :: word :: args)
  | switch {dash : String} {name : String} {given args} :
      dash = "-" ∨ dash = "--" → name ∈ takes c → name ∈ switches → Spelled c given args →
      Spelled c ((name, .yes true) :: given) ((dash.toList ++ name.toList) :: args)

/-- The last value given for a flag. -/
def lastValue (given : List (String × Value)) (name : String) : Option Value :=
  (given.reverse.find? (·.1 = name)).map (·.2)

/-- The settings are those given, and otherwise the defaults. -/
def Honours (given : List (String × Value)) (f : Flags) : Prop :=
  ∀ d ∈ defaults, (d.1, (lastValue given d.1).getD d.2) ∈ settings f

/-- Arguments that are left alone: none at all, or some that start with one that is not a flag
(empty, "-", "--" or anything that does not start with a dash). -/
def LeftAlone : List Str → Prop
  | [] => True
  | arg :: _ => arg.head? ≠ some '-' ∨ arg = "-".toList ∨ arg = "--".toList

/-- An argument asking for help. -/
def HelpArg (arg : Str) : Prop := ∃ dash word : String, (dash = "-" ∨ dash = "--") ∧ (word = "h" ∨ word = "help") ∧
  (arg = dash.toList ++ word.toList ∨ dash.toList ++ word.toList ++ "=".toList <+: arg)

/-- Nothing was sent and no file written. -/
def Idle (r : Ran) : Prop := r.trace = [] ∧ r.files = []

end Ofx.Spec
