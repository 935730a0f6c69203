import Verif.Spec.Cli
import Verif.Spec.Answered
import Verif.Spec.Valid
/-
When the commands of the command-line client work.
-/
namespace Ofx.Spec
open Ofx

/-- The flags are ones a request can be sent for: the server's URL is an https one, the version
one that exists, the login and the names of the program have sizes the protocol allows (nothing
stands for the default name of the program), and for bank accounts the bank, the account and a
kind of account are named. -/
structure Usable (c : Command) (f : Flags) : Prop where
  https : "https://".toList <+: f.serverURL
  version : ∃ name ∈ ["102", "103", "151", "160", "200", "201", "202", "203", "210", "211", "220"],
    TrimsTo f.ofxVersion name.toList
  username : 1 ≤ bytes f.username ∧ bytes f.username ≤ 32
  password : 1 ≤ bytes f.password ∧ bytes f.password ≤ 32
  appID : bytes f.appID ≤ 5
  appVer : bytes f.appVer ≤ 4
  bank : c = .downloadBank ∨ c = .transactionsBank → f.bankID ≠ [] ∧ f.acctID ≠ [] ∧
    ∃ kind ∈ ["CHECKING", "SAVINGS", "MONEYMRKT", "CREDITLINE", "CD"], TrimsTo f.acctType kind.toList

/-- Sixteen random bytes are to be had. -/
def HasEntropy (w : World) : Prop := ∃ bs, w.entropy [] = .read bs ∧ bs.length = 16

/-- The server answers what the command asks for with `raw`: status 200, and, at
Vanguard's URL, not the answer without content but with cookies that makes the client ask again. -/
structure Answers (w : World) (c : Command) (f : Flags) (raw : RawResponse) : Prop where
  serves : ∀ d, AsksDocument w c f d → Serves w.net f.serverURL d.bytes raw
  ok : raw.status = 200
  once : (¬ ∃ a b, f.serverURL = List.replicate a '/' ++
      "https://vesnc.vanguard.com/us/OfxDirectConnectServlet".toList ++ List.replicate b '/') ∨
    0 < raw.contentLength ∨ raw.cookies = []

end Ofx.Spec
