import Verif.Spec.Cli
/-
Specification for C62 on detect-settings: the documents it sends for a combination of settings.
-/
namespace Ofx.Spec
open Ofx

/-- A document asks for the profile with the settings of a combination and the given login: it is
of the version of the combination, laid out as the combination says, carries the program's name
and version, and holds one message. -/
def DetectDocument (w : World) (f : Flags) (s : Setting) (uid login pass : Str) (d : Doc) : Prop :=
  writeHeader (versionNumber s.version) false = some d.header ∧
  d.indent = !s.noIndent ∧ d.carriageReturn = false ∧ d.openLeaves = decide (versionNumber s.version < 5) ∧
  ∃ epoch : GoTime, epoch.ns = 62135596800 * 1000000000 ∧
  d.body = .elem "OFX".toList [
    .elem "SIGNONMSGSRQV1".toList
      [signonOf w.net.now { f with username := login, password := pass, appID := s.appID, appVer := s.appVer }],
    .elem "PROFMSGSRQV1".toList [.elem "PROFTRNRQ".toList [textNode "TRNUID".toList uid,
      .elem "PROFRQ".toList [textNode "CLIENTROUTING".toList "NONE".toList,
        textNode "DTPROFUP".toList (Date.marshal epoch)]]]]

/-- Everything posted is such a document, and everything written to a connection is such a
document after some header lines, as far as it got. -/
def SendsOnly (P : Doc → Prop) (tr : Trace) : Prop :=
  (∀ q ∈ posts tr, ∃ d, q.body = d.bytes ∧ P d) ∧
  ∀ b ∈ written tr, ∃ d path host, P d ∧ b <+: toBytes (discoverHeaders path host d.bytes.length) ++ d.bytes

/-- The pauses in what happened, in nanoseconds. -/
def pauses (tr : Trace) : List Int := tr.filterMap fun e => match e with | .paused n => some n | _ => none

/-- What trying a combination sends: the request with the user's login, then possibly the same
request with the anonymous login, without a pause. -/
def Attempted (w : World) (f : Flags) (s : Setting) (tr : Trace) : Prop :=
  ∃ uid before own anon, randomUID (w.entropy before) = .ok uid ∧ tr = own ++ anon ∧ pauses tr = [] ∧
    SendsOnly (DetectDocument w f s uid f.username f.password) own ∧
    SendsOnly (DetectDocument w f s uid "anonymous00000000000000000000000".toList "anonymous00000000000000000000000".toList) anon

/-- A history is made of parts with the same event after each, except possibly after the last. -/
def Spaced (pause : Event) (parts : List Trace) (tr : Trace) : Prop :=
  tr = (parts.map (· ++ [pause])).flatten ∨
  ∃ before last, parts = before ++ [last] ∧ tr = (before.map (· ++ [pause])).flatten ++ last

end Ofx.Spec
