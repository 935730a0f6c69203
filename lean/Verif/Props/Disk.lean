import Verif.Model.Disk
import Verif.Props.CliCrash
import Verif.Props.Truncate
/-
C85: what downloads do to files.
-/
namespace Ofx.Props
open Ofx Spec

theorem append_ops (name : Str) (pieces : List (List UInt8)) (d : Disk) (b : List UInt8) (h : d name = some b) :
    (∀ n, n ≠ name → (pieces.map (FileOp.append name)).foldl FileOp.on d n = d n) ∧
    (pieces.map (FileOp.append name)).foldl FileOp.on d name = some (b ++ pieces.flatten) := by
  induction pieces generalizing d b with
  | nil => exact ⟨fun _ _ => rfl, by rw [List.flatten_nil, List.append_nil]; exact h⟩
  | cons p ps ih =>
    rw [List.map_cons, List.foldl_cons]
    have h' : FileOp.on d (.append name p) name = some (b ++ p) := by
      show (if name = name then (d name).map (· ++ p) else d name) = _
      rw [if_pos rfl, h]; rfl
    obtain ⟨h1, h2⟩ := ih _ _ h'
    refine ⟨fun n hn => ?_, ?_⟩
    · rw [h1 n hn]
      show (if n = name then _ else d n) = _
      rw [if_neg hn]
    · rw [h2, List.flatten_cons, List.append_assoc]

/-- The disk after some of the operations on one file. -/
theorem one_file (cut : List UInt8 → List (List UInt8)) (r : Ran) (name : Str) (b : List UInt8) (hf : r.files = [(name, b)])
    (d : Disk) (k : Nat) :
    (∀ n, n ≠ name → diskAfter cut r d k n = d n) ∧
    diskAfter cut r d k name = if k = 0 then d name else some ((cut b).take (k - 1)).flatten := by
  unfold diskAfter fileOps
  rw [hf, List.flatMap_cons, List.flatMap_nil, List.append_nil]
  cases k with
  | zero => exact ⟨fun _ _ => rfl, rfl⟩
  | succ k =>
    rw [List.take_succ_cons, List.foldl_cons, ← List.map_take]
    have h0 : FileOp.on d (.create name) name = some [] := by
      show (if name = name then some [] else d name) = _
      rw [if_pos rfl]
    obtain ⟨h1, h2⟩ := append_ops name ((cut b).take k) _ _ h0
    refine ⟨fun n hn => ?_, ?_⟩
    · rw [h1 n hn]
      show (if n = name then some [] else d n) = _
      rw [if_neg hn]
    · rw [h2, if_neg (Nat.succ_ne_zero k)]; rfl

theorem no_file (cut : List UInt8 → List (List UInt8)) (r : Ran) (hf : r.files = []) (d : Disk) (k : Nat) : diskAfter cut r d k = d := by
  unfold diskAfter fileOps
  rw [hf, List.flatMap_nil, List.take_nil]; rfl

theorem detect_files (w : World) (f : Flags) : (detectSettings w f).files = [] := by
  rw [detect_eq]
  rcases detect_loop w f combinations [] ⟨0, [], []⟩ (fun s h => h) .none rfl rfl with
    ⟨d', h1, h2, h3⟩ | ⟨a, s, b, r, tr, h1, h2, h3, h4, h5⟩
  · rw [h1]
  · rw [h1]; exact h4

/-- C85, as far as it holds: whenever a command is interrupted, and also if it is not, files other
than the one a download is to be saved to are as they were.  That file is as it was, or else the
server has answered with status 200 and the file has the beginning of the answer.
Missing: that the file is as it was unless the download succeeds (false: `C85_lost`). -/
theorem C85_interrupted_partial (w : World) (f : Flags) (c : Command) (cut : List UInt8 → List (List UInt8))
    (hcut : ∀ b, (cut b).flatten = b) (d : Disk) (k : Nat) :
    (∀ n, n ≠ f.filename → diskAfter cut (c.run w f) d k n = d n) ∧
    (diskAfter cut (c.run w f) d k f.filename = d f.filename ∨
      Saves c ∧ f.dryrun = false ∧ ∃ resp b, lastResponse (c.run w f).trace = some resp ∧ resp.status = 200 ∧ b <+: resp.body ∧
        diskAfter cut (c.run w f) d k f.filename = some b) := by
  by_cases hs : Saves c
  · rcases (C58_failed w f c hs).2 with h | ⟨resp, b, h1, h2, h3, h4, -⟩
    · rw [no_file cut _ h]; exact ⟨fun _ _ => rfl, .inl rfl⟩
    · obtain ⟨g1, g2⟩ := one_file cut _ _ _ h3 d k
      refine ⟨g1, ?_⟩
      by_cases hk : k = 0
      · rw [if_pos hk] at g2; exact .inl g2
      · rw [if_neg hk] at g2
        refine .inr ⟨hs, ?_, resp, _, h1, h2, ?_, g2⟩
        · by_contra hd
          have hd : f.dryrun = true := by simpa using hd
          obtain ⟨onError, he⟩ := run_saves hs w f
          rw [he] at h3
          rcases save_cases w f (c.query w f) onError with ⟨e, -, h1⟩ | ⟨cl, r, hq, ⟨hn, h1⟩ | ⟨hn, -⟩⟩
          · rw [h1] at h3; cases h3
          · rw [h1] at h3; cases h3
          · rw [hd] at hn; cases hn
        · refine List.IsPrefix.trans ?_ h4
          have := congrArg List.flatten (List.take_append_drop (k - 1) (cut b))
          rw [List.flatten_append, hcut] at this
          exact ⟨_, this⟩
  · have hf : (c.run w f).files = [] := by
      by_cases hc : OneRequest c
      · rcases saves_or_shows hc with h | h
        · exact absurd h hs
        · exact (C59_otherwise w f c h).2
      · have : c = .detectSettings := by unfold OneRequest at hc; simpa using hc
        subst this
        exact detect_files w f
    rw [no_file cut _ hf]; exact ⟨fun _ _ => rfl, .inl rfl⟩

/-- C85: if the server does not answer with status 200, all files stay as they were. -/
theorem C85_no_answer (w : World) (f : Flags) (c : Command) (cut : List UInt8 → List (List UInt8))
    (hcut : ∀ b, (cut b).flatten = b) (d : Disk) (k : Nat)
    (h : ∀ resp, lastResponse (c.run w f).trace = some resp → resp.status ≠ 200) : diskAfter cut (c.run w f) d k = d := by
  obtain ⟨h1, h2⟩ := C85_interrupted_partial w f c cut hcut d k
  funext n
  by_cases hn : n = f.filename
  · subst hn
    rcases h2 with h2 | ⟨-, -, resp, b, g1, g2, -⟩
    · exact h2
    · exact absurd g2 (h resp g1)
  · exact h1 n hn

/-- C85: when a download has succeeded, the file has the whole answer, whatever was there before. -/
theorem C85_complete (w : World) (f : Flags) (c : Command) (hc : Saves c) (hd : f.dryrun = false)
    (h0 : (c.run w f).fin = .exit 0) (cut : List UInt8 → List (List UInt8)) (hcut : ∀ b, (cut b).flatten = b) (d : Disk) :
    ∃ resp last, lastResponse (c.run w f).trace = some resp ∧ ∀ k, last ≤ k →
      diskAfter cut (c.run w f) d k f.filename = some resp.body := by
  obtain ⟨resp, h1, -, h3, -⟩ := C58_saved w f c hc hd h0
  refine ⟨resp, (cut resp.body).length + 1, h1, ?_⟩
  intro k hk
  rw [(one_file cut _ _ _ h3 d k).2, if_neg (by omega), List.take_of_length_le (by omega), hcut]

/-- C85: a download that was cut short is noticed when the file is read: if what the server sent can
be read, the file is as it was, or it cannot be read, or it reads like what the server sent. -/
theorem C85_noticed (w : World) (f : Flags) (c : Command) (cut : List UInt8 → List (List UInt8))
    (hcut : ∀ b, (cut b).flatten = b) (d : Disk) (k : Nat) (env : Env) (nt : NameTable) (resp : HttpResponse)
    (hl : lastResponse (c.run w f).trace = some resp) (x : Response Message) (e : Option Err)
    (hx : parseResponse env nt resp.body = (some x, e)) :
    diskAfter cut (c.run w f) d k f.filename = d f.filename ∨
      ∃ b, diskAfter cut (c.run w f) d k f.filename = some b ∧
        ((∃ err, parseResponse env nt b = (none, some err)) ∨ parseResponse env nt b = (some x, e)) := by
  rcases (C85_interrupted_partial w f c cut hcut d k).2 with h | ⟨-, -, resp', b, g1, -, ⟨tl, g3⟩, g4⟩
  · exact .inl h
  · rw [hl] at g1; cases g1
    refine .inr ⟨b, g4, ?_⟩
    obtain ⟨before, tag, rest, name, h1, -, -, h4, h5⟩ := C34_parse env nt _ _ _ hx
    have hb : b = resp.body.take b.length := by rw [← g3, List.take_left]
    by_cases hlen : b.length < (before ++ tag).length
    · left; rw [hb]; exact h4 _ hlen
    · right
      have hp : before ++ tag <+: b := by
        refine List.prefix_of_prefix_length_le (l₃ := resp.body) ⟨rest, h1.symm⟩ ⟨tl, g3⟩ (by omega)
      obtain ⟨o, ho⟩ := hp
      rw [← ho]; exact h5 o

/-- A world whose servers answer with a given body and whose disk is full after some bytes. -/
def storing (now : GoTime) (body : List UInt8) (room : Option Nat) : World :=
  { answering now body with copies := fun _ => room }

theorem storing_run (c : Command) (hc : Saves c) (now : GoTime) (body : List UInt8) (room : Option Nat) :
    (c.run (storing now body room) sampleFlags).fin = (if room = none then .exit 0 else .exit 1) ∧
    (c.run (storing now body room) sampleFlags).files = [("statement.ofx".toList, copied room body)] := by
  have ho : OneRequest c := by rcases hc with rfl | rfl | rfl | rfl <;> (unfold OneRequest; decide)
  obtain ⟨bc, r, doc, hq, hu, hd⟩ := sample_query c ho now body
  have hq : c.query (storing now body room) sampleFlags = .ok (.basic bc, r) := by
    rw [← hq]; rcases hc with rfl | rfl | rfl | rfl <;> rfl
  have hraw : ((Client.basic bc).requestNoParse (storing now body room).net r []).1 =
      (some ⟨⟨200, "200 OK".toList, body.length, [], [], body⟩, 1⟩, none) := by
    obtain ⟨hs', k1⟩ := constNet_first now ⟨200, "200 OK".toList, body.length, [], [], body⟩ rfl (.basic bc)
      (by intro bc h; cases h) r.url (by rw [hu]; decide) doc.bytes []
    rcases noParse_cases (storing now body room).net (.basic bc) r [] with ⟨e, h', -⟩ | ⟨d', h', h''⟩
    · erw [hd] at h'; cases h'
    erw [hd] at h'
    cases h'
    rcases h'' with ⟨-, h''⟩ | ⟨resp', -, hr, -⟩
    · rw [h'']; erw [k1]; rfl
    · obtain ⟨⟨bc, hr⟩, -⟩ := hr; cases hr
  obtain ⟨onError, he⟩ := run_saves hc (storing now body room) sampleFlags
  rw [he, hq]
  unfold saveCommand
  simp only
  rcases hres : (Client.basic bc).requestNoParse (storing now body room).net r [] with ⟨⟨a, b⟩, q, tr⟩
  rw [hres] at hraw
  cases hraw
  cases room
  · exact ⟨rfl, rfl⟩
  · exact ⟨rfl, rfl⟩

/-- C58, C85: the hypotheses are met: downloads succeed and fail. -/
example (now : GoTime) (body : List UInt8) :
    (Command.downloadBank.run (storing now body none) sampleFlags).fin = .exit 0 ∧
    (Command.downloadBank.run (storing now body (some 3)) sampleFlags).fin = .exit 1 ∧ Saves .downloadBank ∧
    sampleFlags.dryrun = false :=
  ⟨(storing_run _ (.inr (.inl rfl)) now body none).1, (storing_run _ (.inr (.inl rfl)) now body (some 3)).1,
    .inr (.inl rfl), rfl⟩

/-- C85 fails: an earlier download is lost when the disk is full, whatever was in it, and also when
the process is killed in time although the download would have succeeded. -/
theorem C85_lost (now : GoTime) (c : Command) (hc : Saves c) (cut : List UInt8 → List (List UInt8))
    (hcut : ∀ b, (cut b).flatten = b) (d : Disk) (old : List UInt8)
    (ho : d sampleFlags.filename = some old) (hne : old ≠ []) :
    (∃ w : World, (c.run w sampleFlags).fin = .exit 1 ∧ ∀ k, 0 < k →
      diskAfter cut (c.run w sampleFlags) d k sampleFlags.filename = some [] ∧ some [] ≠ d sampleFlags.filename) ∧
    ∃ w : World, (c.run w sampleFlags).fin = .exit 0 ∧
      diskAfter cut (c.run w sampleFlags) d 1 sampleFlags.filename = some [] ∧ some [] ≠ d sampleFlags.filename := by
  have hd : some [] ≠ d sampleFlags.filename := by
    rw [ho]; intro h; exact hne (Option.some.inj h).symm
  refine ⟨⟨storing now [1, 2, 3] (some 0), ?_, ?_⟩, ⟨storing now [1, 2, 3] none, ?_, ?_, hd⟩⟩
  · exact (storing_run c hc now _ _).1
  · intro k hk
    refine ⟨?_, hd⟩
    obtain ⟨-, h⟩ := one_file cut _ _ _ (storing_run c hc now [1, 2, 3] (some 0)).2 d k
    rw [if_neg (by omega)] at h
    refine h.trans ?_
    have he := hcut []
    rw [← List.take_append_drop (k - 1) (cut []), List.flatten_append] at he
    exact congrArg some (List.append_eq_nil_iff.mp he).1
  · exact (storing_run c hc now _ _).1
  · obtain ⟨-, h⟩ := one_file cut _ _ _ (storing_run c hc now [1, 2, 3] none).2 d 1
    exact h

/-- The bytes may be written one by one, in an earlier download of two bytes. -/
example (now : GoTime) : ∃ w : World, (Command.downloadCC.run w sampleFlags).fin = .exit 0 ∧
    diskAfter (fun b => b.map ([·])) (Command.downloadCC.run w sampleFlags) (fun _ => some [7, 7]) 3 sampleFlags.filename = some [1, 2] := by
  refine ⟨storing now [1, 2, 3] none, (storing_run _ (.inr (.inr (.inl rfl))) now _ _).1, ?_⟩
  obtain ⟨-, h⟩ := one_file (fun b => b.map ([·])) _ _ _ (storing_run .downloadCC (.inr (.inr (.inl rfl))) now [1, 2, 3] none).2
    (fun _ => some [7, 7]) 3
  exact h

end Ofx.Props
