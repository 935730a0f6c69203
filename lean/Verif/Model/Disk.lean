import Verif.Model.Cli
/-
The files on disk while a command runs.
-/
namespace Ofx

/-- The files there are, with what is in them. cmd/ofx/bankdownload.go 79. -/
abbrev Disk := Str → Option (List UInt8)

/-- What the commands do to files: `os.Create`, which empties a file that is there already, and the
writes of `io.Copy`. cmd/ofx/bankdownload.go 79-86. -/
inductive FileOp where
  | create (name : Str)
  | append (name : Str) (bytes : List UInt8)
deriving DecidableEq

/-- The effect of an operation.  (Names are taken for files: links and directories are left out.)
cmd/ofx/bankdownload.go 79-86. -/
def FileOp.on (d : Disk) : FileOp → Disk
  | .create name => fun n => if n = name then some [] else d n
  | .append name bytes => fun n => if n = name then (d n).map (· ++ bytes) else d n

/-- The operations of a command, in order: the file is created once the server has answered, and
then written piece by piece, as `io.Copy` gets them (`cut`).
cmd/ofx/bankdownload.go 73-90, ccdownload.go 61-78, invdownload.go 70-88, profiledownload.go 63-80. -/
def fileOps (cut : List UInt8 → List (List UInt8)) (r : Ran) : List FileOp :=
  r.files.flatMap fun p => .create p.1 :: (cut p.2).map (.append p.1)

/-- The disk when the process is killed after `k` operations.  cmd/ofx/bankdownload.go 73-90. -/
def diskAfter (cut : List UInt8 → List (List UInt8)) (r : Ran) (d : Disk) (k : Nat) : Disk :=
  ((fileOps cut r).take k).foldl FileOp.on d

end Ofx
