import Verif.Model.Program

/-! Model of transcoder/main.py on a disk: as `Model/Program.lean`, but the output file is a file of the same file
system as those of the frame grabber, under the name it is given, and writing a number that is not a byte fails.

The state is a `Prog` whose `g.fs` is the whole disk.  Not modelled: buffering (a byte written is on the disk at once), and that
the output file cannot be opened. -/

namespace IIVision

/-- The disk. -/
abbrev Prog.disk (s : Prog) : FS := s.g.fs

/-- The same state with another disk. -/
def Prog.onDisk (s : Prog) (d : FS) : Prog := { s with g := { s.g with fs := d } }

/-- main.py:67-69: what has been written is the content of the output file. -/
def Prog.save (name : Text) (s : Prog) : Prog :=
  s.onDisk (s.disk.put name (s.out.map (BitVec.ofNat 8)))

/-- main.py:69 `out.write(bytearray([b]))` for the bytes after the first `n`: ValueError at a number above 255. -/
def Prog.write (name : Text) (n : Nat) (s : Prog) : Prog :=
  if (s.out.drop n).all (· < 256) then s.save name
  else ({ s with main := .raised .valueError, out := s.out.take n ++ (s.out.drop n).takeWhile (· < 256) } : Prog).save name

/-- One step of the main thread. -/
def Prog.mainStepD (M : Movie) (name : Text) (s : Prog) : Option Prog :=
  (s.mainStep M).map (Prog.write name s.out.length)

/-- A step of either thread. -/
inductive Prog.StepD (M : Movie) (G : Grabber) (name : Text) : Prog → Prog → Prop
  | worker {s t : Prog} : s.workerStep G = some t → Prog.StepD M G name s t
  | main {s t : Prog} : s.mainStepD M name = some t → Prog.StepD M G name s t

/-- `n` steps, in any interleaving. -/
inductive Prog.StepsD (M : Movie) (G : Grabber) (name : Text) : Nat → Prog → Prog → Prop
  | zero (s : Prog) : Prog.StepsD M G name 0 s s
  | succ {n : Nat} {s t u : Prog} : Prog.StepsD M G name n s t → Prog.StepD M G name t u → Prog.StepsD M G name (n + 1) s u

/-- main.py:45-67: the arguments have been taken and the output file has just been opened, which empties it. -/
def Args.startD (a : Args) (w : World) (fs : FS) : Except PyErr Prog := do
  let s ← a.start w fs
  return s.save (outFilename a.output a.input)

end IIVision
