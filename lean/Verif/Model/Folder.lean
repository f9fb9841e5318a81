import Verif.Model.Buffered

/-! Model of frame_grabber.py:62-64: the directory of the converted pictures.

`frames()` is a generator: `os.makedirs` is called when the first picture is asked for (movie.py:70), by the main thread, after the output file has been opened (main.py:67) and before
the conversion thread is started (frame_grabber.py:129-130).  An exception goes through `encode()` and `emit_stream` to main.py:68.  Everything else is as in `Model/Buffered.lean`. -/

namespace IIVision

/-- What comes before each slash: the directories `os.makedirs` makes on the way (frame_grabber.py:64; Lib/os.py, `makedirs`). -/
def parents (dir : Text) : List Text :=
  ((List.range dir.length).filter fun k => dir[k]? == some 47).map dir.take

/-- frame_grabber.py:64 `os.makedirs(frame_dir, exist_ok=True)`, as far as files are in the way: `err` stands for NotADirectoryError or FileExistsError.  Simplified: paths are texts, as
everywhere in the model of the disk; no other reasons to fail (see `mk` of `Session.mainStepF` for these). -/
def FS.makedirs (err : PyErr) (dir : Text) (fs : FS) : Option PyErr :=
  if fs.has dir || (parents dir).any fs.has then some err else none

/-- movie.py:70, frame_grabber.py:57-64: the main thread is about to ask for the first picture. -/
def Session.asksFirst (P : Setup) (s : Session) : Bool :=
  !s.closed && s.todo.isEmpty && !s.over && decide (s.prog.main = .running) && s.prog.coder.needsFrame P.movie && !s.prog.started

/-- main.py:67-69, frame_grabber.py:64: the main thread, where `mk` is what `os.makedirs` raises on a disk. -/
def Session.mainStepF (P : Setup) (size : Nat) (dev : Device) (mk : FS → Option PyErr) (s : Session) : Option Session :=
  if s.asksFirst P then
    match mk s.prog.disk with
    | some e => some { s with prog := { s.prog with main := .raised e } }
    | none => s.mainStep P size dev
  else s.mainStep P size dev

/-- A step of either thread: main.py:68-69, or frame_grabber.py:117-127. -/
inductive Session.StepF (P : Setup) (size : Nat) (dev : Device) (mk : FS → Option PyErr) : Session → Session → Prop
  | worker {s : Session} {t : Prog} : s.prog.workerStep P.grabber = some t → Session.StepF P size dev mk s { s with prog := t }
  | main {s t : Session} : s.mainStepF P size dev mk = some t → Session.StepF P size dev mk s t

/-- `n` steps, in any interleaving. -/
inductive Session.StepsF (P : Setup) (size : Nat) (dev : Device) (mk : FS → Option PyErr) : Nat → Session → Session → Prop
  | zero (s : Session) : Session.StepsF P size dev mk 0 s s
  | succ {n : Nat} {s t u : Session} : Session.StepsF P size dev mk n s t → Session.StepF P size dev mk t u → Session.StepsF P size dev mk (n + 1) s u

end IIVision
