import Verif.Model.Program

/-! Model of transcoder/main.py when the sound cannot be decoded to its end: audio.py:90-100 is a
generator, so an exception of `read_data` or of `_decode` reaches movie.py:67 only when the samples
of the buffers before it have been used up.  Everything else is as in `Model/Program.lean`; the
conversion thread is a daemon (frame_grabber.py:129) and does not keep the program from ending. -/

namespace IIVision

/-- One step of the main thread when `audio_stream()` raises `e` after its last sample: movie.py:67
asks for a sample when `encode()` is resumed after the first time; emit_stream (movie.py:140-150)
handles no exception, and so the loop of main.py:68 ends with it. -/
def Prog.mainStepE (M : Movie) (e : PyErr) (s : Prog) : Option Prog :=
  if s.main = .running ∧ s.coder.phase ≠ .new ∧ s.coder.audio = [] then some { s with main := .raised e }
  else s.mainStep M

/-- A step of either thread. -/
inductive Prog.StepE (M : Movie) (G : Grabber) (e : PyErr) : Prog → Prog → Prop
  | worker {s t : Prog} : s.workerStep G = some t → Prog.StepE M G e s t
  | main {s t : Prog} : s.mainStepE M e = some t → Prog.StepE M G e s t

/-- `n` steps, in any interleaving. -/
inductive Prog.StepsE (M : Movie) (G : Grabber) (e : PyErr) : Nat → Prog → Prog → Prop
  | zero (s : Prog) : Prog.StepsE M G e 0 s s
  | succ {n : Nat} {s t u : Prog} : Prog.StepsE M G e n s t → Prog.StepE M G e t u →
      Prog.StepsE M G e (n + 1) s u

end IIVision
