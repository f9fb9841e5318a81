import Verif.Model.SoundFail
import Verif.Spec.Program

/-! Vocabulary for the transcoder when the sound fails. -/

namespace IIVision.Spec

/-- The transcoder, started with these arguments on an input whose sound fails with the exception
`e` after the samples of `w.chunks`, can be in state `s` after `n` steps, in some interleaving. -/
def ExecutionE (a : Args) (w : World) (e : PyErr) (fs : FS) (n : Nat) (s : Prog) : Prop :=
  ∃ s0, a.start w fs = .ok s0 ∧ Prog.StepsE (a.movie w) (a.grabber w) e n s0 s

/-- Neither thread can run any more. -/
def HaltedE (a : Args) (w : World) (e : PyErr) (s : Prog) : Prop :=
  ¬∃ t, Prog.StepE (a.movie w) (a.grabber w) e s t

end IIVision.Spec
