import Verif.Model.Interrupt
import Verif.Spec.Buffered

/-! Vocabulary for Ctrl-C. -/

namespace IIVision.Spec

/-- The program, started with these words on the disk `fs`, with an output buffer of `size` bytes, can be in state `s` after Ctrl-C has been pressed `k` times. -/
def CtrlC (H : Host) (argv : List Text) (fs : FS) (size : Nat) (dev : Device) (ki : PyErr) (k : Nat) (s : Session) : Prop :=
  ∃ P s0, launch H argv fs = .ok (P, s0) ∧ Session.Runs P size dev ki k (Session.start s0) s

/-- `m` steps of the main thread alone. -/
inductive Alone (P : Setup) (size : Nat) (dev : Device) : Nat → Session → Session → Prop
  | zero (s : Session) : Alone P size dev 0 s s
  | succ {m : Nat} {s t u : Session} : s.mainStep P size dev = some t → Alone P size dev m t u → Alone P size dev (m + 1) s u

end IIVision.Spec
