import Verif.Model.Buffered
import Verif.Spec.Entire

/-! Vocabulary for the buffered output file. -/

namespace IIVision.Spec

/-- The program, started with these words on the disk `fs`, with an output buffer of `size` bytes, can be in state `s` after `n` steps. -/
def Working (H : Host) (argv : List Text) (fs : FS) (size : Nat) (dev : Device) (n : Nat) (s : Session) : Prop :=
  ∃ P s0, launch H argv fs = .ok (P, s0) ∧ Session.Steps P size dev n (Session.start s0) s

/-- Neither thread can run any more. -/
def Stuck (H : Host) (argv : List Text) (fs : FS) (size : Nat) (dev : Device) (s : Session) : Prop :=
  ∀ P s0, launch H argv fs = .ok (P, s0) → ¬∃ t, Session.Step P size dev s t

/-- The operating system takes whole buffers. -/
def Generous (size : Nat) (dev : Device) : Prop := ∀ j, ∃ k, dev j = .ok k ∧ size ≤ k + 1

/-- No `write` fails. -/
def Reliable (dev : Device) : Prop := ∀ j, ∃ k, dev j = .ok k

/-- What the first `n` calls of `write` take at most. -/
def taken (dev : Device) : Nat → Nat
  | 0 => 0
  | n + 1 => taken dev n + match dev n with
    | .ok k => k + 1
    | .error _ => 0

end IIVision.Spec
