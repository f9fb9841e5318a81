import Verif.Model.Folder
import Verif.Spec.Buffered

/-! Vocabulary for the directory of the converted pictures. -/

namespace IIVision.Spec

/-- The program, started with these words on the disk `fs`, where making a directory raises what `mk` says, can be in state `s` after `n` steps. -/
def WorkingF (H : Host) (argv : List Text) (fs : FS) (size : Nat) (dev : Device) (mk : FS → Option PyErr) (n : Nat) (s : Session) : Prop :=
  ∃ P s0, launch H argv fs = .ok (P, s0) ∧ Session.StepsF P size dev mk n (Session.start s0) s

/-- `f` is the directory, or one it is in. -/
def OnTheWay (dir f : Text) : Prop := f = dir ∨ ∃ rest, dir = f ++ 47 :: rest

end IIVision.Spec
