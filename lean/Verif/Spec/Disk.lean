import Verif.Model.Disk
import Verif.Spec.Plain
import Verif.Spec.Convert

/-! Vocabulary for the transcoder and its files. -/

namespace IIVision.Spec

/-- The transcoder, started with these arguments on the disk `fs`, can be in state `s` after `n` steps. -/
def Run (a : Args) (w : World) (fs : FS) (n : Nat) (s : Prog) : Prop :=
  ∃ s0, a.startD w fs = .ok s0 ∧ Prog.StepsD (a.movie w) (a.grabber w) (outFilename a.output a.input) n s0 s

/-- Neither thread can run any more. -/
def Idle (a : Args) (w : World) (s : Prog) : Prop :=
  ¬∃ t, Prog.StepD (a.movie w) (a.grabber w) (outFilename a.output a.input) s t

/-- What the converter does when it is called for a picture does not depend on the file `name`, and it leaves it alone. -/
def Blind (G : Grabber) (name : Text) : Prop :=
  ∀ i fs d, G.tool i (commandLine (G.path i (txt ".bmp")) G.mode G.palette) (fs.put name d) =
    (G.tool i (commandLine (G.path i (txt ".bmp")) G.mode G.palette) fs).map fun fs' => fs'.put name d

/-- The numbers of the bytes of a file. -/
def numbers (d : List U8) : List Nat := d.map (·.toNat)

end IIVision.Spec
