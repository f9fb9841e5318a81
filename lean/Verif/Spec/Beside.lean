import Verif.Model.Beside
import Verif.Spec.Buffered

/-! Vocabulary for a transcoder beside other programs. -/

namespace IIVision.Spec

/-- The files a transcoder has to do with: the output file, and the files of the pictures. -/
def Mine (P : Setup) (q : Text) : Prop := q = P.name ∨ ∃ i, OwnFile P.grabber i q

/-- What bmp2dhr does to the files of the picture it converts depends on nothing but these files. -/
def Contained (G : Grabber) : Prop :=
  ∀ i fs fs', (∀ q, OwnFile G i q → fs q = fs' q) →
    (∀ e, G.tool i (commandLine (G.path i (txt ".bmp")) G.mode G.palette) fs = .error e → G.tool i (commandLine (G.path i (txt ".bmp")) G.mode G.palette) fs' = .error e) ∧
    (∀ r, G.tool i (commandLine (G.path i (txt ".bmp")) G.mode G.palette) fs = .ok r →
      ∃ r', G.tool i (commandLine (G.path i (txt ".bmp")) G.mode G.palette) fs' = .ok r' ∧ ∀ q, OwnFile G i q → r q = r' q)

/-- The program, started with these words on the disk `fs`, while other programs are working on files that are none of its own, can be in state `s` after `n` steps of its own. -/
def WorkingAmid (H : Host) (argv : List Text) (fs : FS) (size : Nat) (dev : Device) (n : Nat) (s : Session) : Prop :=
  ∃ P s0, launch H argv fs = .ok (P, s0) ∧ Session.StepsAmid P size dev (Mine P) n (Session.start s0) s

/-- The states differ at most in files that are none of the transcoder's own. -/
def SameButOthers (P : Setup) (s t : Session) : Prop := ∃ d, t = s.onDisk d ∧ ∀ q, Mine P q → d q = s.prog.disk q

end IIVision.Spec
