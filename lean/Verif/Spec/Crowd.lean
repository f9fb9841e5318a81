import Verif.Model.Crowd
import Verif.Spec.Beside

/-! Vocabulary for many transcoders at once. -/

namespace IIVision.Spec

/-- A file of the picture that the transcoder is just converting, or at which its conversion thread has died. -/
def Halfway (t : Task) (q : Text) : Prop :=
  match t.phase with
  | .outside => False
  | .failed idx => OwnFile t.setup.grabber idx q
  | _ => ∃ idx images, t.session.prog.g.worker = .fetch idx images ∧ OwnFile t.setup.grabber idx q

/-- The state of a transcoder on this disk is `x`, apart from files of others and, while it is converting a picture (or has failed to), the files of this picture. -/
def Amounts (t : Task) (disk : FS) (x : Session) : Prop := ∃ d, x = t.session.onDisk d ∧ ∀ q, Mine t.setup q → ¬ Halfway t q → disk q = d q

/-- The files of the jobs are not in the way of each other: none is a file of two of them, and the output file of each is not one of its pictures. -/
def Apart (J : Nat → Job) (fs : FS) : Prop :=
  (∀ i j P Q s t, i ≠ j → launch (J i).host (J i).argv fs = .ok (P, s) → launch (J j).host (J j).argv fs = .ok (Q, t) → ∀ q, Mine P q → ¬ Mine Q q) ∧
  ∀ i P s, launch (J i).host (J i).argv fs = .ok (P, s) → ∀ k, ¬ OwnFile P.grabber k P.name

/-- The bmp2dhr of each of the computers depends on and touches nothing but the files of the picture it converts. -/
def Decent (J : Nat → Job) (fs : FS) : Prop :=
  ∀ i P s, launch (J i).host (J i).argv fs = .ok (P, s) → Contained P.grabber ∧ LocalTool P.grabber

/-- From the disk `fs`, transcoders for these jobs, started at any moments, and other programs, which leave the files of the transcoders alone, can get to `c`. -/
def Bustle (J : Nat → Job) (fs : FS) (c : Crowd) : Prop :=
  Crowd.Steps OwnFile (fun q => ∃ i P s, launch (J i).host (J i).argv fs = .ok (P, s) ∧ Mine P q) J ⟨fs, fun _ => none⟩ c

end IIVision.Spec
