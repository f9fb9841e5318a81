import Verif.Model.Serving
import Verif.Spec.Buffered

/-! Vocabulary for a file that is changed while it is served. -/

namespace IIVision.Spec

/-- The server can get from `s` to `t` by steps that `R` allows. -/
inductive LiveRun (R : Live → Live → Prop) (s : Live) : Live → Prop
  | refl : LiveRun R s s
  | step {t u : Live} : LiveRun R s t → t.Step u → R t u → LiveRun R s u

/-- The server can get to `s`, whatever has happened to files and names. -/
def Listening (s : Live) : Prop := ∃ contents name, LiveRun (fun _ _ => True) (Live.new contents name) s

/-- If a file's contents are changed, bytes are added at its end. -/
def Appends (s t : Live) : Prop := ∀ i, s.contents i <+: t.contents i

/-- No file's contents are changed (but the name may be given to another file). -/
def Replaces (s t : Live) : Prop := ∀ i, t.contents i = s.contents i

/-- At some time on the way from `s` to `t` file `i` had the name. -/
def NamedBetween (R : Live → Live → Prop) (s t : Live) (i : Nat) : Prop := ∃ u, LiveRun R s u ∧ LiveRun R u t ∧ u.name = some i

/-- The client has not been accepted yet. -/
def Unserved (v : Live) (c : Nat) : Prop := v.status c = .absent ∨ v.status c = .waiting

/-- Transcoder and server can get from one pair of states to another. -/
inductive TogetherRun (P : Setup) (size : Nat) (dev : Device) (i : Nat) (x : Session × Live) : Session × Live → Prop
  | refl : TogetherRun P size dev i x x
  | step {y z : Session × Live} : TogetherRun P size dev i x y → Together P size dev i y z → TogetherRun P size dev i x z

/-- The transcoder has just been started and has opened its output file, whose contents are gone (`"wb"`), while the server serves the file of this name to some
clients; meanwhile the system can get to `x`. -/
def Broadcasting (H : Host) (argv : List Text) (fs : FS) (size : Nat) (dev : Device) (v : Live) (x : Session × Live) : Prop :=
  ∃ P s0 i, launch H argv fs = .ok (P, s0) ∧ Listening v ∧ v.name = some i ∧ v.contents i = [] ∧ TogetherRun P size dev i (Session.start s0, v) x

/-- The same system goes on from `x` and can get to `y`. -/
def Later (H : Host) (argv : List Text) (fs : FS) (size : Nat) (dev : Device) (x y : Session × Live) : Prop :=
  ∃ P s0 i, launch H argv fs = .ok (P, s0) ∧ x.2.name = some i ∧ TogetherRun P size dev i x y

end IIVision.Spec
