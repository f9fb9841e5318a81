import Verif.Model.TableLoad
import Verif.Spec.Program

/-! Vocabulary for the transcoder and its edit distance tables. -/

namespace IIVision.Spec

/-- The transcoder, started with these arguments and the data files `files`, can be in state `s` after `n` steps. (The table that the world
has is not used.) -/
def Loading (a : Args) (w : World) (files : List (Text × EditTable)) (fs : FS) (n : Nat) (s : Prog) : Prop :=
  ∃ s0, a.start w fs = .ok s0 ∧ Prog.StepsT (a.movie w) (a.grabber w) (a.mode.loadEditDistances files a.palette) n s0 s

/-- Neither thread can run any more. -/
def LoadingOver (a : Args) (w : World) (files : List (Text × EditTable)) (s : Prog) : Prop :=
  ¬∃ t, Prog.StepT (a.movie w) (a.grabber w) (a.mode.loadEditDistances files a.palette) s t

/-- A table file for this mode and palette is there. -/
def HasTable (files : List (Text × EditTable)) (mode : VideoMode) (p : Palette) : Prop :=
  ∃ f ∈ files, f.1 = txt "transcoder/data/" ++ mode.name ++ txt "_palette_" ++
    (match p with | .UNKNOWN => txt "-1" | .IIGS => txt "0" | .NTSC => txt "5") ++ txt "_edit_distance.npz"

end IIVision.Spec
