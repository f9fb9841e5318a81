import Verif.Spec.Picture

/-! How much of a screen is wrong. -/

namespace IIVision.Spec

/-- Number of the 8192 bytes of one bank in which two screens differ. -/
def wrongBytes (m m' : Mem × Mem) (isAux : Bool) : Nat :=
  allCells.countP fun c => decide (bankOf m isAux c.1 c.2 ≠ bankOf m' isAux c.1 c.2)

/-- ... of all the memory that is shown in a mode. -/
def wrongInAll (mode : VideoMode) (m m' : Mem × Mem) : Nat :=
  match mode with
  | .HGR => wrongBytes m m' false
  | .DHGR => wrongBytes m m' false + wrongBytes m m' true

end IIVision.Spec
