/-! Independent specification of the Apple II hi-res screen layout (Apple II
Reference Manual): which address shows byte column `x` of scan line `y`. -/

namespace IIVision.Spec

/-- Address of byte column `x` (0-39) of scan line `y` (0-191) on hi-res page
`pg` (0 ↦ $2000, 1 ↦ $4000). -/
def hiresAddr (pg y x : Nat) : Nat :=
  0x2000 * (pg + 1) + 0x400 * (y % 8) + 0x80 * (y / 8 % 8) + 0x28 * (y / 64) + x

/-- `(y, x)` is a position on the visible screen. -/
def Visible (y x : Nat) : Prop := y < 192 ∧ x < 40

end IIVision.Spec
