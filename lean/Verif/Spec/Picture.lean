import Verif.Spec.Dots
import Verif.Spec.Screen
import Verif.Spec.Encoder

/-! The picture on the monitor: 192 lines of 560 dots. -/

namespace IIVision.Spec

/-- The byte of screen page 1 shown in column `x` of line `y`. -/
def screenByte (m : Mem) (y : Fin 192) (x : Fin 40) : U8 :=
  m (Fin.ofNat 32 ((hiresAddr 0 y x - 0x2000) / 256)) (Fin.ofNat 256 (hiresAddr 0 y x))

/-- The byte left of column `x`; nothing (dark) left of the first. -/
def leftByte (m : Mem) (y : Fin 192) (x : Fin 40) : U8 :=
  if h : x.val = 0 then 0 else screenByte m y ⟨x.val - 1, by omega⟩

/-- Dot `d` of line `y` of the monitor, with the given contents of main and auxiliary memory. -/
def screenDot (mode : VideoMode) (m : Mem × Mem) (y : Fin 192) (d : Fin 560) : Bool :=
  match mode with
  | .HGR => dotOf (leftByte m.1 y ⟨d.val / 14, by omega⟩) (screenByte m.1 y ⟨d.val / 14, by omega⟩) (d.val % 14)
  | .DHGR =>
    (screenByte (if d.val / 7 % 2 = 0 then m.2 else m.1) y ⟨d.val / 14, by omega⟩).getLsbD (d.val % 7)

/-- The colour shown at dot `d`: that of the four dots from there on. -/
def ScreenColour (mode : VideoMode) (m : Mem × Mem) (y : Fin 192) (d : Nat) (c : Colour) : Prop :=
  ShowsColour mode.colourValue (fun q => if h : q < 560 then screenDot mode m y ⟨q, h⟩ else false) 0 d c

/-- What remains to be done when a picture is begun: the bytes of the bank that do not look right,
as priced by the table. -/
def differing (mode : VideoMode) (t : EditTable) (src tgt : Mem × Mem) (isAux : Bool) : Nat :=
  allCells.countP fun c => decide (weight mode t src tgt isAux c.1 c.2 ≠ 0)

/-- The two bytes of the pattern of alternating dots. -/
def GreyPair (b c : U8) : Prop := b = 0x55 ∧ c = 0x2a ∨ b = 0x2a ∧ c = 0x55

end IIVision.Spec
