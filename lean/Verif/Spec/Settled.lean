import Verif.Spec.Picture
import Verif.Spec.Screen
import Verif.Spec.Encoder

/-! Specification for C96. -/

namespace IIVision.Spec

/-- One dot of the screen is that of the picture, or it is one of the leftmost dots of C62. -/
def RightDot (shows : Mem × Mem) (T : Bitmap) (y : Fin 192) (d : Fin 560) : Prop :=
  screenDot .HGR shows y d = screenDot .HGR (banks T) y d ∨
  d = 0 ∧ hiresAddr 0 y 0 % 256 ≠ 0 ∧ (screenByte (banks T).1 y 0 = 0x7f ∧ screenByte shows.1 y 0 = 0xff ∨
    screenByte (banks T).1 y 0 = 0xff ∧ screenByte shows.1 y 0 = 0x7f)

end IIVision.Spec
