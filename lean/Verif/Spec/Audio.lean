import Verif.Model.Audio

/-! Vocabulary for the audio properties. -/

namespace IIVision.Spec

/-- Order of floating point values (NaN is not comparable). -/
def fltLe : Flt → Flt → Prop
  | .nan, _ => False
  | _, .nan => False
  | .negInf, _ => True
  | _, .posInf => True
  | .fin a, .fin b => a ≤ b
  | _, _ => False

/-- What the theorems need of a rounding mode: it is monotone and exact at zero. -/
structure Rounding (rnd : Rat → Flt) : Prop where
  mono : ∀ a b, a ≤ b → fltLe (rnd a) (rnd b)
  zero : rnd 0 = .fin 0

/-- A value that converts to a 64 bit integer. -/
def Fits : Flt → Prop
  | .fin q => -(2 ^ 63) < q ∧ q < 2 ^ 63
  | _ => False

/-- Integer part, rounding towards zero. -/
def towardsZero (q : Rat) : Int := if 0 ≤ q then q.floor else q.ceil

end IIVision.Spec
