import Verif.Spec.Pace
import Verif.Spec.Play
import Mathlib.Algebra.Order.Field.Rat
import Mathlib.Algebra.Order.AbsoluteValue.Basic

/-! Vocabulary for the speed at which a movie plays. -/

namespace IIVision.Spec

/-- Samples per second that the player plays on a machine with `f` cycles per second: 292 in 294 times 73 cycles. -/
def playRate (f : Rat) : Rat := 292 * f / (294 * 73)

/-- How many times longer a movie takes on such a machine than its sound of `b` samples per second. -/
def slowdown (f b : Rat) : Rat := b / playRate f

end IIVision.Spec
