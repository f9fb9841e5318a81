import Verif.Spec.Encoder

/-! Counting turns: how long a byte that looks wrong has to wait. -/

namespace IIVision.Spec

/-- The operation of a step stores to a byte. -/
def Step.stores (s : Step) (b : Bool) (p : Fin 32) (o : Fin 256) : Prop :=
  s.isAux = b ∧ s.op.pageIx = p ∧ o ∈ s.op.offsets

/-- Number of frames begun (or begun again) in a bank. -/
def begun (b : Bool) (tr : List Step) : Nat := tr.countP fun s => s.isAux == b && s.first

/-- The sum, over all operations for a bank, of the number of frames begun in it so far. -/
def ranked (b : Bool) : Nat → List Step → Nat
  | _, [] => 0
  | k, s :: l =>
    if s.isAux = b then
      let k := if s.first then k + 1 else k
      k + ranked b k l
    else ranked b k l

/-- One frame after the other, possibly for different banks, each with a number of operations. -/
def turns (l : List (Bitmap × Bool × Nat)) : List Call :=
  l.flatMap fun x => .start x.1 x.2.1 :: List.replicate x.2.2 .pull

end IIVision.Spec
