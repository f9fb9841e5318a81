import Verif.Model.Pcm

/-! What a sound file in 16 bit PCM is, and how one expects it to be played. -/

namespace IIVision.Spec
open IIVision.Pcm

/-- A sampled value as two bytes, low byte first, negative values in two's complement. -/
def valueBytes (v : Int) : List U8 := [BitVec.ofInt 8 v, BitVec.ofInt 8 (v / 256)]

/-- The bytes of a sequence of frames, each with one value per channel. -/
def pcmBytes (frames : List (List Int)) : List U8 := frames.flatMap fun f => f.flatMap valueBytes

/-- Frames of `channels` values of 16 bits. -/
def GoodFrames (channels : Nat) (frames : List (List Int)) : Prop :=
  ∀ f ∈ frames, f.length = channels ∧ ∀ v ∈ f, -32768 ≤ v ∧ v < 32768

/-- The mean of the channels, rounded. -/
def monoOf (rnd : Rat → Rat) (f : List Int) : Rat := rnd (((f.sum : Int) : Rat) / ((f.length : Nat) : Rat))

/-- Samples that a resampler makes of `n` samples when it goes from rate `orig` to `target`: as many
as begin in the same time. -/
def resampledLength (orig target : Rat) (n : Nat) : Nat := ((n : Rat) * target / orig).ceil.toNat

/-- The decoder resamples from rate `orig` to `target`: the number of samples is right, and nothing
happens if the rates are equal. -/
structure Resamples (F : Format) (orig target : Rat) : Prop where
  length : ∀ a, (F.resample a).length = resampledLength orig target a.length
  same : orig = target → ∀ a, F.resample a = a

end IIVision.Spec
