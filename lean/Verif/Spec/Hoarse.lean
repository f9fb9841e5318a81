import Verif.Spec.Entire

/-! Vocabulary for the whole program on an input whose sound cannot be decoded to its end. -/

namespace IIVision.Spec

/-- As `Smooth`, except that the sound ends with the exception `e`: a buffer cannot be decoded, or all can and reading the next one fails. -/
structure Hoarse (H : Host) (c : Command) (norm : Flt) (fs : FS) (e : PyErr) : Prop where
  zero : H.double 0 = 0
  stride : c.everyN ≠ 0
  limit : c.maxMb ≠ .negInf ∧ ∀ q, c.maxMb = .fin q → 0 ≤ q
  sound : ((H.format c.bitrate).stream H.rnd H.bad norm H.buffers).2 = some e ∨
    ((H.format c.bitrate).stream H.rnd H.bad norm H.buffers).2 = none ∧ H.soundError = some e
  table : HasTable H.files c.mode c.palette
  video : (wholeVideo (hostGrabber H c) fs).2 = .ends
  clean : c.mode = .DHGR → ∀ f ∈ (wholeVideo (hostGrabber H c) fs).1, ∀ m, f.main = m ∨ f.aux = some m → ∀ p o, (m.pageOffset p o).toNat < 0x80

end IIVision.Spec
