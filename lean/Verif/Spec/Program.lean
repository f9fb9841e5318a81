import Verif.Model.Program
import Verif.Spec.Grabber
import Verif.Spec.Movie

/-! Vocabulary for the whole transcoder. -/

namespace IIVision.Spec

/-- The transcoder, started with these arguments, can be in state `s` after `n` steps, in some
interleaving of its threads. -/
def Execution (a : Args) (w : World) (fs : FS) (n : Nat) (s : Prog) : Prop :=
  ∃ s0, a.start w fs = .ok s0 ∧ Prog.Steps (a.movie w) (a.grabber w) n s0 s

/-- Neither thread can run any more. -/
def Halted (a : Args) (w : World) (s : Prog) : Prop := ¬∃ t, Prog.Step (a.movie w) (a.grabber w) s t

/-- The frames of the input, converted one after the other, and how that ends. -/
def Args.video (a : Args) (w : World) (fs : FS) : List Frame × Outcome := wholeVideo (a.grabber w) fs

/-- Arguments and input as they should be: a frame stride that is not zero, no negative size
limit, the first frame due at once, and in DHGR no palette bits in the converted pictures. -/
structure Sound (a : Args) (w : World) (fs : FS) : Prop where
  stride : a.everyN ≠ 0
  limit : 0 ≤ a.maxMb
  thr0 : w.thr 0 = 0
  clean : a.mode = .DHGR → ∀ f ∈ (Args.video a w fs).1, ∀ m, f.main = m ∨ f.aux = some m →
    ∀ p o, (m.pageOffset p o).toNat < 0x80

/-- All of the file but TERMINATE and the padding after it. -/
def LacksEnd (addr : AddrTable) (out bytes : List Nat) : Prop :=
  ∃ pad, bytes = out ++ Opcode.terminate.emit addr ++ List.replicate pad 0

/-- There is audio left after the ticks of the stream, and at the next one a frame would be due that
is not there. -/
def FrameMissing (thr : Nat → Nat) (audio : List Int) (frames : List Frame) (ops : List Opcode) : Prop :=
  (ticksOf false ops).length < audio.length ∧ frames.length < fetched thr ((ticksOf false ops).length + 1)

instance (thr : Nat → Nat) (audio : List Int) (frames : List Frame) (ops : List Opcode) :
    Decidable (FrameMissing thr audio frames ops) := instDecidableAnd

end IIVision.Spec
