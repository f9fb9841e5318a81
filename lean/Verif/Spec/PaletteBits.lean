import Verif.Spec.Plain
import Verif.Spec.Encoder

/-! Pictures with palette bits (bit 7), which double hi-res does not display, and the same pictures without them. -/

namespace IIVision.Spec

/-- A memory without its palette bits. -/
def cleanMap (m : MemoryMap) : MemoryMap := { m with pageOffset := fun p o => m.pageOffset p o &&& 0x7f#8 }

/-- A converted picture without its palette bits. -/
def cleanFrame (f : Frame) : Frame := ⟨cleanMap f.main, f.aux.map cleanMap⟩

/-- A frame to be encoded without its palette bits. -/
def cleanBitmap (b : Bitmap) : Bitmap := { b with main := cleanMap b.main, aux := b.aux.map cleanMap }

/-- The same calls of the encoder for the frames without palette bits. -/
def cleanCall : Call → Call
  | .start T a => .start (cleanBitmap T) a
  | .pull => .pull
  | .reset => .reset

/-- The operation `op` stores, first of all, a byte that has a palette bit in the frame `T`. -/
def StoresPaletteBit (T : Bitmap) (isAux : Bool) (op : VideoOp) : Prop :=
  ∃ (p : Fin 32) (o : Fin 256), op.page = p.val + 32 ∧ op.offsets.head? = some o ∧ 0x80 ≤ (T.bank isAux p o).toNat

/-- Equal operations, or padding operations whose bytes are equal but for the palette bit. -/
def AlikeOp (op op' : VideoOp) : Prop :=
  op = op' ∨ op = ⟨32, op.content, [0, 0, 0, 0]⟩ ∧ op' = ⟨32, op.content &&& 0x7f#8, [0, 0, 0, 0]⟩

/-- The same of opcodes. -/
def AlikeOpcode (op op' : Opcode) : Prop :=
  op = op' ∨ ∃ t c, op = .tick t 0 c [0, 0, 0, 0] ∧ op' = .tick t 0 (c &&& 0x7f#8) [0, 0, 0, 0]

/-- One `next()` in a history (`s`) and in the same history for the frames without palette bits (`s'`): the
encoder's own screen and priorities are the same before and after, and so is the operation; padding operations may
differ in the palette bit, others do not (first) store a byte that has one. -/
structure StepAlike (s s' : Step) : Prop where
  target : s'.target = cleanBitmap s.target
  bank : s'.isAux = s.isAux
  first : s'.first = s.first
  startV : s'.startV = s.startV
  before : s'.before = s.before
  after : s'.after = s.after
  padding : s'.padding = s.padding
  op : AlikeOp s.op s'.op
  work : s.padding = false → s.op = s'.op ∧ ¬ StoresPaletteBit s.target s.isAux s.op

end IIVision.Spec
