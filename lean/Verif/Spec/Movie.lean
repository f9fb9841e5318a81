import Verif.Model.Movie
import Verif.Spec.Encoder

/-! Vocabulary for the properties of the byte stream. -/

namespace IIVision.Spec

/-- The operations that carry content: a header, or a tick with its four offsets. -/
def FrameOp : Opcode → Prop
  | .header _ => True
  | .tick _ _ _ os => os.length = 4
  | _ => False

/-- Bytes of a list of opcodes. -/
def bytesOf (addr : AddrTable) (ops : List Opcode) : List Nat := ops.flatMap (Opcode.emit addr)

/-- The iterator over a list of operations. -/
def listNext : Bool → List Opcode → Except PyErr (Option (Opcode × List Opcode))
  | _, [] => .ok none
  | _, op :: l => .ok (some (op, l))

/-- A stream without its ACKs. -/
def withoutAcks (ops : List Opcode) : List Opcode :=
  ops.filter fun op => match op with
    | .ack _ => false
    | _ => true

/-- The bank selected by the ACKs of a piece of the stream, starting from bank `b`. -/
def bankAfter (b : Bool) : List Opcode → Bool
  | [] => b
  | .ack a :: l => bankAfter a l
  | _ :: l => bankAfter b l

/-- Flags of the ACKs of a stream, in order. -/
def acks : List Opcode → List Bool
  | [] => []
  | .ack a :: l => a :: acks l
  | _ :: l => acks l

/-- What a player sees of a tick operation: speaker duty, screen page, byte and offsets, and
the memory bank that receives the bytes. -/
structure Played where
  duty : Nat
  page : Nat
  content : U8
  offsets : List (Fin 256)
  bank : Bool
  deriving DecidableEq

/-- The tick operations of a stream in order, with the bank selected at that point. -/
def ticksOf (b : Bool) : List Opcode → List Played
  | [] => []
  | .ack a :: l => ticksOf a l
  | .tick t p c os :: l => ⟨4 + 2 * t.val, 32 + p.val, c, os, b⟩ :: ticksOf b l
  | _ :: l => ticksOf b l

/-- A frame as the frame grabber delivers it: screen page 1, in DHGR both banks, without
palette bits. -/
structure MovieFrame (mode : VideoMode) (f : Frame) : Prop where
  main : f.main.screenPage = 1
  aux : mode = .DHGR → ∃ a, f.aux = some a ∧ a.screenPage = 1 ∧ ∀ p o, (a.pageOffset p o).toNat < 0x80
  clean : mode = .DHGR → ∀ p o, (f.main.pageOffset p o).toNat < 0x80

/-- Inputs of a movie: a non-zero frame stride, no negative size limit, quantised audio
samples, legal frames; the threshold of frame 0 is 0. -/
structure MovieInput (M : Movie) (audio : List Int) (frames : List Frame) : Prop where
  stride : M.everyN ≠ 0
  limit : 0 ≤ M.limit
  thr0 : M.thr 0 = 0
  audio : ∀ a ∈ audio, -15 ≤ a ∧ a ≤ 16
  frames : ∀ f ∈ frames, MovieFrame M.mode f

/-- Number of frames fetched by the end of tick `t` (while frames last): at each tick one
frame is fetched if the threshold of the next one has been reached. -/
def fetched (thr : Nat → Nat) : Nat → Nat
  | 0 => 0
  | t + 1 => if thr (fetched thr t) ≤ t + 1 then fetched thr t + 1 else fetched thr t

/-- Index of the frame being shown after `k ≥ 1` fetched frames with stride `n`: the last
fetched one that is a multiple of `n`. -/
def shown (n : Int) (k : Nat) : Nat := (k - 1) / n.natAbs * n.natAbs

/-- Tick at which frame `k` is due: its threshold, but frames come one per tick, so frame `k`
cannot come before tick `k + 1`. -/
def due (thr : Nat → Nat) (k : Nat) : Nat := max (k + 1) (thr k)

/-- At least one tick per frame (and frame 0 is due at once). -/
structure Paced (thr : Nat → Nat) : Prop where
  zero : thr 0 = 0
  step : ∀ k, thr k + 1 ≤ thr (k + 1)

/-- What a tick does to the screen. -/
def playTick (m : Mem × Mem) (x : Played) : Mem × Mem :=
  x.offsets.foldl (fun m o => storeBank m x.bank (Fin.ofNat 32 (x.page - 32)) o x.content) m

/-- The bank of a tick of the stream. -/
def tickBank (l : List Played) (i : Nat) : Bool := match l[i]? with
  | some x => x.bank
  | none => false

/-- Start encoding the frame shown after `k` fetched frames, for a bank. -/
def startShown (M : Movie) (F : List Frame) (k : Nat) (b : Bool) : List Call :=
  match F[shown M.everyN k]? with
  | some f => match M.bitmapOf f with
    | .ok T => [.start T b]
    | .error _ => []
  | none => []

/-- What is done with the frame encoder for tick `i` (counted from 0), if the bytes of tick `i` go to bank `bank i`: a frame that
has just been fetched is started if its index is a multiple of the stride, and if the bank has changed since the last tick the
current frame is started for the new bank; then one operation is taken. -/
def tickCalls (M : Movie) (F : List Frame) (bank : Nat → Bool) (i : Nat) : List Call :=
  (if fetched M.thr (i + 1) ≠ fetched M.thr i ∧ M.everyN ∣ (fetched M.thr i : Int) then
    startShown M F (fetched M.thr (i + 1)) (bank i) ++ [.reset] else []) ++
  (if i ≠ 0 ∧ bank i ≠ bank (i - 1) then startShown M F (fetched M.thr (i + 1)) (bank i) else []) ++ [.pull]

/-- ... for the first `n` ticks. -/
def movieCalls (M : Movie) (F : List Frame) (bank : Nat → Bool) (n : Nat) : List Call :=
  (List.range n).flatMap (tickCalls M F bank)

end IIVision.Spec
