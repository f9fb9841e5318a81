import Verif.Model.Video
import Verif.Model.Opcodes

/-! Model of transcoder/movie.py and `Video.tick`: multiplexing of audio and video into the
byte stream.

The generator returned by `Movie.encode` is a value of type `Coder`; `Coder.next` resumes it
until its next `yield`.  It is resumed from the loop of `emit_stream`, which changes the
`aux_memory_bank` attribute that the generator reads: the current value of that attribute is
passed to every resumption.  Audio samples and converted frames are the lists that the
`audio_stream` and `frames` generators would deliver. -/

namespace IIVision

/-- Constant attributes of a `Movie` and of the objects it owns (movie.py:16-54). -/
structure Movie where
  mode : VideoMode
  /-- `every_n_video_frames` -/
  everyN : Int
  /-- `max_bytes_out`; `None` and 0 both mean unlimited (movie.py:132) -/
  limit : Rat
  /-- `_START` of the opcode classes -/
  addr : AddrTable
  /-- edit distance table of the palette -/
  table : EditTable
  /-- least integer not below the float `ticks_per_frame * k` (video.py:67) -/
  thr : Nat → Nat

/-- An element of `frame_grabber.frames()`: `(main, aux)`, aux is None in HGR. -/
structure Frame where
  main : MemoryMap
  aux : Option MemoryMap

inductive Phase where
  /-- not yet resumed -/
  | new
  /-- suspended at movie.py:64 -/
  | header
  /-- suspended at movie.py:111 -/
  | loop
  deriving DecidableEq

/-- A suspended `encode()` generator and the attributes it works on. -/
structure Coder where
  phase : Phase
  /-- samples still to come from `audio_stream()` -/
  audio : List Int
  /-- frames still to come from `video_frames` -/
  frames : List Frame
  /-- `self.ticks` -/
  ticks : Nat
  /-- `self.video.frame_number` -/
  frameNumber : Nat
  /-- `self.video` -/
  v : Video
  rng : Rng
  /-- `op_seq` -/
  gen : Option Gen
  /-- `target_pixelmap`; `none` = unbound local variable -/
  target : Option Bitmap
  /-- `last_memory_bank` -/
  lastBank : Bool

/-- movie.py:81-91: the bitmap of a frame. -/
def Movie.bitmapOf (M : Movie) (f : Frame) : Except PyErr Bitmap :=
  match M.mode with
  | .DHGR => match f.aux with
    | some aux => DHGRBitmap.new f.main aux
    | none => .error .attributeError
  | .HGR => HGRBitmap.new f.main

/-- movie.py:76-79 `should_encode_frame` (`frame_number` already counts this frame). -/
def Movie.shouldEncode (M : Movie) (frameNumber : Nat) : Except PyErr Bool :=
  if M.everyN = 0 then .error .zeroDivisionError
  else .ok (((frameNumber : Int) - 1) % M.everyN == 0)

/-- movie.py:80-96: a new frame has been fetched. -/
def Coder.newFrame (M : Movie) (aux : Bool) (c : Coder) (f : Frame) : Except PyErr Coder := do
  if ← M.shouldEncode c.frameNumber then
    let target ← M.bitmapOf f
    return { c with target := some target, gen := some (.notStarted target aux),
                    v := { c.v with outOfWork := fun _ => false } }
  else return c

/-- movie.py:69-74 and video.py:64-70 `Video.tick`: `none` when there is no further frame. -/
def Coder.fetch (M : Movie) (aux : Bool) (c : Coder) : Except PyErr (Option Coder) :=
  if M.thr c.frameNumber ≤ c.ticks then
    match c.frames with
    | [] => .ok none
    | f :: fs => do
      let c ← Coder.newFrame M aux { c with frameNumber := c.frameNumber + 1, frames := fs } f
      return some c
  else .ok (some c)

/-- movie.py:98-102: restart the encoder when the memory bank has been flipped. -/
def Coder.flip (aux : Bool) (c : Coder) : Except PyErr Coder :=
  if aux ≠ c.lastBank then
    match c.target with
    | none => .error .unboundLocalError
    | some target => .ok { c with lastBank := aux, gen := some (.notStarted target aux) }
  else .ok c

/-- movie.py:104-111: the tick operation for a sample. -/
def Coder.tickOp (M : Movie) (c : Coder) (au : Int) : Except PyErr (Opcode × Coder) :=
  match c.gen with
  | none => .error .typeError
  | some g => do
    let (op, v, rng, g) ← c.v.next M.table c.rng g
    let (t, p) ← tickOpcodes (au * 2 + 34) op.page
    let o ← Opcode.newTick t p op.content op.offsets
    return (o, { c with v, rng, gen := some g })

/-- movie.py:67-111: one iteration of the loop over audio samples. -/
def Coder.iter (M : Movie) (aux : Bool) (c : Coder) (au : Int) :
    Except PyErr (Option (Opcode × Coder)) := do
  match ← Coder.fetch M aux { c with ticks := c.ticks + 1 } with
  | none => return none
  | some c =>
    let c ← c.flip aux
    let r ← c.tickOp M au
    return some r

/-- `next()` on the generator of movie.py:56-111; `none` = StopIteration. -/
def Coder.next (M : Movie) (aux : Bool) (c : Coder) : Except PyErr (Option (Opcode × Coder)) :=
  match c.phase with
  | .new => .ok (some (.header M.mode, { c with phase := .header }))
  | ph =>
    let c := if ph = .header then { c with phase := .loop, lastBank := aux } else c
    match c.audio with
    | [] => .ok none
    | au :: rest => Coder.iter M aux { c with audio := rest } au

/-- movie.py:152-161 `done`. -/
def Movie.done (M : Movie) (streamPos : Nat) : List Opcode × List Nat :=
  let b := Opcode.emit M.addr .terminate
  let streamPos := streamPos + b.length
  ([.terminate], b ++ List.replicate (2048 - streamPos % 2048) 0)

/-- movie.py:132: `self.max_bytes_out and self.stream_pos >= self.max_bytes_out`. -/
def Movie.atLimit (M : Movie) (streamPos : Nat) : Bool :=
  decide (M.limit ≠ 0 ∧ M.limit ≤ (streamPos : Rat))

/-- movie.py:138-148: insert an ACK at the end of a 2K frame.  Returns the opcodes and bytes
emitted, the new stream position and the new memory bank. -/
def Movie.ackIfDue (M : Movie) (streamPos : Nat) (aux : Bool) :
    Except PyErr (List Opcode × List Nat × Nat × Bool) := do
  if 2044 ≤ streamPos % 2048 then
    let aux := if M.mode = .DHGR then !aux else aux
    let b := Opcode.emit M.addr (.ack aux)
    let streamPos := streamPos + b.length
    pyAssert (decide (streamPos % 2048 = 0))
    return ([.ack aux], b, streamPos, aux)
  else return ([], [], streamPos, aux)

/-- movie.py:122-150 `emit_stream(ops)`: the loop, from a stream position and a memory
bank, over an iterator `ops` given by its state and its `next()`, which may read the current
memory bank (`Coder.next` does).  Returns the opcodes passed to `_emit_bytes` and all bytes
yielded.  The first argument bounds the number of iterations, i.e. a number of `next()`
calls after which the iterator is exhausted. -/
def Movie.emitLoop (M : Movie) {σ : Type} (next : Bool → σ → Except PyErr (Option (Opcode × σ))) :
    Nat → σ → Nat → Bool → Except PyErr (List Opcode × List Nat)
  | 0, _, streamPos, _ => .ok (M.done streamPos)
  | n + 1, s, streamPos, aux => do
    match ← next aux s with
    | none => return M.done streamPos
    | some (op, s) =>
      if M.atLimit streamPos then return M.done streamPos
      let b := op.emit M.addr
      let (ops1, b1, streamPos, aux) ← M.ackIfDue (streamPos + b.length) aux
      let (ops2, b2) ← Movie.emitLoop M next n s streamPos aux
      return (op :: ops1 ++ ops2, b ++ b1 ++ b2)

/-- The state of a new `Movie` (movie.py:31-54, video.py:21-62), with the given input. -/
def Movie.start (M : Movie) (tape : Nat → Nat) (audio : List Int) (frames : List Frame) :
    Except PyErr Coder := do
  let v ← Video.new M.mode
  return { phase := .new, audio, frames, ticks := 0, frameNumber := 0, v, rng := ⟨tape, 0⟩,
           gen := none, target := none, lastBank := false }

/-- main.py:67-69: all of `m.emit_stream(m.encode())`; the encoder yields one header and at
most one opcode per sample. -/
def Movie.stream (M : Movie) (tape : Nat → Nat) (audio : List Int) (frames : List Frame) :
    Except PyErr (List Opcode × List Nat) := do
  let c ← M.start tape audio frames
  M.emitLoop (Coder.next M) (audio.length + 2) c 0 false

end IIVision
