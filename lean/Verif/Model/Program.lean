import Verif.Model.Grabber
import Verif.Model.Audio

/-! Model of transcoder/main.py: the whole transcoder, as two threads.

The main thread runs `for b in m.emit_stream(m.encode()): out.write(b)`; whenever the encoder
calls `next(video_frames)` it may have to wait for the conversion thread of frame_grabber.py.  In
each step one of the threads runs up to its next operation on the shared queue (or the main thread
up to the next `yield` of `encode`).  The output is a list of bytes here (see `Model/Disk.lean`
for the file); `print` is not modelled; the audio stream does not fail here after it has
been opened (see `Model/SoundFail.lean` for that). -/

namespace IIVision

/-- The command line (main.py:9-42), except `--audio_bitrate`, which only enters into the decoding
of the audio and into `ticks_per_frame` (see `World.thr`). -/
structure Args where
  input : Text
  output : Option Text
  /-- `--max_output_mb` -/
  maxMb : Rat
  /-- `--audio_normalization` -/
  normalization : Option Flt
  /-- `--every_n_video_frames` -/
  everyN : Int
  mode : VideoMode
  palette : Palette

/-- What the program finds: the input as decoded by the libraries, the external converter, the
data files, the floating point unit and the random numbers. -/
structure World where
  rnd : Rat → Flt
  bad : Flt → Int
  /-- decoded samples of the first 10 Mb -/
  analysed : List Rat
  /-- decoded samples, in chunks -/
  chunks : List (List Flt)
  images : List (List U8)
  readError : Option PyErr
  tool : Nat → List Text → FS → Except PyErr FS
  addr : AddrTable
  table : EditTable
  thr : Nat → Nat
  tape : Nat → Nat

/-- main.py:47-55, movie.py:16-54: `1024. * 1024 * args.max_output_mb` is exact. -/
def Args.movie (a : Args) (w : World) : Movie :=
  { mode := a.mode, everyN := a.everyN, limit := 1024 * 1024 * a.maxMb, addr := w.addr,
    table := w.table, thr := w.thr }

/-- movie.py:35-36 -/
def Args.grabber (a : Args) (w : World) : Grabber :=
  { filename := a.input, mode := a.mode, palette := a.palette, images := w.images,
    readError := w.readError, tool := w.tool }

/-- movie.py:31-33, 67: the samples of `self.audio.audio_stream()`. -/
def Args.audio (a : Args) (w : World) : Except PyErr (List Int) :=
  audioStream w.rnd w.bad a.normalization w.analysed w.chunks

/-- Where the main thread is. -/
inductive MainStatus where
  /-- about to resume `encode()` -/
  | running
  /-- in `next(video_frames)` -/
  | asking
  /-- the output file is complete and closed -/
  | finished
  /-- terminated by an exception -/
  | raised (e : PyErr)
  deriving DecidableEq

/-- State of the transcoder. -/
structure Prog where
  /-- frame grabber: conversion thread, queue, files, and the `frames()` generator -/
  g : GState
  /-- `frames()` has been resumed for the first time: the conversion thread exists -/
  started : Bool
  main : MainStatus
  /-- the `encode()` generator; its frames come from `g` -/
  coder : Coder
  /-- `stream_pos` -/
  pos : Nat
  /-- `aux_memory_bank` -/
  aux : Bool
  /-- the bytes written to the output file -/
  out : List Nat

/-- movie.py:67-72, video.py:64-70: resuming `encode()` will call `next(video_frames)`. -/
def Coder.needsFrame (M : Movie) (c : Coder) : Bool :=
  match c.phase with
  | .new => false
  | _ => match c.audio with
    | [] => false
    | _ :: _ => decide (M.thr c.frameNumber ≤ c.ticks + 1)

/-- movie.py:131-150, main.py:67-69: resume `encode()`, given what `next(video_frames)` returns (a
frame, or nothing: StopIteration) if it is called, and write what `emit_stream` makes of it. -/
def Prog.resume (M : Movie) (s : Prog) (frames : List Frame) : Prog :=
  match Coder.next M s.aux { s.coder with frames := frames } with
  | .error e => { s with main := .raised e }
  | .ok none => { s with main := .finished, out := s.out ++ (M.done s.pos).2 }
  | .ok (some (op, c)) =>
    if M.atLimit s.pos then { s with main := .finished, out := s.out ++ (M.done s.pos).2 }
    else
      let b := op.emit M.addr
      match M.ackIfDue (s.pos + b.length) s.aux with
      | .error e => { s with main := .raised e, out := s.out ++ b }
      | .ok (_, b1, pos, aux) =>
        { s with main := .running, coder := c, pos, aux, out := s.out ++ b ++ b1 }

/-- One step of the main thread; `none` if it has to wait, or is done. -/
def Prog.mainStep (M : Movie) (s : Prog) : Option Prog :=
  match s.main with
  | .running =>
    if s.coder.needsFrame M then
      if s.started then
        match s.g.consumerStep with
        | some g => some { s with g, main := .asking }
        | none => none
      else some { s with started := true, main := .asking }
    else some (s.resume M [])
  | .asking =>
    match s.g.consumerStep with
    | none => none
    | some g =>
      match g.consumer with
      | .yielded => some ({ s with g }.resume M g.out.getLast?.toList)
      | .finished => some ({ s with g }.resume M [])
      | .raised e => some { s with g, main := .raised e }
      | _ => some { s with g }
  | .finished => none
  | .raised _ => none

/-- One step of the conversion thread. -/
def Prog.workerStep (G : Grabber) (s : Prog) : Option Prog :=
  if s.started then
    match G.workerStep s.g with
    | some g => some { s with g }
    | none => none
  else none

/-- main.py:45-66: everything has been set up, nothing written. -/
def Prog.start (M : Movie) (G : Grabber) (tape : Nat → Nat) (audio : List Int) (fs : FS) :
    Except PyErr Prog := do
  let c ← M.start tape audio []
  return { g := G.start fs, started := false, main := .running, coder := c, pos := 0, aux := false,
           out := [] }

/-- A step of either thread. -/
inductive Prog.Step (M : Movie) (G : Grabber) : Prog → Prog → Prop
  | worker {s t : Prog} : s.workerStep G = some t → Prog.Step M G s t
  | main {s t : Prog} : s.mainStep M = some t → Prog.Step M G s t

/-- `n` steps, in any interleaving. -/
inductive Prog.Steps (M : Movie) (G : Grabber) : Nat → Prog → Prog → Prop
  | zero (s : Prog) : Prog.Steps M G 0 s s
  | succ {n : Nat} {s t u : Prog} : Prog.Steps M G n s t → Prog.Step M G t u → Prog.Steps M G (n + 1) s u

/-- main.py:45-69: the state before the loop of line 68, for a command line; the audio is opened
and analysed first (movie.py:31). -/
def Args.start (a : Args) (w : World) (fs : FS) : Except PyErr Prog := do
  let audio ← a.audio w
  Prog.start (a.movie w) (a.grabber w) w.tape audio fs

end IIVision
