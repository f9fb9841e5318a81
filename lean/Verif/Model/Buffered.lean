import Verif.Model.Entire

/-! Model of transcoder/main.py:67-69 with the buffer of the output file.

`open(out_filename, "wb")` gives an `io.BufferedWriter`, library code modelled after CPython 3.11, Modules/_io/bufferedio.c
(`_io_BufferedWriter_write_impl`, `_bufferedwriter_flush_unlocked`, `buffered_close`) as far as one byte at a time is concerned.  A byte
goes into a buffer in memory; a byte that finds the buffer full has it written to the file first; leaving the `with` block, also by an
exception, writes what is left.  Each `write` of the operating system may take only a part, or fail.

Everything else is as in `Model/Entire.lean`.  Not modelled: a `write` that takes nothing without failing; somebody else
changing the file meanwhile. -/

namespace IIVision

/-- main.py:69: the operating system below `out.write`: the `n`-th `write` on the output file fails with an exception (for example a full disk), or takes at most
`k + 1` of the bytes it is offered. -/
abbrev Device := Nat → Except PyErr Nat

/-- main.py:67-69: a running transcoder with an output buffer. -/
structure Session where
  /-- the two threads and the disk, where the output file has the bytes written by the operating system -/
  prog : Prog
  /-- bytes `emit_stream` yields before it resumes `encode()` (or ends), not yet written -/
  todo : List Nat
  /-- the buffer: `buffer[write_pos:write_end]` -/
  buf : List U8
  /-- in the loop of `_bufferedwriter_flush_unlocked`, because of a byte that found the buffer full -/
  flushing : Bool
  /-- calls of `write` so far -/
  calls : Nat
  /-- the `with` block has been left, the file is closed -/
  closed : Bool
  /-- the exception of `out.write` or of leaving the `with` block -/
  error : Option PyErr

/-- main.py:69: the file with some more bytes at its end. -/
def Prog.append (name : Text) (b : List U8) (s : Prog) : Prog :=
  s.onDisk (s.disk.put name ((s.disk name).getD [] ++ b))

/-- main.py:68: the loop is over, by its end or by an exception. -/
def Session.over (s : Session) : Bool :=
  s.todo.isEmpty && (s.error.isSome || match s.prog.main with
    | .finished | .raised _ => true
    | _ => false)

/-- bufferedio.c, `_bufferedwriter_flush_unlocked`: one iteration of the loop.  A failure in `out.write` ends the loop of main.py:68, and
the file will be closed; a failure while closing leaves the rest of the buffer unwritten (`buffered_close`: the file is closed all the same). -/
def Session.rawWrite (name : Text) (dev : Device) (s : Session) : Session :=
  match dev s.calls with
  | .error e => { s with calls := s.calls + 1, flushing := false, todo := [], error := some e, closed := s.over }
  | .ok k => { s with calls := s.calls + 1, flushing := true, prog := s.prog.append name (s.buf.take (k + 1)), buf := s.buf.drop (k + 1) }

/-- The main thread: main.py:67-69.  `none` if it has to wait, or is done. -/
def Session.mainStep (P : Setup) (size : Nat) (dev : Device) (s : Session) : Option Session :=
  if s.closed then none
  else match s.todo with
  | b :: rest =>
    -- `bytearray([b])`
    if 256 ≤ b then some { s with todo := [], error := some .valueError }
    -- `_io_BufferedWriter_write_impl`
    else if s.buf.length < size && !(s.flushing && !s.buf.isEmpty) then
      some { s with todo := rest, buf := s.buf ++ [BitVec.ofNat 8 b], flushing := false }
    else some (s.rawWrite P.name dev)
  | [] =>
    if s.over then
      -- leaving the `with` block: `buffered_close`
      if s.buf.isEmpty then some { s with closed := true } else some (s.rawWrite P.name dev)
    else (s.prog.mainStepW P.movie P.next).map fun t => { s with prog := t, todo := t.out.drop s.prog.out.length }

/-- A step of either thread: main.py:68-69, or frame_grabber.py:117-127. -/
inductive Session.Step (P : Setup) (size : Nat) (dev : Device) : Session → Session → Prop
  | worker {s : Session} {t : Prog} : s.prog.workerStep P.grabber = some t → Session.Step P size dev s { s with prog := t }
  | main {s t : Session} : s.mainStep P size dev = some t → Session.Step P size dev s t

/-- `n` steps, in any interleaving. -/
inductive Session.Steps (P : Setup) (size : Nat) (dev : Device) : Nat → Session → Session → Prop
  | zero (s : Session) : Session.Steps P size dev 0 s s
  | succ {n : Nat} {s t u : Session} : Session.Steps P size dev n s t → Session.Step P size dev t u → Session.Steps P size dev (n + 1) s u

/-- main.py:67: the file has just been opened, and is empty (`Prog.save`). -/
def Session.start (s : Prog) : Session :=
  { prog := s, todo := [], buf := [], flushing := false, calls := 0, closed := false, error := none }

/-- main.py:67-73: how the main thread ends, once the file is closed. -/
def Session.ending (s : Session) : MainStatus :=
  match s.error with
  | some e => .raised e
  | none => s.prog.main

end IIVision
