import Verif.Model.Buffered

/-! Model of transcoder/main.py:67-69 when the user presses Ctrl-C.

Python raises `KeyboardInterrupt` in the main thread, wherever that is (also while it waits in `q.get()`, frame_grabber.py:133, and between two calls of `write` in the
loop of `_bufferedwriter_flush_unlocked`); nothing in the transcoder catches it, so it ends the loop, and leaving the `with` block closes the file.  A Ctrl-C that comes when the file
is already being closed: see below. -/

namespace IIVision

/-- main.py:67-69: what Ctrl-C does; `ki` stands for `KeyboardInterrupt`, which plays no role elsewhere. -/
inductive Session.Interrupt (ki : PyErr) : Session → Session → Prop
  /-- In the loop of main.py:68-69: the byte at hand, and those that would have followed, are not written any more. -/
  | loop {s : Session} : s.closed = false → s.over = false →
      Session.Interrupt ki s { s with todo := [], flushing := false, error := some ki }
  /-- The loop is over, but closing has not begun (the file is closed later at the latest when it is deallocated). -/
  | before {s : Session} : s.closed = false → s.over = true → Session.Interrupt ki s { s with error := some ki }
  /-- While the buffer is written by closing the file (`buffered_close`): the file is closed all the same, and what is left in the buffer is lost. -/
  | closing {s : Session} : s.closed = false → s.over = true → Session.Interrupt ki s { s with error := some ki, closed := true }

/-- main.py:67-69, frame_grabber.py:117-127: a run of both threads, in any interleaving, with `k` times Ctrl-C at any moments. -/
inductive Session.Runs (P : Setup) (size : Nat) (dev : Device) (ki : PyErr) : Nat → Session → Session → Prop
  | start (s : Session) : Session.Runs P size dev ki 0 s s
  | step {k : Nat} {s t u : Session} : Session.Runs P size dev ki k s t → Session.Step P size dev t u → Session.Runs P size dev ki k s u
  | interrupt {k : Nat} {s t u : Session} : Session.Runs P size dev ki k s t → Session.Interrupt ki t u → Session.Runs P size dev ki (k + 1) s u

end IIVision
