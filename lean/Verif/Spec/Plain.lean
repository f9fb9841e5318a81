import Verif.Spec.Program

/-! The transcoder without threads: a simple loop, which stops where the program would. -/

namespace IIVision.Spec

/-- How the loop ends. -/
inductive Ending where
  /-- the file is complete -/
  | complete
  /-- an exception -/
  | raised (e : PyErr)
  /-- the next frame never comes -/
  | waiting
  deriving DecidableEq

/-- The loop, from a state of the encoder that has all the frames there will be in a list (`o`: what
happens when one is asked for after the last), a stream position and a memory bank: the bytes written
and how it ends.  The number bounds the iterations. -/
def plainly (M : Movie) (o : Outcome) : Nat → Coder → Nat → Bool → List Nat × Ending
  | 0, _, _, _ => ([], .waiting)
  | n + 1, c, pos, aux =>
    match (if c.needsFrame M = true ∧ c.frames = [] then o else .ends) with
    | .raises e => ([], .raised e)
    | .hangs _ => ([], .waiting)
    | .ends =>
      match Coder.next M aux c with
      | .error e => ([], .raised e)
      | .ok none => ((M.done pos).2, .complete)
      | .ok (some (op, c)) =>
        if M.atLimit pos then ((M.done pos).2, .complete)
        else
          match M.ackIfDue (pos + (op.emit M.addr).length) aux with
          | .error e => (op.emit M.addr, .raised e)
          | .ok (_, b, pos, aux) =>
            let r := plainly M o n c pos aux
            (op.emit M.addr ++ b ++ r.1, r.2)

/-- The whole program as a simple loop: first the sound is opened, then all pictures are converted, one after the
other, then the stream is written. -/
def Args.plain (a : Args) (w : World) (fs : FS) : Except PyErr (List Nat × Ending) := do
  let audio ← a.audio w
  let c ← (a.movie w).start w.tape audio (Args.video a w fs).1
  return plainly (a.movie w) (Args.video a w fs).2 (audio.length + 2) c 0 false

/-- Where the main thread is when nothing can run any more. -/
def Ending.status : Ending → MainStatus
  | .complete => .finished
  | .raised e => .raised e
  | .waiting => .asking

end IIVision.Spec
