import Verif.Model.Program
import Verif.Model.Tables

/-! Model of the loading of the edit distance table: as `Model/Program.lean`, but the table is read from its file when it is
needed, i.e. when the first call of `encode_frame` compares pictures (screen.py:441), after which `lru_cache` keeps it.

`load` is what `edit_distances` (screen.py:343-367) returns or raises; it is the same at every call: the files do not change
during the run. -/

namespace IIVision

/-- video.py:79-93, 104-119 (as `startFrame`), reading the table at line 109 (screen.py:441; the assertions of `mask_and_shift_data` that
precede it at the first byte offset never fail and come after it here). -/
def startFrameT (load : Except PyErr EditTable) (v : Video) (r : Rng) (target : Bitmap) (isAux : Bool) :
    Except PyErr (Video × Rng × Grid Int × List Entry) := do
  let mem ← sourceMemory v isAux
  pyAssert (decide (∀ p o, screenHoles p o = true → mem.pageOffset p o = 0))
  let _ ← targetMemory v.mode target isAux
  let t ← load
  let dw ← v.mode.cls.diffWeights t v.pixelmap.packed target.packed isAux
  let dw := clearHoles dw
  let prio := accumulate (v.priority isAux) dw
  pyAssert (decide (∀ p o, prio p o ≥ 0))
  let (heap, r) := heapifyPriorities prio r
  return (v.setPriority isAux prio, r, dw, heap)

/-- `next(op_seq)` on an `encode_frame` generator (as `Video.next`). -/
def Video.nextT (load : Except PyErr EditTable) (v : Video) (r : Rng) : Gen → Except PyErr (VideoOp × Video × Rng × Gen)
  | .notStarted target isAux => do
    let (v, r, dw, heap) ← startFrameT load v r target isAux
    let t ← load
    outerLoop t target isAux dw heap.length v r heap
  | .running target isAux dw heap => do
    let t ← load
    outerLoop t target isAux dw heap.length v r heap
  | .padding target isAux => do
    let op ← padOp v target isAux
    return (op, v, r, .padding target isAux)

/-- movie.py:104-111 (as `Coder.tickOp`). -/
def Coder.tickOpT (load : Except PyErr EditTable) (c : Coder) (au : Int) : Except PyErr (Opcode × Coder) :=
  match c.gen with
  | none => .error .typeError
  | some g => do
    let (op, v, rng, g) ← c.v.nextT load c.rng g
    let (t, p) ← tickOpcodes (au * 2 + 34) op.page
    let o ← Opcode.newTick t p op.content op.offsets
    return (o, { c with v, rng, gen := some g })

/-- movie.py:67-111 (as `Coder.iter`). -/
def Coder.iterT (M : Movie) (load : Except PyErr EditTable) (aux : Bool) (c : Coder) (au : Int) :
    Except PyErr (Option (Opcode × Coder)) := do
  match ← Coder.fetch M aux { c with ticks := c.ticks + 1 } with
  | none => return none
  | some c =>
    let c ← c.flip aux
    let r ← c.tickOpT load au
    return some r

/-- movie.py:56-111 (as `Coder.next`). -/
def Coder.nextT (M : Movie) (load : Except PyErr EditTable) (aux : Bool) (c : Coder) : Except PyErr (Option (Opcode × Coder)) :=
  match c.phase with
  | .new => .ok (some (.header M.mode, { c with phase := .header }))
  | ph =>
    let c := if ph = .header then { c with phase := .loop, lastBank := aux } else c
    match c.audio with
    | [] => .ok none
    | au :: rest => Coder.iterT M load aux { c with audio := rest } au

/-- movie.py:131-150, main.py:67-69 (as `Prog.resume`). -/
def Prog.resumeT (M : Movie) (load : Except PyErr EditTable) (s : Prog) (frames : List Frame) : Prog :=
  match Coder.nextT M load s.aux { s.coder with frames := frames } with
  | .error e => { s with main := .raised e }
  | .ok none => { s with main := .finished, out := s.out ++ (M.done s.pos).2 }
  | .ok (some (op, c)) =>
    if M.atLimit s.pos then { s with main := .finished, out := s.out ++ (M.done s.pos).2 }
    else
      let b := op.emit M.addr
      match M.ackIfDue (s.pos + b.length) s.aux with
      | .error e => { s with main := .raised e, out := s.out ++ b }
      | .ok (_, b1, pos, aux) =>
        { s with main := .running, coder := c, pos, aux, out := s.out ++ b ++ b1 }

/-- One step of the main thread (as `Prog.mainStep`). -/
def Prog.mainStepT (M : Movie) (load : Except PyErr EditTable) (s : Prog) : Option Prog :=
  match s.main with
  | .running =>
    if s.coder.needsFrame M then
      if s.started then
        match s.g.consumerStep with
        | some g => some { s with g, main := .asking }
        | none => none
      else some { s with started := true, main := .asking }
    else some (s.resumeT M load [])
  | .asking =>
    match s.g.consumerStep with
    | none => none
    | some g =>
      match g.consumer with
      | .yielded => some ({ s with g }.resumeT M load g.out.getLast?.toList)
      | .finished => some ({ s with g }.resumeT M load [])
      | .raised e => some { s with g, main := .raised e }
      | _ => some { s with g }
  | .finished => none
  | .raised _ => none

/-- A step of either thread. -/
inductive Prog.StepT (M : Movie) (G : Grabber) (load : Except PyErr EditTable) : Prog → Prog → Prop
  | worker {s t : Prog} : s.workerStep G = some t → Prog.StepT M G load s t
  | main {s t : Prog} : s.mainStepT M load = some t → Prog.StepT M G load s t

/-- `n` steps, in any interleaving. -/
inductive Prog.StepsT (M : Movie) (G : Grabber) (load : Except PyErr EditTable) : Nat → Prog → Prog → Prop
  | zero (s : Prog) : Prog.StepsT M G load 0 s s
  | succ {n : Nat} {s t u : Prog} : Prog.StepsT M G load n s t → Prog.StepT M G load t u → Prog.StepsT M G load (n + 1) s u

end IIVision
