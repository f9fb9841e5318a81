import Verif.Model.Video
import Verif.Spec.Window
import Verif.Spec.Bitmap

/-! Vocabulary for the properties of the frame encoder: histories of calls, what was
observed at each `next()`, a player that executes the emitted operations, and the
weights/errors of screen cells in terms of windows and the distance table. -/

namespace IIVision.Spec

/-- Main and aux bank of a bitmap. -/
def banks (b : Bitmap) : Mem × Mem := (b.bank false, b.bank true)

/-- Bytes that are displayed (see C02). -/
def Displayed (o : Fin 256) : Prop := o.val % 128 < 120

instance (o : Fin 256) : Decidable (Displayed o) := inferInstanceAs (Decidable (_ < _))

/-- Table distance between what screens `m` and `m'` show around the byte at `(p, o)` of
a bank. -/
def windowDist (mode : VideoMode) (t : EditTable) (m m' : Mem × Mem) (isAux : Bool)
    (p : Fin 32) (o : Fin 256) : Nat :=
  (t (mode.kOf isAux o) (winVal mode m.1 m.2 isAux p o * 2 ^ mode.cls.maskedBits
    + winVal mode m'.1 m'.2 isAux p o)).toNat

/-- Weight of a cell when a frame starts: distance between the current screen and the
target, zero for undisplayed bytes. -/
def weight (mode : VideoMode) (t : EditTable) (src tgt : Mem × Mem) (isAux : Bool)
    (p : Fin 32) (o : Fin 256) : Nat :=
  if Displayed o then windowDist mode t src tgt isAux p o else 0

/-- Error of having byte `c` instead of the target's own byte at a cell of the target. -/
def storeError (mode : VideoMode) (t : EditTable) (tgt : Mem × Mem) (isAux : Bool)
    (p : Fin 32) (o : Fin 256) (c : U8) : Nat :=
  windowDist mode t tgt (storeBank tgt isAux p o c) isAux p o

/-- A frame that may be passed to `encode_frame`: a bitmap of the video mode, for an
existing bank, without palette bits in DHGR. -/
structure LegalFrame (mode : VideoMode) (target : Bitmap) (isAux : Bool) : Prop where
  valid : target.Valid mode
  aux : AuxOk mode isAux
  clean : mode = .DHGR → ∀ p o, (target.bank isAux p o).toNat < 0x80

/-- What the owner of a `Video` object does with it. -/
inductive Call where
  /-- `op_seq = video.encode_frame(target, is_aux)` (any previous generator is dropped) -/
  | start (target : Bitmap) (isAux : Bool)
  /-- `next(op_seq)` -/
  | pull
  /-- `video.out_of_work = {True: False, False: False}` (movie.py:96) -/
  | reset

def Call.isStart : Call → Bool
  | .start _ _ => true
  | _ => false

def Call.Legal (mode : VideoMode) : Call → Prop
  | .start target isAux => LegalFrame mode target isAux
  | _ => True

/-- A legal history: it begins by starting a frame and every frame is legal. -/
structure Legal (mode : VideoMode) (calls : List Call) : Prop where
  each : ∀ c ∈ calls, c.Legal mode
  first : ∀ c, calls.head? = some c → c.isStart = true

/-- The `Video` object, the current generator and the random tape.  `startV` is a ghost:
the object as it was when the current generator was first resumed. -/
structure Enc where
  v : Video
  gen : Option Gen
  rng : Rng
  startV : Video

def Enc.init (mode : VideoMode) (tape : Nat → Nat) : Except PyErr Enc := do
  let v ← Video.new mode
  return { v, gen := none, rng := ⟨tape, 0⟩, startV := v }

def _root_.IIVision.Gen.target : Gen → Bitmap
  | .notStarted t _ => t
  | .running t _ _ _ => t
  | .padding t _ => t

def _root_.IIVision.Gen.isAux : Gen → Bool
  | .notStarted _ a => a
  | .running _ a _ _ => a
  | .padding _ a => a

def _root_.IIVision.Gen.isNew : Gen → Bool
  | .notStarted _ _ => true
  | _ => false

def _root_.IIVision.Gen.isPadding : Gen → Bool
  | .padding _ _ => true
  | _ => false

/-- Record of one `next()`: frame, bank, whether it was the first of its generator, the
object when the frame was started, before and after, the operation, and whether it was a
padding operation (the generator has run out of work). -/
structure Step where
  target : Bitmap
  isAux : Bool
  first : Bool
  startV : Video
  before : Video
  op : VideoOp
  after : Video
  padding : Bool

def Enc.call (t : EditTable) (e : Enc) : Call → Except PyErr (Enc × List Step)
  | .start target isAux => .ok ({ e with gen := some (.notStarted target isAux) }, [])
  | .reset => .ok ({ e with v := { e.v with outOfWork := fun _ => false } }, [])
  | .pull => match e.gen with
    | none => .error .typeError
    | some g => do
      let startV := if g.isNew then e.v else e.startV
      let (op, v, rng, g') ← e.v.next t e.rng g
      return ({ v, gen := some g', rng, startV },
        [{ target := g.target, isAux := g.isAux, first := g.isNew, startV, before := e.v, op,
           after := v, padding := g'.isPadding }])

/-- A whole history; the records of all its `next()` calls in order. -/
def Enc.run (t : EditTable) : Enc → List Call → Except PyErr (Enc × List Step)
  | e, [] => .ok (e, [])
  | e, c :: cs => do
    let (e, s) ← e.call t c
    let (e, ss) ← Enc.run t e cs
    return (e, s ++ ss)

/-- A history starting from a new `Video` object. -/
def runNew (mode : VideoMode) (t : EditTable) (tape : Nat → Nat) (calls : List Call) :
    Except PyErr (Enc × List Step) := do
  let e ← Enc.init mode tape
  e.run t calls

/-- Priority of a cell at the start of the step's frame: nothing if the cell needs no
change, else what had accumulated before plus the new weight. -/
def Step.startPriority (s : Step) (t : EditTable) (p : Fin 32) (o : Fin 256) : Int :=
  let w := weight s.startV.mode t (banks s.startV.pixelmap) (banks s.target) s.isAux p o
  if w = 0 then 0 else s.startV.priority s.isAux p o + w

/-- Pending priorities just before the step's operation is chosen. -/
def Step.pending (s : Step) (t : EditTable) (p : Fin 32) (o : Fin 256) : Int :=
  if s.first then s.startPriority t p o else s.before.priority s.isAux p o

/-- The page index 0..31 an operation addresses. -/
def _root_.IIVision.VideoOp.pageIx (op : VideoOp) : Fin 32 := Fin.ofNat 32 (op.page - 32)

/-- A player storing an operation's content byte at its offsets, in order, in a bank. -/
def playOp (m : Mem × Mem) (isAux : Bool) (op : VideoOp) : Mem × Mem :=
  op.offsets.foldl (fun m o => storeBank m isAux op.pageIx o op.content) m

/-- A player executing all the operations of a history. -/
def play (m : Mem × Mem) (steps : List Step) : Mem × Mem :=
  steps.foldl (fun m s => playOp m s.isAux s.op) m

/-- The memory of one bank. -/
def bankOf (m : Mem × Mem) (isAux : Bool) : Mem := if isAux then m.2 else m.1

/-- The all-zero screen. -/
def blank : Mem × Mem := (fun _ _ => 0, fun _ _ => 0)

end IIVision.Spec
