import Verif.Model.TableLoad
import Verif.Model.SoundFail
import Verif.Model.Disk
import Verif.Model.CommandLine
import Verif.Model.Pace
import Verif.Model.Pcm

/-! Model of transcoder/main.py from the words of the command line to the files on the disk: all that the parts before this one model
separately (the command line, the sound and its end, the pace of the frames, the tables, the threads, the output file), in one program.

Not modelled: the resampler failing. -/

namespace IIVision

/-- How the program can end before it has an output file. -/
inductive Stop where
  | exit (x : Exit)
  | exception (e : PyErr)
  deriving DecidableEq

/-- What the program finds. -/
structure Host where
  /-- `float` and `int` on texts -/
  reads : Reads
  /-- rounding to double precision -/
  double : Rat → Rat
  /-- rounding of audio samples -/
  rnd : Rat → Flt
  bad : Flt → Int
  /-- channels of the sound, and the resampler for a bitrate -/
  format : Int → Pcm.Format
  /-- what `f.read_data()` delivers (audio.py:75), and the exception that ends it, if there is one: of `audio_open` (audio.py:74; no
  buffers), or of reading on -/
  analysed : List (List U8)
  analysisError : Option PyErr := none
  /-- what `f.read_data(128 * 1024)` delivers (audio.py:90), and how it ends; an exception without buffers can be that of `audio_open`
  (audio.py:89) -/
  buffers : List (List U8)
  soundError : Option PyErr
  /-- `data['@r_frame_rate']` (frame_grabber.py:37-38), or the exception of ffprobe -/
  rate : Except PyErr Text
  images : List (List U8)
  readError : Option PyErr
  tool : Nat → List Text → FS → Except PyErr FS
  /-- the debug file of the player -/
  addr : AddrTable
  /-- the data directory -/
  files : List (Text × EditTable)
  tape : Nat → Nat
  /-- opening a file for writing -/
  openError : Text → Option PyErr

/-- audio.py:44-45, 64-82: the normalisation; if it is not given (or 0, which counts as not given), the sound is read until there are more than `read_bytes`
(`Pcm.Format.normalization`), so an exception met before that ends the program. -/
def Host.normalize (H : Host) (c : Command) : Except PyErr Flt :=
  match H.analysisError with
  | none => (H.format c.bitrate).normalization H.rnd c.normalization H.analysed
  | some e =>
    if (c.normalization = none ∨ c.normalization = some (.fin 0)) ∧ (Pcm.collect Pcm.readBytes [] H.analysed).length ≤ Pcm.readBytes then .error e
    else (H.format c.bitrate).normalization H.rnd c.normalization H.analysed

/-- main.py:52 `max_bytes_out=1024. * 1024 * args.max_output_mb` (exact; an overflow is not modelled). -/
def maxBytes : Flt → Flt
  | .fin x => .fin (1024 * 1024 * x)
  | x => x

/-- movie.py:132 `self.max_bytes_out and self.stream_pos >= self.max_bytes_out`: a NaN is true, and no number is `>=` it. -/
def limitReached (max : Flt) (pos : Nat) : Bool :=
  match max with
  | .fin q => decide (q ≠ 0) && decide (q ≤ pos)
  | .posInf => false
  | .negInf => true
  | .nan => false

/-- A number of bytes that has the same effect as the limit: 0 is no limit (`limit_same`). -/
def limitNumber : Flt → Rat
  | .fin q => q
  | .posInf => 0
  | .negInf => -1
  | .nan => 0

/-- The objects of a run, after main.py:66. -/
structure Setup where
  movie : Movie
  grabber : Grabber
  /-- what `edit_distances` will return or raise -/
  load : Except PyErr EditTable
  /-- how the stream of samples ends -/
  soundEnd : Option PyErr
  /-- the output file -/
  name : Text

/-- movie.py:56-111: `next()` on `encode()`, with a table that has yet to be read (`Coder.nextT`) and a stream of samples that
can end in an exception, which movie.py:67 meets when it asks for the next sample. -/
def Setup.next (P : Setup) (aux : Bool) (c : Coder) : Except PyErr (Option (Opcode × Coder)) :=
  match P.soundEnd with
  | some e => if c.phase ≠ .new ∧ c.audio = [] then .error e else Coder.nextT P.movie P.load aux c
  | none => Coder.nextT P.movie P.load aux c

/-- movie.py:131-150, main.py:67-69: as `Prog.resume`. -/
def Prog.resumeW (M : Movie) (nx : Bool → Coder → Except PyErr (Option (Opcode × Coder))) (s : Prog) (frames : List Frame) : Prog :=
  match nx s.aux { s.coder with frames := frames } with
  | .error e => { s with main := .raised e }
  | .ok none => { s with main := .finished, out := s.out ++ (M.done s.pos).2 }
  | .ok (some (op, c)) =>
    if M.atLimit s.pos then { s with main := .finished, out := s.out ++ (M.done s.pos).2 }
    else
      let b := op.emit M.addr
      match M.ackIfDue (s.pos + b.length) s.aux with
      | .error e => { s with main := .raised e, out := s.out ++ b }
      | .ok (_, b1, pos, aux) =>
        { s with main := .running, coder := c, pos, aux, out := s.out ++ b ++ b1 }

/-- One step of the main thread, collecting the bytes: as `Prog.mainStep`. -/
def Prog.mainStepW (M : Movie) (nx : Bool → Coder → Except PyErr (Option (Opcode × Coder))) (s : Prog) : Option Prog :=
  match s.main with
  | .running =>
    if s.coder.needsFrame M then
      if s.started then
        match s.g.consumerStep with
        | some g => some { s with g, main := .asking }
        | none => none
      else some { s with started := true, main := .asking }
    else some (s.resumeW M nx [])
  | .asking =>
    match s.g.consumerStep with
    | none => none
    | some g =>
      match g.consumer with
      | .yielded => some ({ s with g }.resumeW M nx g.out.getLast?.toList)
      | .finished => some ({ s with g }.resumeW M nx [])
      | .raised e => some { s with g, main := .raised e }
      | _ => some { s with g }
  | .finished => none
  | .raised _ => none

/-- A step of either thread, on the disk (`Prog.write`: main.py:69). -/
inductive Setup.Step (P : Setup) : Prog → Prog → Prop
  | worker {s t : Prog} : s.workerStep P.grabber = some t → Setup.Step P s t
  | main {s t : Prog} : (s.mainStepW P.movie P.next).map (Prog.write P.name s.out.length) = some t → Setup.Step P s t

/-- `n` steps, in any interleaving. -/
inductive Setup.Steps (P : Setup) : Nat → Prog → Prog → Prop
  | zero (s : Prog) : Setup.Steps P 0 s s
  | succ {n : Nat} {s t u : Prog} : Setup.Steps P n s t → Setup.Step P t u → Setup.Steps P (n + 1) s u

def Stop.lift {α : Type} : Except PyErr α → Except Stop α
  | .ok x => .ok x
  | .error e => .error (.exception e)

/-- main.py:73 and 45-67, movie.py:16-54: everything up to the opening of the output file, which empties it. -/
def launch (H : Host) (argv : List Text) (fs : FS) : Except Stop (Setup × Prog) := do
  let c ← match parseArgs H.reads argv with
    | .ok c => .ok c
    | .error x => .error (.exit x)
  let F := H.format c.bitrate
  let norm ← Stop.lift (H.normalize c)
  let text ← Stop.lift H.rate
  let rate ← Stop.lift (frameRate H.double text)
  let tpf ← Stop.lift (ticksPerFrame H.double c.bitrate rate)
  let sound := F.stream H.rnd H.bad norm H.buffers
  let P : Setup :=
    { movie := { mode := c.mode, everyN := c.everyN, limit := limitNumber (maxBytes c.maxMb), addr := H.addr,
                 table := fun _ _ => 0, thr := tickThreshold H.double tpf },
      grabber := { filename := c.input, mode := c.mode, palette := c.palette, images := H.images, readError := H.readError, tool := H.tool },
      load := c.mode.loadEditDistances H.files c.palette,
      soundEnd := sound.2 <|> H.soundError,
      name := outFilename c.output c.input }
  let coder ← Stop.lift (P.movie.start H.tape sound.1 [])
  match H.openError P.name with
  | some e => .error (.exception e)
  | none =>
    let s : Prog := { g := P.grabber.start fs, started := false, main := .running, coder, pos := 0, aux := false, out := [] }
    return (P, s.save P.name)

end IIVision
