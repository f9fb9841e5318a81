import Verif.Model.Entire
import Verif.Spec.Plain
import Verif.Spec.Disk
import Verif.Spec.CommandLine
import Verif.Spec.TableLoad

/-! Vocabulary for the whole program. -/

namespace IIVision.Spec

/-- The program, started with these words on the disk `fs`, can be in state `s` after `n` steps. -/
def Running (H : Host) (argv : List Text) (fs : FS) (n : Nat) (s : Prog) : Prop :=
  ∃ P s0, launch H argv fs = .ok (P, s0) ∧ P.Steps n s0 s

/-- Neither thread can run any more. -/
def Still (H : Host) (argv : List Text) (fs : FS) (s : Prog) : Prop :=
  ∀ P s0, launch H argv fs = .ok (P, s0) → ¬∃ t, P.Step s t

/-- A simple loop without threads, as `plainly`: `nx` is the encoder, `o` what happens when a frame is asked for after the last. -/
def follow (M : Movie) (nx : Bool → Coder → Except PyErr (Option (Opcode × Coder))) (o : Outcome) :
    Nat → Coder → Nat → Bool → List Nat × Ending
  | 0, _, _, _ => ([], .waiting)
  | n + 1, c, pos, aux =>
    match (if c.needsFrame M = true ∧ c.frames = [] then o else .ends) with
    | .raises e => ([], .raised e)
    | .hangs _ => ([], .waiting)
    | .ends =>
      match nx aux c with
      | .error e => ([], .raised e)
      | .ok none => ((M.done pos).2, .complete)
      | .ok (some (op, c)) =>
        if M.atLimit pos then ((M.done pos).2, .complete)
        else
          match M.ackIfDue (pos + (op.emit M.addr).length) aux with
          | .error e => (op.emit M.addr, .raised e)
          | .ok (_, b, pos, aux) =>
            let r := follow M nx o n c pos aux
            (op.emit M.addr ++ b ++ r.1, r.2)

/-- The program as a simple loop, from the state right after the start: first all pictures are converted, on the disk `fs`, then the stream
is written: the bytes, and how it ends. -/
def Setup.plain (P : Setup) (fs : FS) (s0 : Prog) : List Nat × Ending :=
  follow P.movie P.next (wholeVideo P.grabber fs).2 (s0.coder.audio.length + 2) { s0.coder with frames := (wholeVideo P.grabber fs).1 } 0 false

/-- Everything up to the opening of the output file works: the words have a meaning (C77), there is a normalisation, the frame rate
is a quotient that makes sense, and the file can be opened. -/
structure Starts (H : Host) (argv : List Text) (c : Command) (norm : Flt) (tpf : Rat) : Prop where
  words : ∃ l, Spells argv l ∧ Meaning H.reads l c
  normalization : (H.format c.bitrate).normalization H.rnd c.normalization H.analysed = .ok norm
  /-- the sound can be read as far as it is analysed, which is not at all if a normalisation other than 0 is given -/
  readable : H.analysisError = none ∨ (c.normalization ≠ none ∧ c.normalization ≠ some (.fin 0)) ∨ 10485760 < H.analysed.flatten.length
  pace : ∃ text rate, H.rate = .ok text ∧ frameRate H.double text = .ok rate ∧ ticksPerFrame H.double c.bitrate rate = .ok tpf
  opens : H.openError (outFilename c.output c.input) = none

/-- The pictures and their converter, as the command line selects them. -/
def hostGrabber (H : Host) (c : Command) : Grabber :=
  { filename := c.input, mode := c.mode, palette := c.palette, images := H.images, readError := H.readError, tool := H.tool }

/-- The samples. -/
def hostSound (H : Host) (c : Command) (norm : Flt) : List Int := ((H.format c.bitrate).stream H.rnd H.bad norm H.buffers).1

/-- The movie, with the table `t`; no limit if the number given is 0, infinite or not a number. -/
def hostMovie (H : Host) (c : Command) (tpf : Rat) (t : EditTable) : Movie :=
  { mode := c.mode, everyN := c.everyN, limit := match c.maxMb with | .fin x => 1024 * 1024 * x | _ => 0, addr := H.addr, table := t,
    thr := tickThreshold H.double tpf }

/-- Nothing goes wrong afterwards. -/
structure Smooth (H : Host) (c : Command) (norm : Flt) (fs : FS) : Prop where
  zero : H.double 0 = 0
  stride : c.everyN ≠ 0
  limit : c.maxMb ≠ .negInf ∧ ∀ q, c.maxMb = .fin q → 0 ≤ q
  sound : ((H.format c.bitrate).stream H.rnd H.bad norm H.buffers).2 = none ∧ H.soundError = none
  table : HasTable H.files c.mode c.palette
  video : (wholeVideo (hostGrabber H c) fs).2 = .ends
  /-- no picture has palette bits in double hi-res -/
  clean : c.mode = .DHGR → ∀ f ∈ (wholeVideo (hostGrabber H c) fs).1, ∀ m, f.main = m ∨ f.aux = some m → ∀ p o, (m.pageOffset p o).toNat < 0x80

/-- The output file is none of the files of the pictures, and the converter touches only the latter. -/
structure Separate (H : Host) (c : Command) : Prop where
  blind : Blind (hostGrabber H c) (outFilename c.output c.input)
  name : ∀ i, ¬ OwnFile (hostGrabber H c) i (outFilename c.output c.input)
  tool : LocalTool (hostGrabber H c)

end IIVision.Spec
