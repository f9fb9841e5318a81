import Verif.Model.Movie
import Verif.Model.Symbols

/-! Model of transcoder/frame_grabber.py and of the file names of transcoder/main.py.

Decoding of the input video (skvideo, PIL) is not modelled: the pictures are given, as the bytes
that saving the resized picture writes.  The external program bmp2dhr is an arbitrary function on
the file system.  The two threads of `frames()` are a transition system: in each step one of them
runs up to its next operation on the queue (the only thing they share, as the consumer does not
touch files). -/

namespace IIVision

/-- palette.py:18-23 `Palette`. -/
inductive Palette where
  | UNKNOWN | IIGS | NTSC
  deriving DecidableEq, Repr

/-- palette.py:21-23 enum names. -/
def Palette.name : Palette → Text
  | .UNKNOWN => txt "UNKNOWN"
  | .IIGS => txt "IIGS"
  | .NTSC => txt "NTSC"

/-- palette.py:21-23 enum values. -/
def Palette.value : Palette → Int
  | .UNKNOWN => -1
  | .IIGS => 0
  | .NTSC => 5

/-- video_mode.py:7-8 enum names. -/
def VideoMode.name : VideoMode → Text
  | .HGR => txt "HGR"
  | .DHGR => txt "DHGR"

/-- `sep.join(ws)` for a one character separator. -/
def pyJoin (sep : Nat) : List Text → Text
  | [] => []
  | [w] => w
  | w :: ws => w ++ sep :: pyJoin sep ws

/-- main.py:61-65: the name of the output file; `--output ""` counts as not given. -/
def outFilename (output : Option Text) (filename : Text) : Text :=
  match output with
  | some o => if o = [] then pyJoin 46 ((splitOn 46 filename).dropLast ++ [txt "a2m"]) else o
  | none => pyJoin 46 ((splitOn 46 filename).dropLast ++ [txt "a2m"])

/-- frame_grabber.py:46-51 `_output_dir`. -/
def outputDir (filename : Text) (mode : VideoMode) (palette : Palette) : Text :=
  pyJoin 46 (splitOn 46 filename).dropLast ++ 47 :: mode.name ++ 47 :: palette.name

/-- `"%d" % n` for a non-negative number. -/
def decText (n : Nat) : Text :=
  if n < 10 then [48 + n] else decText (n / 10) ++ [48 + n % 10]
decreasing_by omega

/-- `"%08d" % n` for a non-negative number. -/
def dec08 (n : Nat) : Text := List.replicate (8 - (decText n).length) 48 ++ decText n

/-- frame_grabber.py:53-54 `_palette_arg`: `"P%d" % value`. -/
def paletteArg (p : Palette) : Text :=
  txt "P" ++ (if p.value < 0 then 45 :: decText p.value.natAbs else decText p.value.natAbs)

/-- Regular files by path.  (Directories are not modelled: `os.makedirs` at line 64 is taken to
succeed.) -/
abbrev FS := Text → Option (List U8)

/-- Writing a file. -/
def FS.put (fs : FS) (path : Text) (data : List U8) : FS := fun q => if q = path then some data else fs q

/-- `os.remove`: FileNotFoundError if there is no such file. -/
def FS.remove (fs : FS) (path : Text) : Except PyErr FS :=
  match fs path with
  | none => .error .fileNotFound
  | some _ => .ok fun q => if q = path then none else fs q

/-- `np.fromfile(path, dtype=np.uint8)`. -/
def FS.read (fs : FS) (path : Text) : Except PyErr (List U8) :=
  match fs path with
  | none => .error .fileNotFound
  | some d => .ok d

/-- `os.stat(path)` does not raise. -/
def FS.has (fs : FS) (path : Text) : Bool := (fs path).isSome

/-- What `FileFrameGrabber.frames` depends on. -/
structure Grabber where
  filename : Text
  mode : VideoMode
  palette : Palette
  /-- for each picture of the input, what `_frame.resize(...).save(...)` writes -/
  images : List (List U8)
  /-- exception raised by the reader after these pictures (none: the video ends) -/
  readError : Option PyErr
  /-- `subprocess.call` with the given arguments, while converting the picture of the given
  number: what it leaves in the file system, or the exception it raises (program not installed).
  The exit status is ignored by the caller. -/
  tool : Nat → List Text → FS → Except PyErr FS

/-- frame_grabber.py:62-63 -/
def Grabber.dir (G : Grabber) : Text := outputDir G.filename G.mode G.palette

/-- `"%s/%08d" % (frame_dir, _idx)` followed by a suffix. -/
def Grabber.path (G : Grabber) (idx : Nat) (suffix : Text) : Text :=
  G.dir ++ 47 :: dec08 idx ++ suffix

/-- An element of the queue: `(main, aux)`; the sentinel `(None, None)` is `none` in `GState`. -/
structure Item where
  main : List U8
  aux : Option (List U8)
  deriving DecidableEq

/-- frame_grabber.py:75-84, 100-110: converting a picture with bmp2dhr. -/
def Grabber.convert (G : Grabber) (fs : FS) (idx : Nat) (image : List U8) (args : List Text) :
    Except PyErr FS := do
  let bmp := G.path idx (txt ".bmp")
  let fs := fs.put bmp image
  let fs ← G.tool idx (txt "/usr/local/bin/bmp2dhr" :: bmp :: args) fs
  fs.remove bmp

/-- frame_grabber.py:68-88 `_hgr_decode`. -/
def Grabber.hgrDecode (G : Grabber) (fs : FS) (idx : Nat) (image : List U8) :
    Except PyErr (FS × Item) := do
  let outfile := G.path idx (txt "C.BIN")
  let fs ← if fs.has outfile then pure fs
    else G.convert fs idx image [txt "hgr", paletteArg G.palette, txt "D9"]
  let main ← fs.read outfile
  return (fs, ⟨main, none⟩)

/-- frame_grabber.py:90-115 `_dhgr_decode`. -/
def Grabber.dhgrDecode (G : Grabber) (fs : FS) (idx : Nat) (image : List U8) :
    Except PyErr (FS × Item) := do
  let mainfile := G.path idx (txt ".BIN")
  let auxfile := G.path idx (txt ".AUX")
  let fs ← if fs.has mainfile && fs.has auxfile then pure fs
    else G.convert fs idx image [txt "dhgr", paletteArg G.palette, txt "A", txt "D9"]
  let main ← fs.read mainfile
  let aux ← fs.read auxfile
  return (fs, ⟨main, some aux⟩)

/-- frame_grabber.py:120-123 -/
def Grabber.decode (G : Grabber) (fs : FS) (idx : Nat) (image : List U8) :
    Except PyErr (FS × Item) :=
  if G.mode = .DHGR then G.dhgrDecode fs idx image else G.hgrDecode fs idx image

/-- frame_grabber.py:137-143: a memory map of the bytes of a file. -/
def mapOfBytes (data : List U8) : Except PyErr MemoryMap := do
  let m ← FlatMemoryMap.new 1 (some data)
  m.toMemoryMap

/-- frame_grabber.py:137-144: what the consumer makes of an item. -/
def Item.toFrame (i : Item) : Except PyErr Frame := do
  let main ← mapOfBytes i.main
  match i.aux with
  | none => return ⟨main, none⟩
  | some a => do
    let aux ← mapOfBytes a
    return ⟨main, some aux⟩

/-- Where the worker thread (frame_grabber.py:117-127) is. -/
inductive Worker where
  /-- about to ask the reader for picture `idx` -/
  | fetch (idx : Nat) (rest : List (List U8))
  /-- in `q.put` with a converted picture -/
  | put (item : Item) (idx : Nat) (rest : List (List U8))
  /-- in `q.put((None, None))` -/
  | putEnd
  /-- returned -/
  | done
  /-- killed by an exception (which is printed, and otherwise lost) -/
  | dead (e : PyErr)

/-- Where the consumer (frame_grabber.py:132-147) is. -/
inductive Consumer where
  /-- in `q.get()` -/
  | get
  /-- suspended in `yield` -/
  | yielded
  /-- in `t.join()` -/
  | join
  /-- StopIteration -/
  | finished
  /-- an exception has propagated to the caller -/
  | raised (e : PyErr)
  deriving DecidableEq

/-- State of the two threads. -/
structure GState where
  fs : FS
  worker : Worker
  /-- the queue; `none` is the sentinel -/
  queue : List (Option Item)
  consumer : Consumer
  /-- the frames yielded so far -/
  out : List Frame

/-- frame_grabber.py:62-130: when the generator is resumed for the first time. -/
def Grabber.start (G : Grabber) (fs : FS) : GState :=
  { fs, worker := .fetch 0 G.images, queue := [], consumer := .get, out := [] }

/-- frame_grabber.py:66 `maxsize`. -/
abbrev queueMax : Nat := 10

/-- One step of the worker; `none` if it cannot run. -/
def Grabber.workerStep (G : Grabber) (s : GState) : Option GState :=
  match s.worker with
  | .fetch _ [] =>
    match G.readError with
    | none => some { s with worker := .putEnd }
    | some e => some { s with worker := .dead e }
  | .fetch idx (image :: rest) =>
    match G.decode s.fs idx image with
    | .ok (fs, item) => some { s with fs, worker := .put item idx rest }
    | .error e => some { s with worker := .dead e }
  | .put item idx rest =>
    if s.queue.length < queueMax then
      some { s with queue := s.queue ++ [some item], worker := .fetch (idx + 1) rest }
    else none
  | .putEnd =>
    if s.queue.length < queueMax then
      some { s with queue := s.queue ++ [none], worker := .done }
    else none
  | .done => none
  | .dead _ => none

/-- One step of the consumer; `none` if it cannot run.  The step from `yielded` is the caller
asking for the next frame. -/
def GState.consumerStep (s : GState) : Option GState :=
  match s.consumer with
  | .get =>
    match s.queue with
    | [] => none
    | none :: q => some { s with queue := q, consumer := .join }
    | some item :: q =>
      match item.toFrame with
      | .ok f => some { s with queue := q, consumer := .yielded, out := s.out ++ [f] }
      | .error e => some { s with queue := q, consumer := .raised e }
  | .yielded => some { s with consumer := .get }
  | .join =>
    match s.worker with
    | .done => some { s with consumer := .finished }
    | .dead _ => some { s with consumer := .finished }
    | _ => none
  | .finished => none
  | .raised _ => none

/-- A step of either thread. -/
inductive Grabber.Step (G : Grabber) : GState → GState → Prop
  | worker {s t : GState} : G.workerStep s = some t → G.Step s t
  | consumer {s t : GState} : s.consumerStep = some t → G.Step s t

/-- `n` steps, in any interleaving. -/
inductive Grabber.Steps (G : Grabber) : Nat → GState → GState → Prop
  | zero (s : GState) : G.Steps 0 s s
  | succ {n : Nat} {s t u : GState} : G.Steps n s t → G.Step t u → G.Steps (n + 1) s u

end IIVision
