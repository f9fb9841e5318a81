import Verif.Model.Buffered

/-! Model of the transcoder (frame_grabber.py:68-127, main.py:67-69) while other programs change files on the same disk.

Between any two steps of its threads, and between any two operations on files in the conversion of a picture, other programs may change files.  (Where the other program is a transcoder
too, see `Pair.Step`.)  Everything else is as in `Model/Buffered.lean`. -/

namespace IIVision

/-- frame_grabber.py:76-86, 101-112: `Grabber.convert` with other programs: `w k` is what they do meanwhile, after the `k`-th operation. -/
def Grabber.convertAmid (G : Grabber) (w : Nat → FS → FS) (fs : FS) (idx : Nat) (image : List U8) (args : List Text) : Except PyErr FS := do
  let bmp := G.path idx (txt ".bmp")
  let fs := w 1 (fs.put bmp image)
  let fs ← G.tool idx (txt "/usr/local/bin/bmp2dhr" :: bmp :: args) fs
  let fs ← (w 2 fs).remove bmp
  return w 3 fs

/-- frame_grabber.py:68-88 `_hgr_decode`. -/
def Grabber.hgrDecodeAmid (G : Grabber) (w : Nat → FS → FS) (fs : FS) (idx : Nat) (image : List U8) : Except PyErr (FS × Item) := do
  let outfile := G.path idx (txt "C.BIN")
  let fs ← if fs.has outfile then pure (w 0 fs) else G.convertAmid w (w 0 fs) idx image [txt "hgr", paletteArg G.palette, txt "D9"]
  let main ← fs.read outfile
  return (w 4 fs, ⟨main, none⟩)

/-- frame_grabber.py:90-115 `_dhgr_decode`. -/
def Grabber.dhgrDecodeAmid (G : Grabber) (w : Nat → FS → FS) (fs : FS) (idx : Nat) (image : List U8) : Except PyErr (FS × Item) := do
  let mainfile := G.path idx (txt ".BIN")
  let auxfile := G.path idx (txt ".AUX")
  let fs ← if fs.has mainfile && (w 5 fs).has auxfile then pure (w 0 (w 5 fs))
    else G.convertAmid w (w 0 (w 5 fs)) idx image [txt "dhgr", paletteArg G.palette, txt "A", txt "D9"]
  let main ← fs.read mainfile
  let aux ← (w 4 fs).read auxfile
  return (w 6 (w 4 fs), ⟨main, some aux⟩)

/-- frame_grabber.py:120-123 -/
def Grabber.decodeAmid (G : Grabber) (w : Nat → FS → FS) (fs : FS) (idx : Nat) (image : List U8) : Except PyErr (FS × Item) :=
  if G.mode = .DHGR then G.dhgrDecodeAmid w fs idx image else G.hgrDecodeAmid w fs idx image

/-- frame_grabber.py:117-127: a step of the conversion thread. -/
def Grabber.workerAmid (G : Grabber) (w : Nat → FS → FS) (s : GState) : Option GState :=
  match s.worker with
  | .fetch idx (image :: rest) =>
    match G.decodeAmid w s.fs idx image with
    | .ok (fs, item) => some { s with fs, worker := .put item idx rest }
    | .error e => some { s with worker := .dead e }
  | _ => G.workerStep s

/-- frame_grabber.py:129-130: the conversion thread exists once `frames()` has been resumed. -/
def Prog.workerAmid (G : Grabber) (w : Nat → FS → FS) (s : Prog) : Option Prog :=
  if s.started then
    match G.workerAmid w s.g with
    | some g => some { s with g }
    | none => none
  else none

/-- main.py:67-69: the transcoder, on another disk. -/
def Session.onDisk (s : Session) (d : FS) : Session := { s with prog := s.prog.onDisk d }

/-- frame_grabber.py:117-127, main.py:68-69: a step of either thread, or of other programs, which leave the files in `mine` alone. -/
inductive Session.StepAmid (P : Setup) (size : Nat) (dev : Device) (mine : Text → Prop) : Session → Session → Prop
  | worker {s : Session} {t : Prog} (w : Nat → FS → FS) : (∀ k fs q, mine q → w k fs q = fs q) → s.prog.workerAmid P.grabber w = some t →
      Session.StepAmid P size dev mine s { s with prog := t }
  | main {s t : Session} : s.mainStep P size dev = some t → Session.StepAmid P size dev mine s t

/-- `n` steps of the transcoder, in any interleaving with other programs. -/
inductive Session.StepsAmid (P : Setup) (size : Nat) (dev : Device) (mine : Text → Prop) : Nat → Session → Session → Prop
  | zero (s : Session) : Session.StepsAmid P size dev mine 0 s s
  | succ {n : Nat} {s t u : Session} : Session.StepsAmid P size dev mine n s t → Session.StepAmid P size dev mine t u → Session.StepsAmid P size dev mine (n + 1) s u
  | others {n : Nat} {s t : Session} {d : FS} : Session.StepsAmid P size dev mine n s t → (∀ q, mine q → d q = t.prog.disk q) →
      Session.StepsAmid P size dev mine n s (t.onDisk d)

/-- Two transcoders on the same disk (frame_grabber.py:117-127, main.py:68-69 in each): a step of one of them.  The conversion of one picture is one step here. -/
inductive Pair.Step (P Q : Setup) (size : Nat) (dev dev' : Device) : Session × Session → Session × Session → Prop
  | left {s s' t : Session} : Session.Step P size dev s s' → Pair.Step P Q size dev dev' (s, t) (s', t.onDisk s'.prog.disk)
  | right {s t t' : Session} : Session.Step Q size dev' t t' → Pair.Step P Q size dev dev' (s, t) (s.onDisk t'.prog.disk, t')

/-- Any number of steps of the two. -/
inductive Pair.Steps (P Q : Setup) (size : Nat) (dev dev' : Device) : Session × Session → Session × Session → Prop
  | zero (x : Session × Session) : Pair.Steps P Q size dev dev' x x
  | succ {x y z : Session × Session} : Pair.Steps P Q size dev dev' x y → Pair.Step P Q size dev dev' y z → Pair.Steps P Q size dev dev' x z

end IIVision
