import Verif.Model.Grabber

/-! What one expects of converting the pictures of a video one after the other, and of the
files involved. -/

namespace IIVision.Spec

/-- How a loop over the frames of a video ends. -/
inductive Outcome where
  /-- after the last frame -/
  | ends
  /-- the caller gets an exception -/
  | raises (e : PyErr)
  /-- the caller waits forever for the next frame: the exception was raised in the other
  thread -/
  | hangs (e : PyErr)
  deriving DecidableEq

/-- The frames and the end of a program without threads and queue: convert picture `idx`, make a
frame of it, hand it over, go on with the next one. -/
def oneByOne (G : Grabber) : Nat → FS → List (List U8) → List Frame × Outcome
  | _, _, [] => match G.readError with
    | none => ([], .ends)
    | some e => ([], .hangs e)
  | idx, fs, image :: rest =>
    match G.decode fs idx image with
    | .error e => ([], .hangs e)
    | .ok (fs, item) =>
      match item.toFrame with
      | .error e => ([], .raises e)
      | .ok f => (f :: (oneByOne G (idx + 1) fs rest).1, (oneByOne G (idx + 1) fs rest).2)

/-- The same for a whole video, from the given files. -/
def wholeVideo (G : Grabber) (fs : FS) : List Frame × Outcome := oneByOne G 0 fs G.images

/-- Neither thread can run any more. -/
def Stopped (G : Grabber) (s : GState) : Prop := ¬∃ t, G.Step s t

/-- The memory map shows the 8192 bytes `d`, in the order of addresses. -/
def Shows (m : MemoryMap) (d : List U8) : Prop :=
  d.length = 8192 ∧ m.screenPage = 1 ∧ ∀ p o, d[256 * p.val + o.val]? = some (m.pageOffset p o)

/-- The frame shows what the files of picture `i` contain. -/
def FromFiles (G : Grabber) (fs : FS) (i : Nat) (f : Frame) : Prop :=
  match G.mode with
  | .HGR => f.aux = none ∧ ∃ d, fs (G.path i (txt "C.BIN")) = some d ∧ Shows f.main d
  | .DHGR => ∃ a d d', f.aux = some a ∧ fs (G.path i (txt ".BIN")) = some d ∧ Shows f.main d ∧
      fs (G.path i (txt ".AUX")) = some d' ∧ Shows a d'

/-- The files that the conversion of picture `i` is about. -/
def OwnFile (G : Grabber) (i : Nat) (q : Text) : Prop :=
  q = G.path i (txt "C.BIN") ∨ q = G.path i (txt ".BIN") ∨ q = G.path i (txt ".AUX") ∨
    q = G.path i (txt ".bmp")

/-- bmp2dhr only touches the files of the picture it converts. -/
def LocalTool (G : Grabber) : Prop :=
  ∀ i args fs fs', G.tool i args fs = .ok fs' → ∀ q, ¬OwnFile G i q → fs' q = fs q

/-- Some file of picture `i` is there but does not have 8192 bytes, and none is missing. -/
def Truncated (G : Grabber) (fs : FS) (i : Nat) : Prop :=
  match G.mode with
  | .HGR => ∃ d, fs (G.path i (txt "C.BIN")) = some d ∧ d.length ≠ 8192
  | .DHGR => ∃ d d', fs (G.path i (txt ".BIN")) = some d ∧ fs (G.path i (txt ".AUX")) = some d' ∧
      (d.length ≠ 8192 ∨ d'.length ≠ 8192)

end IIVision.Spec
