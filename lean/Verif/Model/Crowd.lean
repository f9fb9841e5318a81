import Verif.Model.Beside

/-! Model of any number of transcoders working on the same disk at once (transcoder/main.py:45-69 and transcoder/frame_grabber.py:62-130 in each of them), together with any other programs.

Here the conversion of a picture is not one step, but each operation on a file is; and the writing of a bitmap, and a run of bmp2dhr, take time, in which the files
concerned may have any contents.  Everything else is as in `Model/Buffered.lean`.  Not modelled: reading a file takes no time. -/

namespace IIVision

/-- Where a conversion thread is in frame_grabber.py:68-115. -/
inductive Spot
  /-- before line 73 or 97, or not in the conversion of a picture -/
  | outside
  /-- line 98: the first file exists, but does the other? -/
  | aux
  /-- line 76 or 101: `_frame.save(bmpfile)` -/
  | save
  /-- line 78 or 103: before `subprocess.call` -/
  | call
  /-- bmp2dhr is running; it has found the disk like this -/
  | inside (found : FS)
  /-- line 84 or 110: `os.remove(bmpfile)` -/
  | unlink
  /-- line 86 or 112: the result (or its first file) is to be read -/
  | readMain
  /-- line 113: its second file -/
  | readAux (main : List U8)
  /-- the thread has died, in the conversion of this picture -/
  | failed (idx : Nat)

/-- What comes after an operation: another one, the end of the conversion, or an exception. -/
inductive After
  | going (p : Spot)
  | done (item : Item)
  | failed (e : PyErr)

/-- frame_grabber.py:78-82, 103-108: the command. -/
def Grabber.command (G : Grabber) (idx : Nat) : List Text :=
  txt "/usr/local/bin/bmp2dhr" :: G.path idx (txt ".bmp") ::
    (if G.mode = .DHGR then [txt "dhgr", paletteArg G.palette, txt "A", txt "D9"] else [txt "hgr", paletteArg G.palette, txt "D9"])

/-- frame_grabber.py:68-115: one operation in the conversion of a picture, by `_hgr_decode` or `_dhgr_decode`.  `own` are the files bmp2dhr may touch. -/
inductive Grabber.Op (G : Grabber) (own : Text → Prop) (idx : Nat) (image : List U8) : FS → Spot → FS → After → Prop
  -- frame_grabber.py:73
  | hgrCheck {fs : FS} : G.mode ≠ .DHGR → Grabber.Op G own idx image fs .outside fs (.going (if fs.has (G.path idx (txt "C.BIN")) then .readMain else .save))
  -- frame_grabber.py:97, 98
  | dhgrCheck {fs : FS} : G.mode = .DHGR → Grabber.Op G own idx image fs .outside fs (.going (if fs.has (G.path idx (txt ".BIN")) then .aux else .save))
  | auxCheck {fs : FS} : Grabber.Op G own idx image fs .aux fs (.going (if fs.has (G.path idx (txt ".AUX")) then .readMain else .save))
  -- frame_grabber.py:76, 101
  | saving {fs : FS} (part : List U8) : Grabber.Op G own idx image fs .save (fs.put (G.path idx (txt ".bmp")) part) (.going .save)
  | saved {fs : FS} : Grabber.Op G own idx image fs .save (fs.put (G.path idx (txt ".bmp")) image) (.going .call)
  -- frame_grabber.py:78-82, 103-108
  | call {fs : FS} : Grabber.Op G own idx image fs .call fs (.going (.inside fs))
  | busy {fs fs' found : FS} : (∀ q, ¬ own q → fs' q = fs q) → Grabber.Op G own idx image fs (.inside found) fs' (.going (.inside found))
  | back {fs fs' found r : FS} : G.tool idx (G.command idx) found = .ok r → (∀ q, own q → fs' q = r q) → (∀ q, ¬ own q → fs' q = fs q) →
      Grabber.Op G own idx image fs (.inside found) fs' (.going .unlink)
  | notBack {fs found : FS} {e : PyErr} : G.tool idx (G.command idx) found = .error e → Grabber.Op G own idx image fs (.inside found) fs (.failed e)
  -- frame_grabber.py:84, 110
  | unlink {fs fs' : FS} : fs.remove (G.path idx (txt ".bmp")) = .ok fs' → Grabber.Op G own idx image fs .unlink fs' (.going .readMain)
  | notUnlinked {fs : FS} {e : PyErr} : fs.remove (G.path idx (txt ".bmp")) = .error e → Grabber.Op G own idx image fs .unlink fs (.failed e)
  -- frame_grabber.py:86-88
  | readHgr {fs : FS} {d : List U8} : G.mode ≠ .DHGR → fs.read (G.path idx (txt "C.BIN")) = .ok d → Grabber.Op G own idx image fs .readMain fs (.done ⟨d, none⟩)
  | noHgr {fs : FS} {e : PyErr} : G.mode ≠ .DHGR → fs.read (G.path idx (txt "C.BIN")) = .error e → Grabber.Op G own idx image fs .readMain fs (.failed e)
  -- frame_grabber.py:112-115
  | readMain {fs : FS} {d : List U8} : G.mode = .DHGR → fs.read (G.path idx (txt ".BIN")) = .ok d → Grabber.Op G own idx image fs .readMain fs (.going (.readAux d))
  | noMain {fs : FS} {e : PyErr} : G.mode = .DHGR → fs.read (G.path idx (txt ".BIN")) = .error e → Grabber.Op G own idx image fs .readMain fs (.failed e)
  | readAux {fs : FS} {main d : List U8} : fs.read (G.path idx (txt ".AUX")) = .ok d → Grabber.Op G own idx image fs (.readAux main) fs (.done ⟨main, some d⟩)
  | noAux {fs : FS} {main : List U8} {e : PyErr} : fs.read (G.path idx (txt ".AUX")) = .error e → Grabber.Op G own idx image fs (.readAux main) fs (.failed e)

/-- main.py:67-69: a running transcoder. -/
structure Task where
  setup : Setup
  session : Session
  phase : Spot

/-- The transcoder, on another disk. -/
def Task.onDisk (t : Task) (d : FS) : Task := { t with session := t.session.onDisk d }

def Task.disk (t : Task) : FS := t.session.prog.disk

/-- frame_grabber.py:117-127: the conversion thread goes on. -/
def Task.withWorker (t : Task) (fs : FS) (w : Worker) (p : Spot) : Task :=
  { t with session := { t.session with prog := { t.session.prog with g := { t.session.prog.g with fs, worker := w } } }, phase := p }

/-- One operation of one of the two threads of a transcoder (frame_grabber.py:117-127, main.py:68-69). -/
inductive Task.Step (own : Grabber → Nat → Text → Prop) (size : Nat) (dev : Device) : Task → Task → Prop
  | going {t : Task} {idx : Nat} {image : List U8} {rest : List (List U8)} {fs : FS} {p : Spot} : t.session.prog.started = true →
      t.session.prog.g.worker = .fetch idx (image :: rest) → t.setup.grabber.Op (own t.setup.grabber idx) idx image t.disk t.phase fs (.going p) →
      Task.Step own size dev t (t.withWorker fs (.fetch idx (image :: rest)) p)
  | done {t : Task} {idx : Nat} {image : List U8} {rest : List (List U8)} {fs : FS} {item : Item} : t.session.prog.started = true →
      t.session.prog.g.worker = .fetch idx (image :: rest) → t.setup.grabber.Op (own t.setup.grabber idx) idx image t.disk t.phase fs (.done item) →
      Task.Step own size dev t (t.withWorker fs (.put item idx rest) .outside)
  | failed {t : Task} {idx : Nat} {image : List U8} {rest : List (List U8)} {fs : FS} {e : PyErr} : t.session.prog.started = true →
      t.session.prog.g.worker = .fetch idx (image :: rest) → t.setup.grabber.Op (own t.setup.grabber idx) idx image t.disk t.phase fs (.failed e) →
      Task.Step own size dev t (t.withWorker fs (.dead e) (.failed idx))
  | worker {t : Task} {p : Prog} : (∀ idx image rest, t.session.prog.g.worker ≠ .fetch idx (image :: rest)) → t.session.prog.workerStep t.setup.grabber = some p →
      Task.Step own size dev t { t with session := { t.session with prog := p } }
  | main {t : Task} {s : Session} : t.session.mainStep t.setup size dev = some s → Task.Step own size dev t { t with session := s }

/-- A call of main.py: the computer (of its own user), the words of the command line, the buffer of the output file, and the operating system below it. -/
structure Job where
  host : Host
  argv : List Text
  size : Nat
  dev : Device

/-- Transcoders on one disk; `none`: not started yet. -/
structure Crowd where
  disk : FS
  task : Nat → Option Task

/-- main.py:73: one more transcoder gets to the opening of its output file; or one of those running does something; or another program, which leaves the files in `taken` alone. -/
inductive Crowd.Step (own : Grabber → Nat → Text → Prop) (taken : Text → Prop) (J : Nat → Job) : Crowd → Crowd → Prop
  | start {c : Crowd} {i : Nat} {P : Setup} {s : Prog} : c.task i = none → launch (J i).host (J i).argv c.disk = .ok (P, s) →
      Crowd.Step own taken J c ⟨s.disk, fun j => if j = i then some ⟨P, Session.start s, .outside⟩ else c.task j⟩
  | work {c : Crowd} {i : Nat} {t u : Task} : c.task i = some t → Task.Step own (J i).size (J i).dev (t.onDisk c.disk) u →
      Crowd.Step own taken J c ⟨u.disk, fun j => if j = i then some u else c.task j⟩
  | others {c : Crowd} {d : FS} : (∀ q, taken q → d q = c.disk q) → Crowd.Step own taken J c { c with disk := d }

/-- Any number of steps. -/
inductive Crowd.Steps (own : Grabber → Nat → Text → Prop) (taken : Text → Prop) (J : Nat → Job) : Crowd → Crowd → Prop
  | zero (c : Crowd) : Crowd.Steps own taken J c c
  | succ {c d e : Crowd} : Crowd.Steps own taken J c d → Crowd.Step own taken J d e → Crowd.Steps own taken J c e

end IIVision
