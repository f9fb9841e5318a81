import Verif.Spec.Entire
import Verif.Spec.Convert

/-! Vocabulary for killing the transcoder and starting it again. -/

namespace IIVision.Spec

/-- The result files of picture `i`, and what they hold when its conversion is `r`. -/
def results (G : Grabber) (i : Nat) (r : List U8 × List U8) : List (Text × List U8) :=
  match G.mode with
  | .HGR => [(G.path i (txt "C.BIN"), r.1)]
  | .DHGR => [(G.path i (txt ".BIN"), r.1), (G.path i (txt ".AUX"), r.2)]

/-- What the files of the pictures can be when the program is killed in state `s`: as they are in `s`, except that the conversion thread may be inside the
conversion of a picture whose results are not there. Then the bitmap of this picture can be anything, and each result file is either as before or has been
written (result files are taken to appear at once). -/
def LeftBy (G : Grabber) (conv : List U8 → List U8 × List U8) (s : Prog) (fs : FS) : Prop :=
  ∀ i q, i < G.images.length → OwnFile G i q → fs q = s.disk q ∨
    ∃ picture rest, s.started = true ∧ s.g.worker = .fetch i (picture :: rest) ∧ ¬ Kept G s.disk i ∧
      (q = G.path i (txt ".bmp") ∨ ∃ d, (q, d) ∈ results G i (conv picture) ∧ fs q = some d)

/-- `fs'` can be the disk after any number of runs with the pictures and the converter of `G`, of which each has been killed at any moment (or has ended), starting from `fs`.
The runs may have had any words and sound, and between the runs anything may have happened to files that do not belong to the pictures. -/
inductive Interrupted (G : Grabber) (conv : List U8 → List U8 × List U8) : FS → FS → Prop
  | never (fs : FS) : Interrupted G conv fs fs
  | again {fs fs1 fs2 : FS} {H : Host} {argv : List Text} {c : Command} {norm : Flt} {tpf : Rat} {n : Nat} {s : Prog} :
      Interrupted G conv fs fs1 → Starts H argv c norm tpf → hostGrabber H c = G → Separate H c → (∀ x, H.addr x < 65536) →
      Running H argv fs1 n s → LeftBy G conv s fs2 → Interrupted G conv fs fs2

/-- No picture has half of its results, or what is there is from this picture. -/
def NoStrangeHalves (G : Grabber) (conv : List U8 → List U8 × List U8) (fs : FS) : Prop :=
  ∀ i picture, G.images[i]? = some picture → ¬ Kept G fs i → ∀ q d, (q, d) ∈ results G i (conv picture) → fs q = none ∨ fs q = some d

end IIVision.Spec
