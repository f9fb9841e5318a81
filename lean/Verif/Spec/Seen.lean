import Verif.Spec.Convert
import Verif.Spec.Entire
import Verif.Spec.Picture
import Verif.Spec.Server
import Verif.Spec.Connect

/-! Vocabulary for what can be seen on the screen of a video that has been transcoded. -/

namespace IIVision.Spec

/-- A screen memory holding the bytes `d` in the order of addresses. -/
def filled (d : List U8) : Mem := fun p o => d.getD (256 * p.val + o.val) 0

/-- The screens of main and auxiliary memory with a converted picture. -/
def pictureScreens (r : List U8 × List U8) : Mem × Mem := (filled r.1, filled r.2)

/-- `r` is what picture `i` of the video has been converted to: what is in its files if these are there before the program
starts, otherwise what the converter makes of the picture. -/
def ConvertedTo (G : Grabber) (conv : List U8 → List U8 × List U8) (fs : FS) (i : Nat) (r : List U8 × List U8) : Prop :=
  (Kept G fs i → match G.mode with
    | .HGR => fs (G.path i (txt "C.BIN")) = some r.1
    | .DHGR => fs (G.path i (txt ".BIN")) = some r.1 ∧ fs (G.path i (txt ".AUX")) = some r.2) ∧
  (¬ Kept G fs i → ∃ picture, G.images[i]? = some picture ∧ r = conv picture)

/-- The transcoder, started with the words `argv` on the disk `fs`, has come to its end; the server has delivered all of its output file to a client;
and the machine `s`, in which the player has just been started, is this client, and the network and the keyboard let it play. -/
structure Watches (H : Host) (argv : List Text) (fs : FS) (c : Command) (e : Player.Env) (s : Player.Mach) : Prop where
  file : ∃ k p srv client, Running H argv fs k p ∧ Still H argv fs p ∧ ServerRun [p.disk (outFilename c.output c.input)] srv ∧
    srv.status client = .done ∧ e.file = srv.received client
  delivers : e.Delivers
  answers : e.Answers
  never : e.NeverRefuses
  stays : e.StaysOpen ∨ 8192 < e.file.length
  started : Player.Started s
  works : s.w.works = true
  keys : Player.PausesEnd e s

end IIVision.Spec
