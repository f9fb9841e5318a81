import Verif.Spec.Grabber

/-! What one expects of a converter program that does its job, and of the run that uses it. -/

namespace IIVision.Spec

/-- How bmp2dhr is to be called for the file `bmp`: the mode, the palette by number (0 and 5; -1
for the placeholder), `A` for two output files, dither 9. -/
def commandLine (bmp : Text) : VideoMode → Palette → List Text
  | .HGR, .IIGS => [txt "/usr/local/bin/bmp2dhr", bmp, txt "hgr", txt "P0", txt "D9"]
  | .HGR, .NTSC => [txt "/usr/local/bin/bmp2dhr", bmp, txt "hgr", txt "P5", txt "D9"]
  | .HGR, .UNKNOWN => [txt "/usr/local/bin/bmp2dhr", bmp, txt "hgr", txt "P-1", txt "D9"]
  | .DHGR, .IIGS => [txt "/usr/local/bin/bmp2dhr", bmp, txt "dhgr", txt "P0", txt "A", txt "D9"]
  | .DHGR, .NTSC => [txt "/usr/local/bin/bmp2dhr", bmp, txt "dhgr", txt "P5", txt "A", txt "D9"]
  | .DHGR, .UNKNOWN => [txt "/usr/local/bin/bmp2dhr", bmp, txt "dhgr", txt "P-1", txt "A", txt "D9"]

/-- `fs'` is `fs` except that the result files of picture `i` are the converted picture. -/
def Written (G : Grabber) (i : Nat) (r : List U8 × List U8) (fs fs' : FS) : Prop :=
  match G.mode with
  | .HGR => fs' (G.path i (txt "C.BIN")) = some r.1 ∧
      ∀ q, q ≠ G.path i (txt "C.BIN") → fs' q = fs q
  | .DHGR => fs' (G.path i (txt ".BIN")) = some r.1 ∧ fs' (G.path i (txt ".AUX")) = some r.2 ∧
      ∀ q, q ≠ G.path i (txt ".BIN") → q ≠ G.path i (txt ".AUX") → fs' q = fs q

/-- The converter does its job: called as documented for the file of picture `i`, it writes
`conv` of what that file holds into the result files of this picture.  Nothing is said about
any other call. -/
def Converts (G : Grabber) (conv : List U8 → List U8 × List U8) : Prop :=
  ∀ i fs data, fs (G.path i (txt ".bmp")) = some data →
    ∃ fs', G.tool i (commandLine (G.path i (txt ".bmp")) G.mode G.palette) fs = .ok fs' ∧
      Written G i (conv data) fs fs'

/-- All result files of picture `i` are there. -/
def Kept (G : Grabber) (fs : FS) (i : Nat) : Prop :=
  match G.mode with
  | .HGR => fs (G.path i (txt "C.BIN")) ≠ none
  | .DHGR => fs (G.path i (txt ".BIN")) ≠ none ∧ fs (G.path i (txt ".AUX")) ≠ none

/-- The frame shows the converted picture `r`. -/
def Pictured (mode : VideoMode) (r : List U8 × List U8) (f : Frame) : Prop :=
  match mode with
  | .HGR => f.aux = none ∧ Shows f.main r.1
  | .DHGR => ∃ a, f.aux = some a ∧ Shows f.main r.1 ∧ Shows a r.2

/-- The files that converting picture `i` is about: the result files and the bitmap. -/
def Touched (G : Grabber) (i : Nat) (q : Text) : Prop :=
  match G.mode with
  | .HGR => q = G.path i (txt "C.BIN") ∨ q = G.path i (txt ".bmp")
  | .DHGR => q = G.path i (txt ".BIN") ∨ q = G.path i (txt ".AUX") ∨ q = G.path i (txt ".bmp")

/-- What the files of picture `i` are when it has been converted. -/
def Finished (G : Grabber) (i : Nat) (r : List U8 × List U8) (fs : FS) : Prop :=
  fs (G.path i (txt ".bmp")) = none ∧
  match G.mode with
  | .HGR => fs (G.path i (txt "C.BIN")) = some r.1
  | .DHGR => fs (G.path i (txt ".BIN")) = some r.1 ∧ fs (G.path i (txt ".AUX")) = some r.2

end IIVision.Spec
