import Verif.Model.Bitmap

/-! Vocabulary for stating properties of bitmaps: the two memory banks, well-formed
bitmaps, which byte of a packed column a screen cell is. -/

namespace IIVision

/-- Contents of a bank (an absent aux bank reads as zero). -/
def Bitmap.bank (b : Bitmap) (isAux : Bool) : Mem :=
  if isAux then (b.aux.map (·.pageOffset)).getD (fun _ _ => 0#8) else b.main.pageOffset

/-- A bitmap as the transcoder uses it: screen page 1, an aux bank exactly in DHGR,
and the packed array is what building it from its memory gives. -/
structure Bitmap.Valid (mode : VideoMode) (b : Bitmap) : Prop where
  mainPage : b.main.screenPage = 1
  auxPage : ∀ a, b.aux = some a → a.screenPage = 1
  auxSome : b.aux.isSome = decide (mode = .DHGR)
  fresh : Bitmap.new mode.cls b.main b.aux = .ok b

/-- Byte offset within the packed column. -/
def VideoMode.kOf (mode : VideoMode) (isAux : Bool) (o : Nat) : Nat :=
  match mode with
  | .HGR => o % 2
  | .DHGR => 2 * (o % 2) + (if isAux then 0 else 1)

/-- HGR has no aux bank. -/
def AuxOk (mode : VideoMode) (isAux : Bool) : Prop := isAux = true → mode = .DHGR


end IIVision
