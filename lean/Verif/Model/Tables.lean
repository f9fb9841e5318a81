import Verif.Model.Colours
import Verif.Model.Grabber

/-! Model of the edit-distance table generator, transcoder/make_data_tables.py. -/

namespace IIVision

/-- Greatest (1-based) position `p ≤ n` at which the string holds `c`, 0 if there is none. -/
def lastPos (s : List Char) (c : Char) : Nat → Nat
  | 0 => 0
  | n + 1 => if s[n]? = some c then n + 1 else lastPos s c n

theorem lastPos_le (s : List Char) (c : Char) (n : Nat) : lastPos s c n ≤ n := by
  induction n with
  | zero => exact Nat.le_refl _
  | succ n ih => unfold lastPos; split <;> omega

/-- `ord` of the character at 0-based position `i`. -/
def ordAt (s : List Char) (i : Nat) : Nat := (s.getD i '\x00').toNat

/-- Sum of the costs of the characters at 1-based positions `lo+1 .. hi`
(`col_delete_range_cost` / `row_insert_range_cost` of the library). -/
def rangeCost (cost : Nat → Int) (s : List Char) (lo hi : Nat) : Int :=
  ((s.take hi).drop lo).foldl (fun acc c => acc + cost c.toNat) 0

/-- `d[i, j]` of `weighted_levenshtein.dam_lev` 0.2.2 (requirements.txt:32), called at
make_data_tables.py:98-104: weighted Damerau-Levenshtein distance between the first `i`
characters of `a` and the first `j` of `b`.  The library is not part of the repository;
this is its documented dynamic program, written as a recursion (each cell is computed from
earlier cells by the same formula).  Position `k` is the last row above at which `a` holds
`b[j]`, `l` the last column to the left at which `b` holds `a[i]`; when either is 0 the
library adds `DBL_MAX`, so the transposition is never the minimum.  All costs are
integers far below 2^53, so float64 sums are exact. -/
def damLevAt (ins del : Nat → Int) (sub trans : Nat → Nat → Int) (a b : List Char) :
    Nat → Nat → Int
  | 0, 0 => 0
  | i + 1, 0 => damLevAt ins del sub trans a b i 0 + del (ordAt a i)
  | 0, j + 1 => damLevAt ins del sub trans a b 0 j + ins (ordAt b j)
  | i + 1, j + 1 =>
    let k := lastPos a (b.getD j '\x00') i
    let l := lastPos b (a.getD i '\x00') j
    let cost := if ordAt a i = ordAt b j then 0 else sub (ordAt a i) (ordAt b j)
    let best := min (damLevAt ins del sub trans a b i j + cost)
      (min (damLevAt ins del sub trans a b (i + 1) j + ins (ordAt b j))
        (damLevAt ins del sub trans a b i (j + 1) + del (ordAt a i)))
    if _h : k = 0 ∨ l = 0 then best
    else min best (damLevAt ins del sub trans a b (k - 1) (l - 1) + rangeCost del a k i
      + trans (ordAt a (k - 1)) (ordAt a i) + rangeCost ins b l j)
termination_by i j => i + j
decreasing_by
  all_goals try omega
  have := lastPos_le a (b.getD j '\x00') i
  have := lastPos_le b (a.getD i '\x00') j
  omega

/-- `weighted_levenshtein.dam_lev(a, b, ...)`.  `transpose_costs` is not passed by the
repository (make_data_tables.py:98-104), so the library's default of 1 applies. -/
def damLev (ins del : Nat → Int) (sub : Nat → Nat → Int) (a b : List Char) : Int :=
  damLevAt ins del sub (fun _ _ => 1) a b a.length b.length

/-- make_data_tables.py:92-108 `edit_distance`. -/
def editDistance (edp : EditDistanceParams) (a b : List Char) (error : Bool) :
    Except PyErr Int := do
  let res := damLev edp.insertCosts edp.deleteCosts
    (if error then edp.errorSubstituteCosts else edp.substituteCosts) a b
  pyAssert (decide (0 ≤ res) && decide (res < 2 ^ 16))
  return res

/-- make_data_tables.py:147-152 / 165-170: masked value to pixel string. -/
def VideoMode.windowString (mode : VideoMode) (nominal : Colour → Nat) (v o ph : Nat) :
    Except PyErr (List Char) := do
  let dots ← mode.toDots (BitVec.ofNat 64 v) o
  let px ← dotsToNominalColourPixelValues mode.cls.maskedDots dots.toNat nominal ph
  pixelString px

/-- make_data_tables.py:171 `edit[o, pair] = ...` on the `(len(BYTE_MASKS), 4^bits)` uint16
array. -/
def Cls.setEdit (C : Cls) (edit : EditTable) (o pair : Nat) (v : Int) : Except PyErr EditTable :=
  if o < C.byteMasks.length ∧ pair < 2 ^ C.maskedBits * 2 ^ C.maskedBits then
    .ok (set2 edit o pair (BitVec.ofInt 16 v))
  else .error .indexError

/-- make_data_tables.py:155-172: the `j` loop (progress bar omitted). -/
def VideoMode.editRow (mode : VideoMode) (nominal : Colour → Nat) (edp : EditDistanceParams)
    (i o ph : Nat) (edit : EditTable) : Except PyErr EditTable := do
  let first ← mode.windowString nominal i o ph
  (List.range i).foldlM (fun edit j => do
    let second ← mode.windowString nominal j o ph
    let d ← editDistance edp first second false
    mode.cls.setEdit edit o ((i <<< mode.cls.maskedBits) + j) d) edit

/-- make_data_tables.py:111-174 `compute_edit_distance`. -/
def VideoMode.computeEditDistance (mode : VideoMode) (edp : EditDistanceParams)
    (nominal : Colour → Nat) : Except PyErr EditTable :=
  (List.range (2 ^ mode.cls.maskedBits)).foldlM (fun edit i =>
    mode.cls.phases.zipIdx.foldlM (fun edit pho =>
      mode.editRow nominal edp i pho.2 pho.1 edit) edit) (fun _ _ => 0)

/-- palette.py:81-84 `PALETTES` (the values are the classes' `ID` and `RGB`). -/
def palettes : List (Palette × (Colour → RGB)) := [(.IIGS, iigsRGB), (.NTSC, ntscRGB)]

/-- `"%d" % n`. -/
def intText (n : Int) : Text := if n < 0 then 45 :: decText n.natAbs else decText n.natAbs

/-- make_data_tables.py:19 `DATA_DIR`. -/
def dataDir : Text := txt "transcoder/data"

/-- make_data_tables.py:186-187: the file written (`Bitmap.NAME`, screen.py:606, 879, is the
mode's name). -/
def VideoMode.dataFileWritten (mode : VideoMode) (p : Palette) : Text :=
  dataDir ++ txt "/" ++ mode.name ++ txt "_palette_" ++ intText p.value
    ++ txt "_edit_distance.npz"

/-- screen.py:348-350: the file loaded. -/
def VideoMode.dataFileRead (mode : VideoMode) (p : Palette) : Text :=
  txt "transcoder/data/" ++ mode.name ++ txt "_palette_" ++ intText p.value
    ++ txt "_edit_distance.npz"

/-- make_data_tables.py:191-205 `main`: what ends up in the data directory, as a list of
(file name, array); `np.savez_compressed` followed by `np.load` is taken to be lossless. -/
def makeDataTables (deltaE : RGB → RGB → Int) (dm0 : Nat → Nat → Int) :
    Except PyErr (List (Text × EditTable)) := do
  return (← palettes.foldlM (fun (st : EditDistanceParams × List (Text × EditTable)) pr => do
    let edp := computeSubstituteCosts deltaE pr.2 dm0 st.1
    let h ← VideoMode.HGR.computeEditDistance edp hgrValue
    let files := (VideoMode.HGR.dataFileWritten pr.1, h) :: st.2
    let d ← VideoMode.DHGR.computeEditDistance edp dhgrValue
    return (edp, (VideoMode.DHGR.dataFileWritten pr.1, d) :: files)) ({}, [])).2

/-- screen.py:343-367 `edit_distances`: load the newest file of that name, then symmetrise. -/
def VideoMode.loadEditDistances (mode : VideoMode) (files : List (Text × EditTable))
    (p : Palette) : Except PyErr EditTable :=
  match files.find? fun f => f.1 == mode.dataFileRead p with
  | some f => .ok (mode.cls.editDistances f.2)
  | none => .error .fileNotFound

end IIVision
