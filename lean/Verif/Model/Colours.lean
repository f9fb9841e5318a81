import Verif.Model.Bitmap

/-! Model of transcoder/colours.py, of `HGRBitmap.to_dots` (screen.py:710-789), of the
palette colour tables and of the substitution-cost part of make_data_tables.py. -/

namespace IIVision

/-- colours.py:27-42 / 56-71: the member names shared by `HGRColours` and `DHGRColours`. -/
inductive Colour where
  | BLACK | MAGENTA | BROWN | ORANGE | DARK_GREEN | GREY1 | GREEN | YELLOW
  | DARK_BLUE | VIOLET | GREY2 | PINK | MED_BLUE | LIGHT_BLUE | AQUA | WHITE
  deriving DecidableEq, Repr

/-- All members in declaration order. -/
def Colour.all : List Colour :=
  [.BLACK, .MAGENTA, .BROWN, .ORANGE, .DARK_GREEN, .GREY1, .GREEN, .YELLOW,
   .DARK_BLUE, .VIOLET, .GREY2, .PINK, .MED_BLUE, .LIGHT_BLUE, .AQUA, .WHITE]

/-- colours.py:27-42 `HGRColours` values. -/
def hgrValue : Colour → Nat
  | .BLACK => 0b0000
  | .MAGENTA => 0b0001
  | .BROWN => 0b1000
  | .ORANGE => 0b1001
  | .DARK_GREEN => 0b0100
  | .GREY1 => 0b0101
  | .GREEN => 0b1100
  | .YELLOW => 0b1101
  | .DARK_BLUE => 0b0010
  | .VIOLET => 0b0011
  | .GREY2 => 0b1010
  | .PINK => 0b1011
  | .MED_BLUE => 0b0110
  | .LIGHT_BLUE => 0b0111
  | .AQUA => 0b1110
  | .WHITE => 0b1111

/-- colours.py:56-71 `DHGRColours` values. -/
def dhgrValue : Colour → Nat
  | .BLACK => 0b0000
  | .MAGENTA => 0b1000
  | .BROWN => 0b0100
  | .ORANGE => 0b1100
  | .DARK_GREEN => 0b0010
  | .GREY1 => 0b1010
  | .GREEN => 0b0110
  | .YELLOW => 0b1110
  | .DARK_BLUE => 0b0001
  | .VIOLET => 0b1001
  | .GREY2 => 0b0101
  | .PINK => 0b1101
  | .MED_BLUE => 0b0011
  | .LIGHT_BLUE => 0b1011
  | .AQUA => 0b0111
  | .WHITE => 0b1111

/-- The colour enum used for a mode (make_data_tables.py:203-204). -/
def VideoMode.colourValue : VideoMode → Colour → Nat
  | .HGR => hgrValue
  | .DHGR => dhgrValue

/-- Enum lookup by value, `colours(colour)` (colours.py:127): `ValueError` if no member
has that value. -/
def colourOf (value : Colour → Nat) (v : Nat) : Except PyErr Colour :=
  match Colour.all.find? fun c => value c == v with
  | some c => .ok c
  | none => .error .valueError

/-- colours.py:83-84 `_ror`. -/
def ror1 (x : Nat) : Nat := ((x &&& 0b1110) >>> 1) ^^^ ((x &&& 0b0001) <<< 3)
/-- colours.py:96-97 `_rol`. -/
def rol1 (x : Nat) : Nat := ((x &&& 0b0111) <<< 1) ^^^ ((x &&& 0b1000) >>> 3)
/-- colours.py:74-80 `ror`. -/
def ror : Nat → Nat → Nat
  | x, 0 => x
  | x, n + 1 => ror (ror1 x) n
/-- colours.py:87-93 `rol`. -/
def rol : Nat → Nat → Nat
  | x, 0 => x
  | x, n + 1 => rol (rol1 x) n

/-- colours.py:125-132 loop of `dots_to_nominal_colour_pixels`, with `n` iterations left. -/
def dotsLoop (value : Colour → Nat) : (n : Nat) → (shifted phase : Nat) → Except PyErr (List Colour)
  | 0, _, _ => .ok []
  | n + 1, shifted, phase => do
    let c ← colourOf value (rol (shifted &&& 0b1111) phase)
    let rest ← dotsLoop value n (shifted >>> 1) (if phase + 1 = 4 then 0 else phase + 1)
    return c :: rest

/-- colours.py:100-134 `dots_to_nominal_colour_pixels` (`lru_cache` is transparent). -/
def dotsToNominalColourPixels (numBits dots : Nat) (value : Colour → Nat) (initPhase : Nat) :
    Except PyErr (List Colour) :=
  dotsLoop value numBits dots initPhase

/-- colours.py:137-148 `dots_to_nominal_colour_pixel_values`. -/
def dotsToNominalColourPixelValues (numBits dots : Nat) (value : Colour → Nat) (initPhase : Nat) :
    Except PyErr (List Nat) := do
  let l ← dotsToNominalColourPixels numBits dots value initPhase
  return l.map value

/-- screen.py:710-739 `_double_pixels`.  Python ints as 64-bit words: every value in
this and the next function stays far below 2^64. -/
def doublePixels (x : U64) : U64 :=
  ((x &&& 0x40#64) <<< 8) + ((x &&& 0x40#64) <<< 7) + ((x &&& 0x40#64) <<< 6) +
  ((x &&& 0x20#64) <<< 6) + ((x &&& 0x20#64) <<< 5) +
  ((x &&& 0x10#64) <<< 5) + ((x &&& 0x10#64) <<< 4) +
  ((x &&& 0x08#64) <<< 4) + ((x &&& 0x08#64) <<< 3) +
  ((x &&& 0x04#64) <<< 3) + ((x &&& 0x04#64) <<< 2) +
  ((x &&& 0x02#64) <<< 2) + ((x &&& 0x02#64) <<< 1) +
  ((x &&& 0x01#64) <<< 1) + (x &&& 0x01#64)

/-- screen.py:741-789 `HGRBitmap.to_dots`.  `~m` on a Python int and-ed with a
non-negative int below 2^64 equals the 64-bit complement. -/
def hgrToDots (v : U64) (byteOffset : Nat) : Except PyErr U64 := do
  pyAssert ((v &&& 0x3fff#64) == v)
  let h := (v &&& 0b111#64) <<< 5
  let hp := ((h &&& 0x80#64) >>> 7).toNat
  let res := doublePixels (h &&& 0x7f#64) >>> (11 - hp)
  let (b, bp) :=
    if byteOffset = 0 then
      let b := (v >>> 3) &&& 0xff#64
      (b, ((b &&& 0x80#64) >>> 7).toNat)
    else
      let bp := (v >>> 3) &&& 0x01#64
      (((v >>> 4) &&& 0x7f#64) ^^^ (bp <<< 7), bp.toNat)
  let res := res &&& ~~~(0x3fff#64 <<< (3 + bp))
  let res := res ^^^ (doublePixels (b &&& 0x7f#64) <<< (3 + bp))
  let f := ((v >>> 12) &&& 0b11#64) ^^^ (((v >>> 11) &&& 0b01#64) <<< 7)
  let fp := ((f &&& 0x80#64) >>> 7).toNat
  let res := res &&& ~~~(0xf#64 <<< (17 + fp))
  let res := res ^^^ (doublePixels (f &&& 0x7f#64) <<< (17 + fp))
  return res &&& 0x1fffff#64

/-- screen.py:982-990 `DHGRBitmap.to_dots`. -/
def dhgrToDots (v : U64) (_byteOffset : Nat) : Except PyErr U64 := .ok v

/-- `to_dots` of a mode's bitmap class. -/
def VideoMode.toDots : VideoMode → U64 → Nat → Except PyErr U64
  | .HGR => hgrToDots
  | .DHGR => dhgrToDots

/-- palette.py:11 RGB triple. -/
abbrev RGB := Nat × Nat × Nat

/-- palette.py:33-54 `NTSCPalette.RGB` (keyed by `HGRColours` members). -/
def ntscRGB : Colour → RGB
  | .BLACK => (0, 0, 0)
  | .MAGENTA => (148, 12, 125)
  | .BROWN => (99, 77, 0)
  | .ORANGE => (249, 86, 29)
  | .DARK_GREEN => (51, 111, 0)
  | .GREY1 => (126, 126, 126)
  | .GREEN => (67, 200, 0)
  | .YELLOW => (221, 206, 23)
  | .DARK_BLUE => (32, 54, 212)
  | .VIOLET => (188, 55, 255)
  | .GREY2 => (126, 126, 126)
  | .PINK => (255, 129, 236)
  | .MED_BLUE => (7, 168, 225)
  | .LIGHT_BLUE => (158, 172, 255)
  | .AQUA => (93, 248, 133)
  | .WHITE => (255, 255, 255)

/-- palette.py:57-78 `IIGSPalette.RGB`. -/
def iigsRGB : Colour → RGB
  | .BLACK => (0, 0, 0)
  | .MAGENTA => (221, 0, 51)
  | .BROWN => (136, 85, 34)
  | .ORANGE => (255, 102, 0)
  | .DARK_GREEN => (0, 119, 0)
  | .GREY1 => (85, 85, 85)
  | .GREEN => (0, 221, 0)
  | .YELLOW => (255, 255, 0)
  | .DARK_BLUE => (0, 0, 153)
  | .VIOLET => (221, 0, 221)
  | .GREY2 => (170, 170, 170)
  | .PINK => (255, 153, 136)
  | .MED_BLUE => (34, 34, 255)
  | .LIGHT_BLUE => (102, 170, 255)
  | .AQUA => (0, 255, 153)
  | .WHITE => (255, 255, 255)

/-- make_data_tables.py:18-22 `PIXEL_CHARS`, `pixel_char` (`IndexError` past the end). -/
def pixelChar (i : Nat) : Except PyErr Char :=
  match "0123456789ABCDEF".toList[i]? with
  | some c => .ok c
  | none => .error .indexError

/-- make_data_tables.py:25-27 `pixel_string` (the `lru_cache` is transparent). -/
def pixelString : List Nat → Except PyErr (List Char)
  | [] => .ok []
  | p :: ps => do
    let c ← pixelChar p
    let cs ← pixelString ps
    return c :: cs

/-- numpy assignment `m[r, c] = v` on a two-dimensional array. -/
def set2 {α : Type} (m : Nat → Nat → α) (r c : Nat) (v : α) : Nat → Nat → α :=
  fun r' c' => if r' = r ∧ c' = c then v else m r' c'

/-- make_data_tables.py:55-70 `compute_diff_matrix`: both loops run over the palette
dictionary, which is keyed by `HGRColours`, and assign `dm[colour1.value, colour2.value]`.
`deltaE` stands for `int(delta_e_cie2000(lab(a), lab(b)))` (third-party colour code, a
parameter) and `dm0` for the uninitialised contents of `np.ndarray`. -/
def diffMatrix (deltaE : RGB → RGB → Int) (pal : Colour → RGB) (dm0 : Nat → Nat → Int) :
    Nat → Nat → Int :=
  Colour.all.foldl (fun dm c1 => Colour.all.foldl (fun dm c2 =>
    set2 dm (hgrValue c1) (hgrValue c2) (deltaE (pal c1) (pal c2))) dm) dm0

/-- make_data_tables.py:30-52 `EditDistanceParams`; cost arrays are indexed by `ord(c)`.  They
are class attributes, so every instance shares (and modifies) the same arrays. -/
structure EditDistanceParams where
  insertCosts : Nat → Int := fun _ => 100000
  deleteCosts : Nat → Int := fun _ => 100000
  transposeCosts : Nat → Nat → Int := fun _ _ => 1
  substituteCosts : Nat → Nat → Int := fun _ _ => 0
  errorSubstituteCosts : Nat → Nat → Int := fun _ _ => 0

/-- make_data_tables.py:80-87, the body of the double loop. -/
def substituteStep (dm : Nat → Nat → Int) (edp : EditDistanceParams) (i j : Nat) (c d : Char) :
    EditDistanceParams :=
  let cost := dm i j
  { edp with
    substituteCosts :=
      set2 (set2 edp.substituteCosts c.toNat d.toNat cost) d.toNat c.toNat cost
    errorSubstituteCosts :=
      set2 (set2 edp.errorSubstituteCosts c.toNat d.toNat (5 * cost)) d.toNat c.toNat (5 * cost) }

/-- make_data_tables.py:73-89 `compute_substitute_costs`.  `edp0` is the state in which an
earlier call left the shared class-level arrays (initially `{}`). -/
def computeSubstituteCosts (deltaE : RGB → RGB → Int) (pal : Colour → RGB)
    (dm0 : Nat → Nat → Int) (edp0 : EditDistanceParams) : EditDistanceParams :=
  "0123456789ABCDEF".toList.zipIdx.foldl (fun edp ci =>
    "0123456789ABCDEF".toList.zipIdx.foldl (fun edp dj =>
      substituteStep (diffMatrix deltaE pal dm0) edp ci.2 dj.2 ci.1 dj.1) edp) edp0

/-- make_data_tables.py:25-27, 148-152: the character a pixel contributes to the string
is `PIXEL_CHARS[` its enum value `]`, so replacing pixel `x` by `y` is charged this. -/
def VideoMode.pixelCost (mode : VideoMode) (deltaE : RGB → RGB → Int) (pal : Colour → RGB)
    (dm0 : Nat → Nat → Int) (edp0 : EditDistanceParams) (x y : Colour) : Except PyErr Int := do
  let c ← pixelChar (mode.colourValue x)
  let d ← pixelChar (mode.colourValue y)
  return (computeSubstituteCosts deltaE pal dm0 edp0).substituteCosts c.toNat d.toNat

end IIVision
