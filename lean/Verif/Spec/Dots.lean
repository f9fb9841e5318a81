import Verif.Spec.Window
import Verif.Model.Colours

/-! Independent description of hi-res display dots: every byte occupies 14 dots, data
bit `j` lights dots `2j` and `2j+1`; if the palette bit (bit 7) is set everything is
delayed by one dot and the gap at dot 0 shows the last data bit (bit 6) of the byte on
the left. -/

namespace IIVision.Spec

/-- Dot `i` (0..13) of byte `b`, whose left neighbour is `prev`. -/
def dotOf (prev b : U8) (i : Nat) : Bool :=
  if b.getLsbD 7 then (if i = 0 then prev.getLsbD 6 else b.getLsbD ((i - 1) / 2))
  else b.getLsbD (i / 2)

/-- Byte at offset `o` of a 256-byte page seen as an infinite row, zero outside it. -/
def rowByte (row : Fin 256 → U8) (o : Nat) : U8 := if h : o < 256 then row ⟨o, h⟩ else 0

/-- Dot `d` of a page displayed as one long row: dots `14o .. 14o+13` belong to byte `o`. -/
def rowDot (row : Fin 256 → U8) (d : Nat) : Bool :=
  dotOf (if d < 14 then 0 else rowByte row (d / 14 - 1)) (rowByte row (d / 14)) (d % 14)

/-- The 21 dots around byte `b` with neighbours `l` and `r`: the last 3 of `l`, the 14
of `b`, the first 4 of `r`. -/
def windowDot (l b r : U8) (n : Nat) : Bool :=
  if n < 3 then dotOf 0 l (n + 11)
  else if n < 17 then dotOf l b (n - 3)
  else if n < 21 then dotOf b r (n - 17)
  else false

/-- DHGR: byte dots are the low 7 bits, no delay. -/
def dhgrWindowDot (l b r : U8) (n : Nat) : Bool :=
  if n < 3 then l.getLsbD (n + 4)
  else if n < 10 then b.getLsbD (n - 3)
  else if n < 13 then r.getLsbD (n - 10)
  else false

/-- Byte `c` of a double hi-res page row in display order aux 0, main 0, aux 1, ... -/
def dhgrByte (main aux : Fin 256 → U8) (c : Nat) : U8 :=
  if c % 2 = 0 then rowByte aux (c / 2) else rowByte main (c / 2)

/-- Dot `d` of a page displayed as one long row. -/
def pageDot (mode : VideoMode) (main aux : Mem) (p : Fin 32) (d : Nat) : Bool :=
  match mode with
  | .HGR => rowDot (main p) d
  | .DHGR => (dhgrByte (main p) (aux p) (d / 7)).getLsbD (d % 7)

/-- First dot of a byte. -/
def startDot (mode : VideoMode) (isAux : Bool) (o : Fin 256) : Nat :=
  match mode with
  | .HGR => 14 * o.val
  | .DHGR => 7 * (2 * o.val + if isAux then 0 else 1)

/-- The row preceded by 4 dark dots (so that windows reaching 3 dots to the left of
the first byte make sense, and dot positions keep their residue mod 4). -/
def padDot (mode : VideoMode) (main aux : Mem) (p : Fin 32) (q : Nat) : Bool :=
  if q < 4 then false else pageDot mode main aux p (q - 4)

/-- Colour `c` is what four consecutive dots starting at `e` look like: the dot at
position `q` of the row drives bit `(q + ph) % 4` of the colour's 4-bit pattern. -/
def ShowsColour (value : Colour → Nat) (dot : Nat → Bool) (ph e : Nat) (c : Colour) : Prop :=
  ∀ q, e ≤ q → q < e + 4 → (value c).testBit ((q + ph) % 4) = dot q

end IIVision.Spec
