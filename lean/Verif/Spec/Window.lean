import Verif.Model.Bitmap

/-! Independent description of the windows the encoder looks at: a byte's display
bits with the three neighbouring bits on either side, in screen order. -/

namespace IIVision.Spec

/-- HGR: trailing bits 5, 6 and palette bit of the byte on the left; the byte (at
even offsets palette last, at odd offsets palette first); palette bit and leading
bits 0, 1 of the byte on the right. -/
def hgrWindow (odd : Bool) (l b r : U8) : List Bool :=
  [l.getLsbD 5, l.getLsbD 6, l.getLsbD 7] ++
  (if odd then
    [b.getLsbD 7, b.getLsbD 0, b.getLsbD 1, b.getLsbD 2, b.getLsbD 3, b.getLsbD 4, b.getLsbD 5,
      b.getLsbD 6]
  else
    [b.getLsbD 0, b.getLsbD 1, b.getLsbD 2, b.getLsbD 3, b.getLsbD 4, b.getLsbD 5, b.getLsbD 6,
      b.getLsbD 7]) ++
  [r.getLsbD 7, r.getLsbD 0, r.getLsbD 1]

/-- DHGR: trailing dots 4-6 of the byte on the left, the byte's 7 dots, leading dots
0-2 of the byte on the right. -/
def dhgrWindow (l b r : U8) : List Bool :=
  [l.getLsbD 4, l.getLsbD 5, l.getLsbD 6,
   b.getLsbD 0, b.getLsbD 1, b.getLsbD 2, b.getLsbD 3, b.getLsbD 4, b.getLsbD 5, b.getLsbD 6,
   r.getLsbD 0, r.getLsbD 1, r.getLsbD 2]

/-- Byte at offset `o - 1` of a page, zero before the start. -/
def before (row : Fin 256 → U8) (o : Fin 256) : U8 := if o.val = 0 then 0 else row (o - 1)
/-- Byte at offset `o + 1` of a page, zero past the end. -/
def after (row : Fin 256 → U8) (o : Fin 256) : U8 := if o.val = 255 then 0 else row (o + 1)

/-- The window of the byte at page `p`, offset `o` of the given bank.  The HGR
display order is offset order in main memory; the DHGR display order is
aux 0, main 0, aux 1, main 1, ... -/
def window (mode : VideoMode) (main aux : Mem) (isAux : Bool) (p : Fin 32) (o : Fin 256) :
    List Bool :=
  match mode, isAux with
  | .HGR, _ => hgrWindow (o.val % 2 == 1) (before (main p) o) (main p o) (after (main p) o)
  | .DHGR, true => dhgrWindow (before (main p) o) (aux p o) (main p o)
  | .DHGR, false => dhgrWindow (aux p o) (main p o) (after (aux p) o)

/-- Number with the given bits, least significant first. -/
def bitsVal : List Bool → Nat
  | [] => 0
  | b :: l => (if b then 1 else 0) + 2 * bitsVal l

/-- Numeric value of a window: the index component used for the distance table. -/
def winVal (mode : VideoMode) (main aux : Mem) (isAux : Bool) (p : Fin 32) (o : Fin 256) : Nat :=
  bitsVal (window mode main aux isAux p o)

/-- Store a byte into one of the two banks. -/
def storeBank (banks : Mem × Mem) (isAux : Bool) (p : Fin 32) (o : Fin 256) (v : U8) : Mem × Mem :=
  if isAux then (banks.1, Grid.set banks.2 p o v) else (Grid.set banks.1 p o v, banks.2)

/-- A distance table with zero diagonal. -/
def ZeroDiag (N : Nat) (t : EditTable) : Prop := ∀ k a, a < 2 ^ N → t k (a * 2 ^ N + a) = 0
/-- A distance table of a bitmap class that is zero only on the diagonal. -/
def DiagOnly (C : Cls) (t : EditTable) : Prop :=
  ∀ k a b, k < C.byteMasks.length → a < 2 ^ C.maskedBits → b < 2 ^ C.maskedBits →
    (t k (a * 2 ^ C.maskedBits + b) = 0 ↔ a = b)
/-- A symmetric distance table. -/
def Symmetric (N : Nat) (t : EditTable) : Prop :=
  ∀ k a b, a < 2 ^ N → b < 2 ^ N → t k (a * 2 ^ N + b) = t k (b * 2 ^ N + a)

end IIVision.Spec
