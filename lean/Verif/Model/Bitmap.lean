import Verif.Model.Screen

/-! Model of transcoder/screen.py lines 128-1007: `Bitmap`, `HGRBitmap`,
`DHGRBitmap`.

The Python class hierarchy becomes a record `Cls` of the class-level constants and
the methods that `HGRBitmap`/`DHGRBitmap` override, plus functions parametrised by
it for the methods of the base class.  numpy `uint64` values are `BitVec 64`
(wrapping arithmetic, as numpy).  Shift amounts and list indices are `Nat`. -/

namespace IIVision

/-- numpy `(32, 128)` array (packed representation). -/
abbrev Packed := Fin 32 → Fin 128 → U64

/-- Class attributes and overridden methods of a `Bitmap` subclass
(screen.py:140-167, 193-254). -/
structure Cls where
  /-- HEADER_BITS -/
  headerBits : Nat
  /-- BODY_BITS -/
  bodyBits : Nat
  /-- FOOTER_BITS -/
  footerBits : Nat
  /-- MASKED_BITS -/
  maskedBits : Nat
  /-- MASKED_DOTS -/
  maskedDots : Nat
  /-- BYTE_MASKS -/
  byteMasks : List U64
  /-- BYTE_SHIFTS -/
  byteShifts : List Nat
  /-- PHASES -/
  phases : List Nat
  /-- `_make_header` -/
  makeHeader : U64 → U64
  /-- `_body` -/
  body : Mem → Option Mem → Except PyErr Packed
  /-- `_make_footer` -/
  makeFooter : U64 → U64
  /-- `byte_offset(page_offset, is_aux)` -/
  byteOffset : Nat → Bool → Except PyErr Nat
  /-- `_byte_offsets(is_aux)` -/
  byteOffsets : Bool → Except PyErr (Nat × Nat)
  /-- `masked_update(byte_offset, old_value, new_value)` on a scalar; on arrays it
  acts elementwise -/
  maskedUpdate : Nat → U64 → U8 → U64

/-- Column `2*c` (numpy `[:, 0::2]`). -/
def evenOff (c : Fin 128) : Fin 256 := ⟨2 * c.val, by omega⟩
/-- Column `2*c+1` (numpy `[:, 1::2]`). -/
def oddOff (c : Fin 128) : Fin 256 := ⟨2 * c.val + 1, by omega⟩

/-- `x.astype(np.uint64)` for uint8. -/
abbrev u64 (x : U8) : U64 := x.setWidth 64

/-! ### HGRBitmap (screen.py:550-816) -/

/-- screen.py:650-661. -/
def hgrMakeHeader (col : U64) : U64 :=
  ((col &&& 0x800#64) >>> 9) ^^^ ((col &&& 0x60000#64) >>> 17)

/-- screen.py:663-677 one element of `_body`. -/
def hgrBodyCol (even odd : U8) : U64 :=
  (u64 even <<< 3) + ((u64 odd &&& 0x7f#64) <<< 12) + ((u64 odd &&& 0x80#64) <<< 4)

/-- screen.py:663-677 `_body`. -/
def hgrBody (main : Mem) (_aux : Option Mem) : Except PyErr Packed :=
  .ok fun p c => hgrBodyCol (main p (evenOff c)) (main p (oddOff c))

/-- screen.py:679-690. -/
def hgrMakeFooter (col : U64) : U64 :=
  (((col &&& 0x400#64) >>> 10) ^^^ ((col &&& 0x18#64) >>> 2)) <<< 19

/-- screen.py:692-700. -/
def hgrByteOffset (pageOffset : Nat) (isAux : Bool) : Except PyErr Nat := do
  pyAssert (!isAux)
  return if pageOffset % 2 == 1 then 1 else 0

/-- screen.py:702-708. -/
def hgrByteOffsets (isAux : Bool) : Except PyErr (Nat × Nat) := do
  pyAssert (!isAux)
  return (0, 1)

/-- screen.py:791-816.  `(new_value & 0x7f) << 1` and `(new_value & 0x80) >> 7` fit
in 8 bits, so the numpy result type does not matter. -/
def hgrMaskedUpdate (byteOffset : Nat) (old : U64) (v : U8) : U64 :=
  if byteOffset = 0 then
    (old &&& ~~~(0x7f8#64)) ^^^ (u64 v <<< 3)
  else
    (old &&& ~~~(0x7f800#64)) ^^^
      ((((u64 v &&& 0x7f#64) <<< 1) ^^^ ((u64 v &&& 0x80#64) >>> 7)) <<< 11)

/-- screen.py:606-645 `HGRBitmap` class attributes. -/
def hgr : Cls where
  headerBits := 3
  bodyBits := 16
  footerBits := 3
  maskedBits := 14
  maskedDots := 18
  byteMasks := [0x3fff#64, 0x3fff00#64]
  byteShifts := [0, 8]
  phases := [1, 3]
  makeHeader := hgrMakeHeader
  body := hgrBody
  makeFooter := hgrMakeFooter
  byteOffset := hgrByteOffset
  byteOffsets := hgrByteOffsets
  maskedUpdate := hgrMaskedUpdate

/-! ### DHGRBitmap (screen.py:819-1007) -/

/-- screen.py:921-924. -/
def dhgrMakeHeader (col : U64) : U64 := (col &&& 0x70000000#64) >>> 28

/-- screen.py:938-947 one element of `_body` (`& 0x7f` happens in uint8). -/
def dhgrBodyCol (aux0 main0 aux1 main1 : U8) : U64 :=
  (u64 (aux0 &&& 0x7f#8) <<< 3) + (u64 (main0 &&& 0x7f#8) <<< 10) +
  (u64 (aux1 &&& 0x7f#8) <<< 17) + (u64 (main1 &&& 0x7f#8) <<< 24)

/-- screen.py:926-947 `_body`; with `aux_memory=None` Python raises `AttributeError`. -/
def dhgrBody (main : Mem) (aux : Option Mem) : Except PyErr Packed :=
  match aux with
  | none => .error .attributeError
  | some aux => .ok fun p c =>
      dhgrBodyCol (aux p (evenOff c)) (main p (evenOff c)) (aux p (oddOff c)) (main p (oddOff c))

/-- screen.py:949-952. -/
def dhgrMakeFooter (col : U64) : U64 := (col &&& 0x38#64) <<< 28

/-- screen.py:954-968. -/
def dhgrByteOffset (pageOffset : Nat) (isAux : Bool) : Except PyErr Nat :=
  let isOdd := pageOffset % 2 == 1
  .ok (if isAux then (if isOdd then 2 else 0) else (if isOdd then 3 else 1))

/-- screen.py:970-980. -/
def dhgrByteOffsets (isAux : Bool) : Except PyErr (Nat × Nat) :=
  .ok (if isAux then (0, 2) else (1, 3))

/-- screen.py:992-1007. -/
def dhgrMaskedUpdate (byteOffset : Nat) (old : U64) (v : U8) : U64 :=
  (old &&& ~~~((0x7f#64) <<< (7 * byteOffset + 3))) ^^^
    ((u64 v &&& 0x7f#64) <<< (7 * byteOffset + 3))

/-- screen.py:879-919 `DHGRBitmap` class attributes. -/
def dhgr : Cls where
  headerBits := 3
  bodyBits := 28
  footerBits := 3
  maskedBits := 13
  maskedDots := 10
  byteMasks := [0x1fff#64, 0xfff80#64, 0x7ffc000#64, 0x3ffe00000#64]
  byteShifts := [0, 7, 14, 21]
  phases := [1, 0, 3, 2]
  makeHeader := dhgrMakeHeader
  body := dhgrBody
  makeFooter := dhgrMakeFooter
  byteOffset := dhgrByteOffset
  byteOffsets := dhgrByteOffsets
  maskedUpdate := dhgrMaskedUpdate

/-- transcoder/video_mode.py:6-8 `VideoMode`. -/
inductive VideoMode where
  | HGR
  | DHGR
  deriving DecidableEq, Repr

/-- video_mode.py:7-8 enum values. -/
def VideoMode.value : VideoMode → Nat
  | .HGR => 0
  | .DHGR => 1

/-- video.py:40-53: the bitmap class used for a mode. -/
def VideoMode.cls : VideoMode → Cls
  | .HGR => hgr
  | .DHGR => dhgr

/-! ### Bitmap base class (screen.py:128-547) -/

/-- screen.py:207-226 `_pack` applied to the array returned by `_body`.
`np.roll(body, ±1, axis=1)` is `c - 1` / `c + 1` in `Fin 128` (wrapping). -/
def Cls.packBody (C : Cls) (body : Packed) : Packed := fun p c =>
  let header := if c = 0 then 0#64 else C.makeHeader (body p (c - 1))
  let footer := if c = 127 then 0#64 else C.makeFooter (body p (c + 1))
  header ^^^ body p c ^^^ footer

/-- screen.py:169-188 `Bitmap` (the palette only selects the distance table and is
passed separately). -/
structure Bitmap where
  main : MemoryMap
  aux : Option MemoryMap
  packed : Packed

/-- screen.py:169-188 `Bitmap.__init__`, including `_pack` (207-226). -/
def Bitmap.new (C : Cls) (main : MemoryMap) (aux : Option MemoryMap) : Except PyErr Bitmap := do
  let body ← C.body main.pageOffset (aux.map (·.pageOffset))
  return { main, aux, packed := C.packBody body }

/-- screen.py:647-648 `HGRBitmap.__init__`. -/
def HGRBitmap.new (main : MemoryMap) : Except PyErr Bitmap := Bitmap.new hgr main none
/-- screen.py:819 `DHGRBitmap` uses the base-class constructor. -/
def DHGRBitmap.new (main aux : MemoryMap) : Except PyErr Bitmap := Bitmap.new dhgr main (some aux)

/-- screen.py:184 `SCREEN_BYTES`. -/
def Cls.screenBytes (C : Cls) : Nat := C.byteMasks.length

/-- screen.py:295-306 `_fix_column_left`. -/
def Cls.fixColumnLeft (C : Cls) (left col : U64) : U64 :=
  (left &&& BitVec.ofNat 64 (2 ^ (C.headerBits + C.bodyBits) - 1)) ^^^ C.makeFooter col

/-- screen.py:308-320 `_fix_column_right`. -/
def Cls.fixColumnRight (C : Cls) (right col : U64) : U64 :=
  (right &&& (BitVec.ofNat 64 (2 ^ (C.bodyBits + C.footerBits) - 1) <<< C.headerBits)) ^^^
    C.makeHeader col

/-- numpy element assignment on a `(32, 128)` array. -/
def Packed.set (a : Packed) (p : Fin 32) (c : Fin 128) (v : U64) : Packed :=
  fun p' c' => if p' = p ∧ c' = c then v else a p' c'

/-- screen.py:276-293 `_fix_scalar_neighbours`. -/
def Cls.fixScalarNeighbours (C : Cls) (a : Packed) (p : Fin 32) (c : Fin 128) (k : Nat) : Packed :=
  if k = 0 ∧ c.val > 0 then
    a.set p (c - 1) (C.fixColumnLeft (a p (c - 1)) (a p c))
  else if k = C.screenBytes - 1 ∧ c.val < 127 then
    a.set p (c + 1) (C.fixColumnRight (a p (c + 1)) (a p c))
  else a

/-- screen.py:256-274 `apply`.  Page and offset are non-negative integers (all
callers pass numpy indices); out-of-range ones raise `IndexError`. -/
def Bitmap.apply (C : Cls) (b : Bitmap) (page offset : Nat) (isAux : Bool) (v : U8) :
    Except PyErr Bitmap := do
  let k ← C.byteOffset offset isAux
  let p ← npIndex 32 page
  let c ← npIndex 128 (offset / 2 : Nat)
  let packed := Packed.set b.packed p c (C.maskedUpdate k (b.packed p c) v)
  let packed := C.fixScalarNeighbours packed p c k
  if isAux then
    match b.aux with
    | none => .error .attributeError
    | some aux => do
      let aux ← aux.write page offset v
      return { b with aux := some aux, packed }
  else
    let main ← b.main.write page offset v
    return { b with main, packed }

/-- A sequence of `apply` calls. -/
def Bitmap.applyAll (C : Cls) (b : Bitmap) (ops : List (Fin 32 × Fin 256 × Bool × U8)) :
    Except PyErr Bitmap :=
  ops.foldlM (fun b op => b.apply C op.1.val op.2.1.val op.2.2.1 op.2.2.2) b

/-- One row (page) of a packed array. -/
abbrev Row := Fin 128 → U64

/-- screen.py:322-341 `_fix_array_neighbours` on one row: `np.roll` copies the row,
then the in-place `&=`/`^=` of `_fix_column_*` update every element. -/
def Cls.fixArrayNeighbours (C : Cls) (a : Row) (k : Nat) : Row :=
  if k = 0 then fun c => C.fixColumnLeft (a c) (a (c + 1))
  else if k = C.screenBytes - 1 then fun c => C.fixColumnRight (a c) (a (c - 1))
  else a

/-- screen.py:375-376 the masked, shifted value. -/
def Cls.masked (C : Cls) (data : U64) (k : Nat) : U64 :=
  (data &&& C.byteMasks.getD k 0) >>> C.byteShifts.getD k 0

/-- screen.py:369-378 `mask_and_shift_data` on a scalar, with its assertion. -/
def Cls.maskAndShift (C : Cls) (data : U64) (k : Nat) : Except PyErr U64 := do
  pyAssert (decide ((C.masked data k).toNat ≤ 2 ^ C.maskedBits))
  return C.masked data k

/-- screen.py:369-378 `mask_and_shift_data` on a row, with its assertion. -/
def Cls.maskAndShiftRow (C : Cls) (data : Row) (k : Nat) : Except PyErr Row := do
  pyAssert (decide (∀ c, (C.masked (data c) k).toNat ≤ 2 ^ C.maskedBits))
  return fun c => C.masked (data c) k

/-- The loaded edit-distance array: `dist[k][pair]`, `np.uint16` values. -/
abbrev EditTable := Nat → Nat → BitVec 16

/-- `dist[k][pair]`: the second axis has length `2^(2*MASKED_BITS)`. -/
def Cls.lookup (C : Cls) (t : EditTable) (k : Nat) (pair : U64) : Except PyErr (BitVec 16) :=
  if pair.toNat < 2 ^ (2 * C.maskedBits) ∧ k < C.byteMasks.length then .ok (t k pair.toNat)
  else .error .indexError

/-- Row version of the table lookup. -/
def Cls.lookupRow (C : Cls) (t : EditTable) (k : Nat) (pair : Row) :
    Except PyErr (Fin 128 → BitVec 16) :=
  if (∀ c, (pair c).toNat < 2 ^ (2 * C.maskedBits)) ∧ k < C.byteMasks.length then
    .ok fun c => t k (pair c).toNat
  else .error .indexError

/-- screen.py:384-398 `byte_pair_difference` (the `lru_cache` is transparent). -/
def Cls.bytePairDifference (C : Cls) (t : EditTable) (k : Nat) (oldPacked : U64) (content : U8) :
    Except PyErr (BitVec 16) := do
  let oldPixels ← C.maskAndShift oldPacked k
  let newPixels ← C.maskAndShift (C.maskedUpdate k oldPacked content) k
  C.lookup t k ((oldPixels <<< C.maskedBits) + newPixels)

/-- screen.py:472-488, 427-443: the loop body computing `dist` for byte offset `k`,
on one row. -/
def Cls.distsRow (C : Cls) (t : EditTable) (source target : Row) (content : Option U8) (k : Nat) :
    Except PyErr (Fin 128 → BitVec 16) := do
  let compare : Row := match content with
    | some v => C.fixArrayNeighbours (fun c => C.maskedUpdate k (source c) v) k
    | none => source
  let sourcePixels ← C.maskAndShiftRow compare k
  let targetPixels ← C.maskAndShiftRow target k
  C.lookupRow t k fun c => (sourcePixels c <<< C.maskedBits) + targetPixels c

/-- screen.py:453-494 `_diff_weights_page` (`diff` is an int32 array; the stored
uint16 values fit). -/
def Cls.diffWeightsPage (C : Cls) (t : EditTable) (source target : Row) (isAux : Bool)
    (content : Option U8) : Except PyErr (Fin 256 → Int) := do
  let ks ← C.byteOffsets isAux
  let d0 ← C.distsRow t source target content ks.1
  let d1 ← C.distsRow t source target content ks.2
  return fun o =>
    let c : Fin 128 := ⟨o.val / 2, by omega⟩
    if o.val % 2 = 0 then ((d0 c).toNat : Int) else ((d1 c).toNat : Int)

/-- Sequence a page-wise computation over the 32 pages. -/
def forPages {α : Type} (f : Fin 32 → Except PyErr α) : Except PyErr (Fin 32 → α) :=
  if h : ∀ p, (f p).toOption.isSome then .ok fun p => (f p).toOption.get (h p)
  else
    -- some page raised; report the first one's exception
    match (List.finRange 32).findSome? fun p => match f p with
      | .error e => some e
      | .ok _ => none with
    | some e => .error e
    | none => .error .assertionError

/-- screen.py:400-449 `diff_weights` / `_diff_weights`.  All operations are
elementwise or act along axis 1, so the (32, ·) computation is done page by page
(only *which* of several possible exceptions is raised could depend on that). -/
def Cls.diffWeights (C : Cls) (t : EditTable) (source target : Packed) (isAux : Bool) :
    Except PyErr (Grid Int) :=
  forPages fun p => C.diffWeightsPage t (source p) (target p) isAux none

/-- screen.py:525-547 `compute_delta_page` (int32 subtraction of values in
0..65535 does not overflow). -/
def Cls.computeDeltaPage (C : Cls) (t : EditTable) (packed : Packed) (page : Fin 32) (content : U8)
    (diffWeights : Fin 256 → Int) (isAux : Bool) : Except PyErr (Fin 256 → Int) := do
  let newDiff ← C.diffWeightsPage t (packed page) (packed page) isAux (some content)
  return fun o => newDiff o - diffWeights o

/-! ### edit-distance table construction and loading -/

/-- The generated array: make_data_tables.py:133-135, 142-174.  `gen k i j` is the
value returned by `edit_distance` for masked values `i > j` at byte offset `k`
(already checked to be below 2^16 at line 107); entries with `j ≥ i` stay 0.
Index `pair = (i << N) + j`. -/
def Cls.generated (C : Cls) (gen : Nat → Nat → Nat → BitVec 16) : EditTable := fun k pair =>
  let i := pair / 2 ^ C.maskedBits
  let j := pair % 2 ^ C.maskedBits
  if j < i then gen k i j else 0

/-- screen.py:358-362 `transpose[pair]`. -/
def Cls.transpose (C : Cls) (pair : Nat) : Nat :=
  (pair >>> C.maskedBits) + ((pair % 2 ^ C.maskedBits) <<< C.maskedBits)

/-- screen.py:364-365 `dist[i, transpose] += dist[i, identity]` for every row.  The
right-hand side and the gathered left-hand side are evaluated before the scatter;
`transpose` is its own inverse, so position `q` receives `dist[q] + dist[transpose q]`
(uint16, wrapping). -/
def Cls.editDistances (C : Cls) (dist : EditTable) : EditTable := fun k q =>
  dist k q + dist k (C.transpose q)

end IIVision
