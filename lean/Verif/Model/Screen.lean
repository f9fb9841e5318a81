import Verif.Model.Basic

/-! Model of transcoder/screen.py lines 16-125: address maps, screen holes,
flat and paged memory maps. -/

namespace IIVision

/-- transcoder/screen.py:16-24 `y_to_base_addr(y, page=0)`. -/
def yToBaseAddr (y : Nat) (page : Nat) : Nat :=
  let a := y / 64
  let d := y - 64 * a
  let b := d / 8
  let c := d - 8 * b
  8192 * (page + 1) + 1024 * c + 128 * b + 40 * a

/-- transcoder/screen.py:27-45 the import-time tables.  `Y_TO_BASE_ADDR` (27-30)
is used through `yToBaseAddr`.  uint8 arrays hold `Nat`s reduced mod 256. -/
structure Mappings where
  /-- screen.py:34 PAGE_OFFSET_TO_X -/
  poToX : Fin 32 → Fin 256 → Nat
  /-- screen.py:35 PAGE_OFFSET_TO_Y -/
  poToY : Fin 32 → Fin 256 → Nat
  /-- screen.py:38 X_Y_TO_PAGE, indexed [y, x] -/
  xyToPage : Fin 192 → Fin 40 → Nat
  /-- screen.py:39 X_Y_TO_OFFSET, indexed [y, x] -/
  xyToOffset : Fin 192 → Fin 40 → Nat
  /-- screen.py:42 SCREEN_HOLES -/
  holes : Fin 32 → Fin 256 → Bool
  /-- screen.py:45 ADDR_TO_COORDS: address ↦ (page, y, x) -/
  addrToCoords : Nat → Option (Nat × Nat × Nat)

/-- screen.py:34-45 initial values of the tables. -/
def Mappings.init : Mappings where
  poToX := fun _ _ => 0
  poToY := fun _ _ => 0
  xyToPage := fun _ _ => 0
  xyToOffset := fun _ _ => 0
  holes := fun _ _ => true
  addrToCoords := fun _ => none

/-- screen.py:51-66: body of the double loop of `_populate_mappings` for one
`(y, x)`.  Array stores go through numpy indexing and can raise `IndexError`;
stores into uint8 arrays keep the value mod 256. -/
def Mappings.populateStep (m : Mappings) (yx : Nat × Nat) : Except PyErr Mappings := do
  let y := yx.1
  let x := yx.2
  let yBase := yToBaseAddr y 0
  let page := yBase >>> 8
  let offset : Int := (yBase : Int) - ((page <<< 8 : Nat) : Int) + x
  let pI ← npIndex 32 ((page : Int) - 32)
  let oI ← npIndex 256 offset
  let yI ← npIndex 192 y
  let xI ← npIndex 40 x
  let a0 := yToBaseAddr y 0 + x
  let a1 := yToBaseAddr y 1 + x
  return {
    poToY := fun p o => if p = pI ∧ o = oI then y % 256 else m.poToY p o
    poToX := fun p o => if p = pI ∧ o = oI then x % 256 else m.poToX p o
    xyToPage := fun y' x' => if y' = yI ∧ x' = xI then (page - 32) % 256 else m.xyToPage y' x'
    xyToOffset := fun y' x' => if y' = yI ∧ x' = xI then (offset % 256).toNat else m.xyToOffset y' x'
    holes := fun p o => if p = pI ∧ o = oI then false else m.holes p o
    addrToCoords := fun a =>
      if a = a1 then some (1, y, x)
      else if a = a0 then some (0, y, x)
      else m.addrToCoords a }

/-- screen.py:49-50: the iteration order `for y in range(192): for x in range(40)`. -/
def yxPairs : List (Nat × Nat) :=
  (List.range 192).flatMap fun y => (List.range 40).map fun x => (y, x)

/-- screen.py:48-69 `_populate_mappings()`, run at import time. -/
def populateMappings : Except PyErr Mappings :=
  yxPairs.foldlM Mappings.populateStep Mappings.init

/-- screen.py:42 `SCREEN_HOLES` as left behind by the import-time run (an
exception there would have prevented the import; `true` is then arbitrary). -/
def Mappings.holesOf (r : Except PyErr Mappings) : Grid Bool :=
  fun p o => match r with
  | .ok m => m.holes p o
  | .error _ => true

/-- screen.py:42 the global `SCREEN_HOLES` after import. -/
def screenHoles : Grid Bool := Mappings.holesOf populateMappings

/-- screen.py:101-117 `MemoryMap` (data: `page_offset`; the `(32,256)` shape
check at 113 is enforced by the type). -/
structure MemoryMap where
  screenPage : Nat
  pageOffset : Mem

/-- screen.py:104-117 `MemoryMap.__init__`. -/
def MemoryMap.new (screenPage : Nat) (pageOffset : Option Mem) : Except PyErr MemoryMap :=
  if ¬(screenPage = 1 ∨ screenPage = 2) then .error .valueError
  else .ok { screenPage, pageOffset := pageOffset.getD (fun _ _ => 0#8) }

/-- screen.py:109 `_page_start = 32 * screen_page`. -/
def MemoryMap.pageStart (m : MemoryMap) : Nat := 32 * m.screenPage

/-- screen.py:122-125 `MemoryMap.write`: `page_offset[page - _page_start][offset] = val`
with numpy index semantics (negative indices wrap, others raise). -/
def MemoryMap.write (m : MemoryMap) (page offset : Int) (val : U8) : Except PyErr MemoryMap := do
  let p ← npIndex 32 (page - m.pageStart)
  let o ← npIndex 256 offset
  return { m with pageOffset := Grid.set m.pageOffset p o val }

/-- screen.py:72-89 `FlatMemoryMap`. -/
structure FlatMemoryMap where
  screenPage : Nat
  data : Fin 8192 → U8

/-- screen.py:75-89 `FlatMemoryMap.__init__`; `data` is a one-dimensional uint8
array of any length. -/
def FlatMemoryMap.new (screenPage : Nat) (data : Option (List U8)) : Except PyErr FlatMemoryMap :=
  if ¬(screenPage = 1 ∨ screenPage = 2) then .error .valueError
  else match data with
    | some d =>
      if h : d.length = 8192 then .ok { screenPage, data := fun i => d[i.val]'(by omega) }
      else .error .valueError
    | none => .ok { screenPage, data := fun _ => 0#8 }

/-- screen.py:80 `_addr_start`. -/
def FlatMemoryMap.addrStart (m : FlatMemoryMap) : Nat := 8192 * m.screenPage
/-- screen.py:81 `_addr_end`. -/
def FlatMemoryMap.addrEnd (m : FlatMemoryMap) : Nat := m.addrStart + 8191

/-- screen.py:94-98 `FlatMemoryMap.write`. -/
def FlatMemoryMap.write (m : FlatMemoryMap) (addr : Int) (val : U8) : Except PyErr FlatMemoryMap :=
  if addr < m.addrStart ∨ addr > m.addrEnd then .error .valueError
  else do
    let i ← npIndex 8192 (addr - m.addrStart)
    return { m with data := fun j => if j = i then val else m.data j }

/-- screen.py:91-92 `to_memory_map` (`reshape((32, 256))`, row-major; the numpy
view aliasing between the two objects is not modelled). -/
def FlatMemoryMap.toMemoryMap (m : FlatMemoryMap) : Except PyErr MemoryMap :=
  MemoryMap.new m.screenPage
    (some fun p o => m.data ⟨256 * p.val + o.val, by omega⟩)

/-- screen.py:119-120 `to_flat_memory_map` (`reshape(8192)`). -/
def MemoryMap.toFlatMemoryMap (m : MemoryMap) : Except PyErr FlatMemoryMap :=
  FlatMemoryMap.new m.screenPage
    (some (List.ofFn fun i : Fin 8192 =>
      m.pageOffset ⟨i.val / 256, by omega⟩ ⟨i.val % 256, by omega⟩))

end IIVision
