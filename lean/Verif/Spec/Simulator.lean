import Verif.Model.Simulator

/-! What one expects of the simulated computer: soft switches remember the last command, the I/O
page has a fixed list of usable addresses, the network card's data port walks through its memory,
read-only regions cannot be written. -/

namespace IIVision.Sim.Spec

/-- One access of the program to memory: a read, or a write of a value. -/
structure Access where
  addr : Nat
  value : Option U8

/-- What the access leaves behind (whether or not it raised an exception). -/
def Access.perform (s : Bus AState) (x : Access) : Bus AState :=
  match x.value with
  | none => (aRead x.addr s).2
  | some v => (aWrite x.addr v s).2

/-- The exception an access raises, if any. -/
def Access.error (s : Bus AState) (x : Access) : Option PyErr :=
  let r := match x.value with
    | none => match (aRead x.addr s).1 with
      | .ok _ => Except.ok ()
      | .error e => .error e
    | some v => (aWrite x.addr v s).1
  match r with
  | .ok _ => none
  | .error e => some e

/-- A switch of the Apple II: its three addresses, and whether a read of the first two works like
a write. -/
structure SwitchRow where
  name : String
  off : Nat
  on : Nat
  status : Nat
  byRead : Bool

/-- The switches the simulator knows of. -/
def switchTable : List SwitchRow :=
  [ ⟨"80STORE",    0xc000, 0xc001, 0xc018, false⟩, ⟨"RAMRD",     0xc002, 0xc003, 0xc013, false⟩,
    ⟨"RAMWRT",     0xc004, 0xc005, 0xc014, false⟩, ⟨"INTCXROM",  0xc006, 0xc007, 0xc015, false⟩,
    ⟨"ALTZP",      0xc008, 0xc009, 0xc016, false⟩, ⟨"SLOTC3ROM", 0xc00a, 0xc00b, 0xc017, false⟩,
    ⟨"80COL",      0xc00c, 0xc00d, 0xc01f, false⟩, ⟨"ALTCHARSET",0xc00e, 0xc00f, 0xc01e, false⟩,
    ⟨"TEXT",       0xc050, 0xc051, 0xc01a, true⟩,  ⟨"MIXED",     0xc052, 0xc053, 0xc01b, true⟩,
    ⟨"PAGE2",      0xc054, 0xc055, 0xc01c, true⟩,  ⟨"HIRES",     0xc056, 0xc057, 0xc01d, true⟩ ]

/-- What one access does to a switch: on, off, or nothing. -/
def SwitchRow.after (r : SwitchRow) (b : Bool) (x : Access) : Bool :=
  if r.byRead = true ∨ x.value.isSome then
    if x.addr = r.on then true else if x.addr = r.off then false else b
  else b

/-- The position of a switch after a series of accesses: that of the last command, off at first. -/
def SwitchRow.position (r : SwitchRow) (history : List Access) : Bool :=
  history.foldl r.after false

/-- The addresses of the I/O page that can be read. -/
def canRead (a : Nat) : Bool :=
  (0xc013 ≤ a && a ≤ 0xc018) || (0xc01a ≤ a && a ≤ 0xc01f) || a == 0xc030 ||
    (0xc050 ≤ a && a ≤ 0xc057) || a == 0xc094 || a == 0xc097

/-- The addresses of the I/O page that can be written. -/
def canWrite (a : Nat) : Bool :=
  a ≤ 0xc00f || a == 0xc030 || (0xc050 ≤ a && a ≤ 0xc057) || (0xc094 ≤ a && a ≤ 0xc097)

/-- Whether the access to the I/O page is one the simulator knows of. -/
def Access.known (x : Access) : Bool :=
  match x.value with
  | none => canRead x.addr
  | some _ => canWrite x.addr

/-- Reading the same address `n` times. -/
def readMany (a : Nat) : Nat → Py (Bus AState) (List U8)
  | 0 => fun s => (.ok [], s)
  | n + 1 => fun s =>
    match aRead a s with
    | (.error e, s) => (.error e, s)
    | (.ok v, s) =>
      match readMany a n s with
      | (.error e, s) => (.error e, s)
      | (.ok vs, s) => (.ok (v :: vs), s)

/-- Writing a list of values to the same address, up to the first exception. -/
def writeMany (a : Nat) (vs : List U8) (s : Bus AState) : Except PyErr Unit × Bus AState :=
  vs.foldl (fun r v => match r with
    | (.ok _, s) => aWrite a v s
    | (.error e, s) => (.error e, s)) (.ok (), s)

/-- The addresses of the network card that can be read: those without a register, and the
registers that are implemented. -/
def cardReadable (p : Nat) : Bool :=
  p ≤ 0x12 || p == 0x1a || p == 0x1b || (0x30 ≤ p && p ≤ 0x401) || (0x403 ≤ p && p ≤ 0x405) ||
    (0x40c ≤ p && p ≤ 0x411) || (0x426 ≤ p && p ≤ 0x429) || 0x800 ≤ p

/-- The addresses of the network card where no register is. -/
def cardPlain (p : Nat) : Bool := (0x30 ≤ p && p < 0x400) || 0x800 ≤ p

/-- Address `a` lies in the region. -/
def Inside {κ η : Type} (r : Region κ η) (a : Nat) : Prop := r.start ≤ a ∧ a ≤ r.stop

instance {κ η : Type} (r : Region κ η) (a : Nat) : Decidable (Inside r a) :=
  inferInstanceAs (Decidable (_ ∧ _))

/-- The regions of the map lie in the 64K. -/
def InBounds {κ η : Type} (map : List (Region κ η)) : Prop := ∀ r ∈ map, r.stop < 65536

/-- The position of the last region of the map that contains `a`. -/
def lastRegion {κ η : Type} (a : Nat) : List (Region κ η) → Option Nat
  | [] => none
  | r :: rest =>
    match lastRegion a rest with
    | some i => some (i + 1)
    | none => if Inside r a then some 0 else none

end IIVision.Sim.Spec
