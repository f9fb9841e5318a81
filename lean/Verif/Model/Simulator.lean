import Verif.Model.Basic

/-! Model of simulator/memory.py, simulator/machine.py, simulator/uthernet.py,
simulator/apple2.py and simulator/simulator.py, and of the part of py65 they use
(`py65.memory.ObservableMemory`, not in /repo: described from its documentation and source).

A Python call is a function from the state before to the result or exception and the state
after; an exception keeps the changes made before it.  Logging (`print`) is not modelled.  The
6502 core of py65 is an arbitrary step function. -/

namespace IIVision.Sim

/-- A Python call: result or exception, and the state it leaves behind. -/
abbrev Py (σ α : Type) := σ → Except PyErr α × σ

/-- A state with the byte array of an `ObservableMemory` in it, and the rest. -/
structure Bus (τ : Type) where
  mem : Nat → U8
  st : τ

/-- `self._subject[a] = v` in py65's memory. -/
def Bus.poke {τ : Type} (s : Bus τ) (a : Nat) (v : U8) : Bus τ :=
  { s with mem := fun x => if x = a then v else s.mem x }

/-- A function subscribed to an address: an interceptor named by `κ`, or the function made by
memory.py:102-107 `DenyWritesToRegion` (each call makes a new one, told apart by `serial`). -/
inductive Sub (κ : Type) where
  | call (c : κ)
  | deny (serial : Nat)
  deriving DecidableEq

/-- py65 `ObservableMemory`: who is subscribed to which address, in order. -/
structure Observers (κ : Type) where
  readers : Nat → List κ
  writers : Nat → List (Sub κ)

/-- py65 `subscribe_to_read`/`subscribe_to_write` for `range(start, end + 1)`: addresses are taken
modulo 64K, a function already subscribed to an address is not added again. -/
def subscribe {α : Type} [DecidableEq α] (start stop : Nat) (c : α) (subs : Nat → List α) :
    Nat → List α :=
  (List.range' start (stop + 1 - start)).foldl
    (fun subs x a =>
      if a = x % 65536 then (if c ∈ subs a then subs a else subs a ++ [c]) else subs a) subs

/-- memory.py:28-43 `MemoryRegion` (without its name); `η` names the functions called when the
program counter gets to an entry point. -/
structure Region (κ η : Type) where
  start : Nat
  stop : Nat
  readInterceptor : Option κ := none
  writeInterceptor : Option κ := none
  entrypoints : List (Nat × η) := []
  writable : Bool := true

/-- memory.py:46-59 `MemoryManager`: `region a` is the position in the memory map of the region
object that `self.regions[a]` is, `none` for the default region; `serial` counts calls of
`DenyWritesToRegion`. -/
structure Manager (κ η : Type) where
  obs : Observers κ
  region : Nat → Option Nat
  handlers : Nat → List η
  serial : Nat

/-- memory.py:47-59 `__init__`. -/
def Manager.new (κ η : Type) : Manager κ η where
  obs := ⟨fun _ => [], fun _ => []⟩
  region := fun _ => none
  handlers := fun _ => []
  serial := 0

/-- memory.py:81-98 `RegisterRegion`; `i` stands for the identity of the region object. -/
def Manager.register {κ η : Type} [DecidableEq κ] (m : Manager κ η) (i : Nat) (r : Region κ η) :
    Manager κ η :=
  let readers := match r.readInterceptor with
    | some c => subscribe r.start r.stop c m.obs.readers
    | none => m.obs.readers
  let writers := match r.writeInterceptor with
    | some c => subscribe r.start r.stop (.call c) m.obs.writers
    | none => m.obs.writers
  let writers := if r.writable then writers
    else subscribe r.start r.stop (.deny m.serial) writers
  { obs := ⟨readers, writers⟩
    region := (List.range' r.start (r.stop + 1 - r.start)).foldl
      (fun f x a => if a = x then some i else f a) m.region
    handlers := r.entrypoints.foldl
      (fun f e a => if a = e.1 then f a ++ [e.2] else f a) m.handlers
    serial := m.serial + 1 }

/-- The loop of `enable`, the first region being number `i` of the map. -/
def Manager.enableFrom {κ η : Type} [DecidableEq κ] : Nat → Manager κ η → List (Region κ η) →
    Manager κ η
  | _, m, [] => m
  | i, m, r :: rest => Manager.enableFrom (i + 1) (m.register i r) rest

/-- memory.py:61-63 `enable`. -/
def Manager.enable {κ η : Type} [DecidableEq κ] (m : Manager κ η) (map : List (Region κ η)) :
    Manager κ η := m.enableFrom 0 map

/-- py65 `ObservableMemory.__setitem__`: the loop over the subscribers.  `run c a v` is the call of
interceptor `c` with address `a` and value `v` (`none` for a read); a result other than `None`
replaces the value. -/
def callWriters {κ σ : Type} (run : κ → Nat → Option U8 → Py σ (Option U8)) (a : Nat) :
    List (Sub κ) → U8 → Py σ U8
  | [], v => fun s => (.ok v, s)
  | .deny _ :: _, _ => fun s => (.error .writeProtected, s)
  | .call c :: rest, v => fun s =>
    match run c a (some v) s with
    | (.ok r, s) => callWriters run a rest (r.getD v) s
    | (.error e, s) => (.error e, s)

/-- py65 `ObservableMemory.__getitem__`: the loop over the subscribers; the last result other than
`None` counts. -/
def callReaders {κ σ : Type} (run : κ → Nat → Option U8 → Py σ (Option U8)) (a : Nat) :
    List κ → Option U8 → Py σ (Option U8)
  | [], acc => fun s => (.ok acc, s)
  | c :: rest, acc => fun s =>
    match run c a none s with
    | (.ok r, s) => callReaders run a rest (r <|> acc) s
    | (.error e, s) => (.error e, s)

/-- py65 `ObservableMemory.__setitem__`, i.e. `memory[a] = v`. -/
def Observers.write {κ τ : Type} (o : Observers κ)
    (run : κ → Nat → Option U8 → Py (Bus τ) (Option U8)) (a : Nat) (v : U8) : Py (Bus τ) Unit :=
  fun s =>
    match callWriters run (a % 65536) (o.writers (a % 65536)) v s with
    | (.ok v, s) => (.ok (), s.poke (a % 65536) v)
    | (.error e, s) => (.error e, s)

/-- py65 `ObservableMemory.__getitem__`, i.e. `memory[a]`. -/
def Observers.read {κ τ : Type} (o : Observers κ)
    (run : κ → Nat → Option U8 → Py (Bus τ) (Option U8)) (a : Nat) : Py (Bus τ) U8 :=
  fun s =>
    match callReaders run (a % 65536) (o.readers (a % 65536)) none s with
    | (.ok (some v), s) => (.ok v, s)
    | (.ok none, s) => (.ok (s.mem (a % 65536)), s)
    | (.error e, s) => (.error e, s)

/-- memory.py:78-79: `for handler in handlers: handler(cpu)`. -/
def callHandlers {η σ : Type} (handle : η → Py σ Unit) : List η → Py σ Unit
  | [] => fun s => (.ok (), s)
  | h :: rest => fun s =>
    match handle h s with
    | (.ok _, s) => callHandlers handle rest s
    | (.error e, s) => (.error e, s)

/-- memory.py:65-79 `MaybeInterceptExecution`; `read` is `self.memory[...]`. -/
def Manager.maybeIntercept {κ η σ : Type} (m : Manager κ η) (handle : η → Py σ Unit)
    (read : Nat → Py σ U8) (oldPc pc : Nat) : Py σ Unit := fun s =>
  if m.region oldPc = m.region pc then callHandlers handle (m.handlers pc) s
  else match read oldPc s with
    | (.error e, s) => (.error e, s)
    | (.ok op, s) =>
      if op ≠ 0x60 ∧ m.handlers pc = [] then (.error .undefinedEntryPoint, s)
      else callHandlers handle (m.handlers pc) s

/-- machine.py:9-12 `AccessMode`, as its two bits. -/
structure AccessMode where
  read : Bool
  write : Bool
  deriving DecidableEq, Repr

/-- `AccessMode.READ`. -/
def AccessMode.READ : AccessMode := ⟨true, false⟩
/-- `AccessMode.WRITE`. -/
def AccessMode.WRITE : AccessMode := ⟨false, true⟩
/-- `AccessMode.RW`. -/
def AccessMode.RW : AccessMode := ⟨true, true⟩

/-- machine.py:106 `Machine.io_map`: per address the mode and the callback, `none` where there
is no entry; names are left out. -/
abbrev IoMap (γ : Type) := Nat → Option (AccessMode × Option γ)

/-- `io_map[a] = (mode, name, callback)`. -/
def IoMap.set {γ : Type} (m : IoMap γ) (a : Nat) (e : AccessMode × Option γ) : IoMap γ :=
  fun x => if x = a then some e else m x

/-- machine.py:113-119: `access_mode & mode`, where the access is a read if there is no value. -/
def AccessMode.allows (m : AccessMode) : Option U8 → Bool
  | none => m.read
  | some _ => m.write

/-- machine.py:112-136 `io_interceptor`; `call g v` is the callback named `g`, told the direction
by `v` (`none` for a read).  No callback raises `KeyError`, so the `except` clause only concerns
the lookup. -/
def ioInterceptor {γ σ : Type} (io : IoMap γ) (call : γ → Option U8 → Py σ (Option U8)) (a : Nat)
    (v : Option U8) : Py σ (Option U8) := fun s =>
  match io a with
  | none => (.error .trapException, s)
  | some (mode, cb) =>
    if mode.allows v then
      match cb with
      | some g => call g v s
      | none => (.ok none, s)
    else (.error .trapException, s)

/-- machine.py:46-59 `SoftSwitch.__init__`; the state is kept elsewhere, the callback is none or
`SoftSwitch.unimplemented` (machine.py:78-80). -/
structure SoftSwitch where
  clearAddr : Nat
  setAddr : Nat
  statusAddr : Nat
  mode : AccessMode := .WRITE
  unimplemented : Bool := false

/-- machine.py:83-90: which of the three functions of a switch. -/
inductive SwitchOp where
  | clear | set | get
  deriving DecidableEq, Repr

/-- machine.py:82-97 `register`, for the switch at position `i`; `γ` is built by `mk`. -/
def SoftSwitch.register {γ : Type} (mk : Nat → SwitchOp → γ) (i : Nat) (ss : SoftSwitch)
    (io : IoMap γ) : IoMap γ :=
  ((io.set ss.clearAddr (ss.mode, some (mk i .clear))).set ss.setAddr
    (ss.mode, some (mk i .set))).set ss.statusAddr (.READ, some (mk i .get))

/-- apple2.py:93-94,174-176: the loop that registers the switches, the first one being number `i`. -/
def registerAll {γ : Type} (mk : Nat → SwitchOp → γ) : Nat → List SoftSwitch → IoMap γ → IoMap γ
  | _, [], io => io
  | i, ss :: rest, io => registerAll mk (i + 1) rest (ss.register mk i io)

/-- machine.py:61-76 `set`, `clear`, `get` of the switch at position `i`, on the states `sw` of all
switches.  `0x80 & self.state` is the bitwise and of `0x80` and `0` or `1`. -/
def switchCall (sws : List SoftSwitch) (i : Nat) (op : SwitchOp) : Py (Nat → Bool) (Option U8) :=
  fun sw =>
    match op with
    | .get => (.ok (some (0x80 &&& (if sw i then 1 else 0))), sw)
    | _ =>
      let sw' := fun j => if j = i then decide (op = .set) else sw j
      match sws[i]? with
      | some ss => if ss.unimplemented then (.error .notImplementedError, sw') else (.ok none, sw')
      | none => (.error .indexError, sw')

/-! ### The network card -/

/-- uthernet.py:27-31: `_indirect_bus_mode`, `_auto_increment`, `ptr`. -/
structure UState where
  indirect : Bool
  autoIncr : Bool
  ptr : Nat

/-- uthernet.py:36-93 and machine.py:108-110: the callbacks of the I/O map. -/
inductive UCall where
  | mode | socketMode | socketCommand | unimplemented
  deriving DecidableEq, Repr

/-- The only interceptor is `self.io_interceptor`. -/
inductive UInt where
  | io
  deriving DecidableEq, Repr

/-- uthernet.py:9-20 `memory_map`. -/
def uMap : List (Region UInt Empty) :=
  [ { start := 0x0000, stop := 0x002f, readInterceptor := some .io, writeInterceptor := some .io },
    { start := 0x0400, stop := 0x07ff, readInterceptor := some .io, writeInterceptor := some .io },
    { start := 0x4000, stop := 0x5fff },
    { start := 0x6000, stop := 0x7fff } ]

/-- uthernet.py:22-25: the memory manager, enabled. -/
def uManager : Manager UInt Empty := (Manager.new UInt Empty).enable uMap

/-- Addresses `lo` to `hi` of an I/O map, all with the same entry. -/
def ioRange {γ : Type} (lo hi : Nat) (cb : Option γ) (io : IoMap γ) : IoMap γ :=
  (List.range' lo (hi + 1 - lo)).foldl (fun io a => io.set a (.RW, cb)) io

/-- uthernet.py:95-274 `io_map`, runs of equal entries taken together. -/
def uIoMap : IoMap UCall :=
  let io : IoMap UCall := fun _ => none
  let io := io.set 0x0000 (.RW, some .mode)
  let io := ioRange 0x0001 0x0012 none io
  let io := ioRange 0x0015 0x0019 (some .unimplemented) io
  let io := ioRange 0x001a 0x001b none io
  let io := ioRange 0x001c 0x001d (some .unimplemented) io
  let io := ioRange 0x0028 0x002f (some .unimplemented) io
  let io := io.set 0x0400 (.RW, some .socketMode)
  let io := io.set 0x0401 (.RW, some .socketCommand)
  let io := io.set 0x0402 (.RW, some .unimplemented)
  let io := ioRange 0x0403 0x0405 none io
  let io := ioRange 0x0406 0x040b (some .unimplemented) io
  let io := ioRange 0x040c 0x0411 none io
  let io := ioRange 0x0412 0x0416 (some .unimplemented) io
  let io := ioRange 0x0420 0x0425 (some .unimplemented) io
  ioRange 0x0426 0x0429 none io

/-- uthernet.py:36-93 and machine.py:108-110: the callbacks; `write` is `self.memory[a] = v`.
`reset()` only logs (uthernet.py:292-294). -/
def UCall.run (write : Nat → U8 → Py (Bus UState) Unit) (c : UCall) (v : Option U8) :
    Py (Bus UState) (Option U8) := fun s =>
  match c with
  | .unimplemented => (.error .notImplementedError, s)
  | .mode =>
    match v with
    | none => (.ok none, s)
    | some v =>
      if v &&& 0x83 = v then
        (.ok none, { s with st := { s.st with indirect := v.getLsbD 0, autoIncr := v.getLsbD 1 } })
      else (.error .assertionError, s)
  | .socketMode =>
    match v with
    | none => (.ok none, s)
    | some v => if v = 0x21 then (.ok none, s) else (.error .assertionError, s)
  | .socketCommand =>
    match v with
    | none => (.ok none, s)
    | some v =>
      if v = 0x01 then
        match write 0x403 0x13 s with
        | (.ok _, s) => (.ok none, s)
        | (.error e, s) => (.error e, s)
      else if v = 0x04 then
        match write 0x403 0x17 s with
        | (.ok _, s) => (.ok none, s)
        | (.error e, s) => (.error e, s)
      else if v = 0x40 then (.error .notImplementedError, s)
      else (.ok none, s)

/-- `self.memory[a] = v` of the card (`MemoryManager.memory` with the subscribers of `uMap`).  A
socket command writes to the memory again, from inside the callback: `depth` is how deep calls
can be nested before Python gives up (two levels are used). -/
def uWriteDepth : Nat → Nat → U8 → Py (Bus UState) Unit
  | 0, _, _ => fun s => (.error .recursionError, s)
  | depth + 1, a, v =>
    uManager.obs.write (fun _ a v => ioInterceptor uIoMap (UCall.run (uWriteDepth depth)) a v) a v

/-- Python's default recursion limit is 1000 calls; five are made per level. -/
def uWrite (a : Nat) (v : U8) : Py (Bus UState) Unit := uWriteDepth 200 a v

/-- `self.memory[a]` of the card. -/
def uRead (a : Nat) : Py (Bus UState) U8 :=
  uManager.obs.read (fun _ a v => ioInterceptor uIoMap (UCall.run uWrite) a v) a

/-- uthernet.py:276-279 `read_data`. -/
def uReadData : Py (Bus UState) U8 := fun s =>
  match uRead s.st.ptr s with
  | (.ok v, s) => (.ok v, { s with st := { s.st with ptr := (s.st.ptr + 1) &&& 0x7fff } })
  | (.error e, s) => (.error e, s)

/-- uthernet.py:281-284 `write_data`. -/
def uWriteData (v : U8) : Py (Bus UState) Unit := fun s =>
  match uWrite s.st.ptr v s with
  | (.ok _, s) => (.ok (), { s with st := { s.st with ptr := (s.st.ptr + 1) &&& 0x7fff } })
  | (.error e, s) => (.error e, s)

/-- uthernet.py:286-287 `read_mode`. -/
def uReadMode : Py (Bus UState) U8 := uRead 0

/-- uthernet.py:289-290 `write_mode`. -/
def uWriteMode (v : U8) : Py (Bus UState) Unit := uWrite 0 v

/-- uthernet.py:8-34: a new card. -/
def uNew : Bus UState := ⟨fun _ => 0, ⟨false, false, 0⟩⟩

/-! ### The computer -/

/-- apple2.py:178-180 and machine.py:28-33: the functions called at entry points. -/
inductive Handler where
  | event | wait
  deriving DecidableEq, Repr

/-- `self.io_interceptor` and apple2.py:184-187 `TextPageWriteInterceptor`. -/
inductive AInt where
  | io | textPage
  deriving DecidableEq, Repr

/-- apple2.py:10-43 `memory_map`. -/
def aMap : List (Region AInt Handler) :=
  [ { start := 0x0000, stop := 0x00ff },
    { start := 0x0100, stop := 0x01ff },
    { start := 0x0400, stop := 0x07ff, writeInterceptor := some .textPage },
    { start := 0x2000, stop := 0x2fff },
    { start := 0x4000, stop := 0x4fff, writable := false },
    { start := 0xc000, stop := 0xc0ff, readInterceptor := some .io, writeInterceptor := some .io },
    { start := 0xc100, stop := 0xc1ff, writable := false },
    { start := 0xc200, stop := 0xc2ff, writable := false },
    { start := 0xc300, stop := 0xc3ff, writable := false },
    { start := 0xc400, stop := 0xc4ff, writable := false },
    { start := 0xc500, stop := 0xc5ff, writable := false },
    { start := 0xc600, stop := 0xc6ff, writable := false },
    { start := 0xc700, stop := 0xc7ff, writable := false },
    { start := 0xd000, stop := 0xffff, writable := false,
      entrypoints := [(0xf3e2, .event), (0xfca8, .wait), (0xfded, .event), (0xfe89, .event)] } ]

/-- apple2.py:45-46 and simulator.py:43: the memory manager after `enable()`. -/
def aManager : Manager AInt Handler := (Manager.new AInt Handler).enable aMap

/-- apple2.py:93-174: the soft switches, in the order of registration. -/
def aSwitches : List SoftSwitch :=
  [ -- 80Store
    { clearAddr := 0xc000, setAddr := 0xc001, statusAddr := 0xc018, unimplemented := true },
    -- RamRd
    { clearAddr := 0xc002, setAddr := 0xc003, statusAddr := 0xc013, unimplemented := true },
    -- RamWrt
    { clearAddr := 0xc004, setAddr := 0xc005, statusAddr := 0xc014, unimplemented := true },
    -- IntCxROM
    { clearAddr := 0xc006, setAddr := 0xc007, statusAddr := 0xc015, unimplemented := true },
    -- AltZP
    { clearAddr := 0xc008, setAddr := 0xc009, statusAddr := 0xc016, unimplemented := true },
    -- SlotC3ROM
    { clearAddr := 0xc00a, setAddr := 0xc00b, statusAddr := 0xc017, unimplemented := true },
    -- 80Col
    { clearAddr := 0xc00c, setAddr := 0xc00d, statusAddr := 0xc01f },
    -- AltCharSet
    { clearAddr := 0xc00e, setAddr := 0xc00f, statusAddr := 0xc01e },
    -- Text
    { clearAddr := 0xc050, setAddr := 0xc051, statusAddr := 0xc01a, mode := .RW },
    -- Mixed
    { clearAddr := 0xc052, setAddr := 0xc053, statusAddr := 0xc01b, mode := .RW },
    -- Page2
    { clearAddr := 0xc054, setAddr := 0xc055, statusAddr := 0xc01c, mode := .RW },
    -- Hires
    { clearAddr := 0xc056, setAddr := 0xc057, statusAddr := 0xc01d, mode := .RW } ]

/-- apple2.py:53-76 and machine.py:83-90: the callbacks of the I/O map. -/
inductive ACall where
  | tick | wmode | wadrh | wadrl | wdata
  | switch (i : Nat) (op : SwitchOp)
  deriving DecidableEq, Repr

/-- apple2.py:78-91,174-176: `io_map` before and after the switches are registered. -/
def aIoMap : IoMap ACall :=
  let io : IoMap ACall := fun _ => none
  let io := io.set 0xc030 (.RW, some .tick)
  let io := io.set 0xc094 (.RW, some .wmode)
  let io := io.set 0xc095 (.WRITE, some .wadrh)
  let io := io.set 0xc096 (.WRITE, some .wadrl)
  let io := io.set 0xc097 (.RW, some .wdata)
  registerAll .switch 0 aSwitches io

/-- The state of the computer apart from its memory: the switches, the network card. -/
structure AState where
  sw : Nat → Bool
  uther : Bus UState

/-- A call of a method of the card. -/
def onCard {α β : Type} (x : Py (Bus UState) α) (f : α → β) : Py (Bus AState) β := fun s =>
  match x s.st.uther with
  | (.ok r, u) => (.ok (f r), { s with st := { s.st with uther := u } })
  | (.error e, u) => (.error e, { s with st := { s.st with uther := u } })

/-- apple2.py:53-76: the callbacks.  `value << 8 | ptr & 0x7f` and `ptr & 0x7f00 | value`, where
`value` is a byte: the operands of the or's have no bits in common, except in the first where bit
7 of the pointer's low byte is lost.  The addresses `WADRH`, `WADRL` can only be written, so
`value` is not `None` there (`TypeError` otherwise). -/
def ACall.run (c : ACall) (v : Option U8) : Py (Bus AState) (Option U8) := fun s =>
  match c with
  | .tick => (.ok none, s)
  | .wmode => match v with
    | none => onCard uReadMode some s
    | some v => onCard (uWriteMode v) (fun _ => none) s
  | .wadrh => match v with
    | none => (.error .typeError, s)
    | some v =>
      onCard (fun u => (.ok (), { u with st := { u.st with
        ptr := (v.toNat <<< 8) ||| (u.st.ptr &&& 0x7f) } })) (fun _ => none) s
  | .wadrl => match v with
    | none => (.error .typeError, s)
    | some v =>
      onCard (fun u => (.ok (), { u with st := { u.st with
        ptr := (u.st.ptr &&& 0x7f00) ||| v.toNat } })) (fun _ => none) s
  | .wdata => match v with
    | none => onCard uReadData some s
    | some v => onCard (uWriteData v) (fun _ => none) s
  | .switch i op =>
    match switchCall aSwitches i op s.st.sw with
    | (r, sw) => (r, { s with st := { s.st with sw := sw } })

/-- apple2.py:184-187, machine.py:112-136: the interceptors of the computer. -/
def AInt.run (c : AInt) (a : Nat) (v : Option U8) : Py (Bus AState) (Option U8) :=
  match c with
  | .io => ioInterceptor aIoMap ACall.run a v
  | .textPage => fun s => (.ok none, s)

/-- `a2.memory[a] = v`. -/
def aWrite (a : Nat) (v : U8) : Py (Bus AState) Unit := aManager.obs.write AInt.run a v

/-- `a2.memory[a]`. -/
def aRead (a : Nat) : Py (Bus AState) U8 := aManager.obs.read AInt.run a

/-- apple2.py:9-176: a new computer with a new card. -/
def aNew : Bus AState := ⟨fun _ => 0, ⟨fun _ => false, uNew⟩⟩

/-- py65 `ObservableMemory.write(start, bytes)`: assignment to a slice of the byte array, past the
subscribers.  (Used within the 64K only, where it does not change the length.) -/
def Bus.load {τ : Type} (s : Bus τ) (start : Nat) (bytes : List U8) : Bus τ :=
  { s with mem := fun x =>
      if start ≤ x ∧ x < start + bytes.length then bytes.getD (x - start) 0 else s.mem x }

/-- Python `l[a:b]`. -/
def pySlice {α : Type} (l : List α) (a b : Nat) : List α := (l.take b).drop a

/-- simulator.py:13-41: loading the ROM, the program and the COUT vector.  The interceptors are
not enabled yet. -/
def aSetUp (rom code : List U8) : Bus AState :=
  let s := aNew.load 0xc600 (pySlice rom 0x0600 0x6ff)
  let s := s.load 0xd000 (pySlice rom 0x5000 0x7fff)
  let s := s.load 0x8000 code
  (s.poke 0x36 0xf0).poke 0x37 0xfd

/-! ### The main loop -/

/-- How far `Run` got: still running, the program stopped in a loop to itself, an exception. -/
inductive Ran where
  | running | stopped | raised (e : PyErr)
  deriving DecidableEq

/-- apple2.py:189-208 `Run`: at most `n` rounds of the loop, for any processor `step` whose
program counter is `pc`.  Returns the states in which `cpu.step()` was called, the reason it
stopped and the last state.  (`trace` reads memory through the disassembler; it is not
modelled.) -/
def runLoop {κ η σ : Type} (m : Manager κ η) (handle : η → Py σ Unit) (read : Nat → Py σ U8)
    (pc : σ → Nat) (step : Py σ Unit) : Nat → Nat → σ → List σ × Ran × σ
  | 0, _, s => ([], .running, s)
  | n + 1, oldPc, s =>
    match m.maybeIntercept handle read oldPc (pc s) s with
    | (.error e, s) => ([], .raised e, s)
    | (.ok _, s) =>
      match step s with
      | (.error e, s') => ([s], .raised e, s')
      | (.ok _, s') =>
        if pc s' = pc s then ([s], .stopped, s')
        else
          let r := runLoop m handle read pc step n (pc s) s'
          (s :: r.1, r.2)

end IIVision.Sim
