import Verif.Model.Basic

/-! Model of the machine the player runs on: the 6502 instructions used by player/main.s, the
Apple II memory and soft switches, and the W5100 chip of the Uthernet II card.  None of this is
in the repository: it is the hardware the player is written for, as documented in the comments
of player/main.s and in the manuals, and so it is part of the trusted base.

Bytes are `U8`, addresses are numbers. -/

namespace IIVision.Player

/-! ### Instructions -/

/-- The 6502 instructions used by the player: immediate (`I`), absolute (`A`), zero page (`Z`),
indexed absolute (`X`, `Y`) and implied ones. -/
inductive Instr where
  | ldaI (v : Nat) | ldxI (v : Nat) | ldyI (v : Nat)
  | ldaA (a : Nat) | ldxA (a : Nat) | ldyA (a : Nat)
  | ldaX (a : Nat) | ldaY (a : Nat)
  | staZ (a : Nat) | staA (a : Nat) | staX (a : Nat) | staY (a : Nat)
  | stxA (a : Nat) | styA (a : Nat)
  | nop | clc | inx | iny | brk
  | adcI (v : Nat) | cmpI (v : Nat) | cpxI (v : Nat) | eorI (v : Nat)
  | bitA (a : Nat) | incA (a : Nat) | decZ (a : Nat)
  | jmp (a : Nat) | jsr (a : Nat)
  | beq (d : Nat) | bne (d : Nat) | bcs (d : Nat) | bpl (d : Nat)
  deriving DecidableEq, Repr

/-- Length in bytes. -/
def Instr.len : Instr → Nat
  | .nop | .clc | .inx | .iny | .brk => 1
  | .ldaI _ | .ldxI _ | .ldyI _ | .staZ _ | .adcI _ | .cmpI _ | .cpxI _ | .eorI _ | .decZ _
  | .beq _ | .bne _ | .bcs _ | .bpl _ => 2
  | _ => 3

/-- Cycles, without the extra ones for taken branches and for indexed reads that cross a page
(see `Mach.exec`). -/
def Instr.cycles : Instr → Nat
  | .nop | .clc | .inx | .iny => 2
  | .ldaI _ | .ldxI _ | .ldyI _ | .adcI _ | .cmpI _ | .cpxI _ | .eorI _ => 2
  | .beq _ | .bne _ | .bcs _ | .bpl _ => 2
  | .staZ _ | .jmp _ => 3
  | .ldaA _ | .ldxA _ | .ldyA _ | .ldaX _ | .ldaY _ | .staA _ | .stxA _ | .styA _ | .bitA _ => 4
  | .staX _ | .staY _ | .decZ _ => 5
  | .incA _ | .jsr _ => 6
  | .brk => 7

/-- Operation code. -/
def Instr.opcode : Instr → Nat
  | .ldaI _ => 0xa9 | .ldxI _ => 0xa2 | .ldyI _ => 0xa0
  | .ldaA _ => 0xad | .ldxA _ => 0xae | .ldyA _ => 0xac
  | .ldaX _ => 0xbd | .ldaY _ => 0xb9
  | .staZ _ => 0x85 | .staA _ => 0x8d | .staX _ => 0x9d | .staY _ => 0x99
  | .stxA _ => 0x8e | .styA _ => 0x8c
  | .nop => 0xea | .clc => 0x18 | .inx => 0xe8 | .iny => 0xc8 | .brk => 0x00
  | .adcI _ => 0x69 | .cmpI _ => 0xc9 | .cpxI _ => 0xe0 | .eorI _ => 0x49
  | .bitA _ => 0x2c | .incA _ => 0xee | .decZ _ => 0xc6
  | .jmp _ => 0x4c | .jsr _ => 0x20
  | .beq _ => 0xf0 | .bne _ => 0xd0 | .bcs _ => 0xb0 | .bpl _ => 0x10

/-- The instruction with operation code `b` and operand bytes `lo`, `hi` (as far as it has
them). -/
def decode (b lo hi : Nat) : Option Instr :=
  let abs := lo + 256 * hi
  bif Nat.beq b 0xac then some (.ldyA abs)
  else bif Nat.beq b 0x99 then some (.staY abs)
  else bif Nat.beq b 0x8d then some (.staA abs)
  else bif Nat.beq b 0xad then some (.ldaA abs)
  else bif Nat.beq b 0x4c then some (.jmp abs)
  else bif Nat.beq b 0x85 then some (.staZ lo)
  else bif Nat.beq b 0xea then some .nop
  else bif Nat.beq b 0xae then some (.ldxA abs)
  else bif Nat.beq b 0x9d then some (.staX abs)
  else bif Nat.beq b 0xa2 then some (.ldxI lo)
  else bif Nat.beq b 0xa9 then some (.ldaI lo)
  else bif Nat.beq b 0xa0 then some (.ldyI lo)
  else bif Nat.beq b 0xbd then some (.ldaX abs)
  else bif Nat.beq b 0xb9 then some (.ldaY abs)
  else bif Nat.beq b 0x8e then some (.stxA abs)
  else bif Nat.beq b 0x8c then some (.styA abs)
  else bif Nat.beq b 0x18 then some .clc
  else bif Nat.beq b 0xe8 then some .inx
  else bif Nat.beq b 0xc8 then some .iny
  else bif Nat.beq b 0x00 then some .brk
  else bif Nat.beq b 0x69 then some (.adcI lo)
  else bif Nat.beq b 0xc9 then some (.cmpI lo)
  else bif Nat.beq b 0xe0 then some (.cpxI lo)
  else bif Nat.beq b 0x49 then some (.eorI lo)
  else bif Nat.beq b 0x2c then some (.bitA abs)
  else bif Nat.beq b 0xee then some (.incA abs)
  else bif Nat.beq b 0xc6 then some (.decZ lo)
  else bif Nat.beq b 0x20 then some (.jsr abs)
  else bif Nat.beq b 0xf0 then some (.beq lo)
  else bif Nat.beq b 0xd0 then some (.bne lo)
  else bif Nat.beq b 0xb0 then some (.bcs lo)
  else bif Nat.beq b 0x10 then some (.bpl lo)
  else none

/-! ### The W5100 -/

/-- The registers of the chip that are plain memory, by address.  `resets` counts the resets of
the chip (it is not part of the hardware). -/
structure Regs where
  at_ : Nat → U8
  resets : Nat

/-- Values of the status register of a socket: closed, opened for TCP, connecting, connected, and
closed by the server (main.s:116-117 and the data sheet of the chip). -/
abbrev stClosed : U8 := 0x00#8
abbrev stInit : U8 := 0x13#8
abbrev stSynSent : U8 := 0x15#8
abbrev stEstablished : U8 := 0x17#8
abbrev stCloseWait : U8 := 0x1c#8

/-- The parts of the chip the player uses.  `arrived` and `freed` count all bytes of the
connection stored in the receive buffer, and released by RECV commands.  `log` records the bytes
the processor has read from the receive buffer (it is not part of the hardware). -/
structure W5100 where
  /-- mode register; bit 1 is auto-increment -/
  mode : U8
  /-- address pointer -/
  ptr : Nat
  /-- Socket 0 RX read pointer register -/
  rd : Nat
  /-- Socket 0 receive buffer (addresses $6000-$7FFF) -/
  rx : Nat → U8
  arrived : Nat
  freed : Nat
  /-- Socket 0 status register -/
  sr : U8
  /-- whether the chip obeys the OPEN command -/
  works : Bool
  /-- the other registers -/
  regs : Regs
  log : List U8

/-- The pointer after an access with auto-increment: it wraps at the end of the 8K receive and
transmit buffers (main.s:416-417). -/
def W5100.inc (p : Nat) : Nat :=
  if p = 0x7fff then 0x6000 else if p = 0x5fff then 0x4000 else (p + 1) % 65536

def W5100.advance (w : W5100) : W5100 :=
  if w.mode.getLsbD 1 then { w with ptr := W5100.inc w.ptr } else w

/-- Reading the data register. -/
def W5100.readData (w : W5100) : U8 × W5100 :=
  let p := w.ptr
  if 0x6000 ≤ p ∧ p < 0x8000 then
    let v := w.rx (p - 0x6000)
    (v, { w.advance with log := w.log ++ [v] })
  else if p = 0x426 then (BitVec.ofNat 8 ((w.arrived - w.freed) / 256), w.advance)
  else if p = 0x427 then (BitVec.ofNat 8 (w.arrived - w.freed), w.advance)
  else if p = 0x428 then (BitVec.ofNat 8 (w.rd / 256), w.advance)
  else if p = 0x429 then (BitVec.ofNat 8 w.rd, w.advance)
  else if p = 0x403 then (w.sr, w.advance)
  else (w.regs.at_ p, w.advance)

/-- Writing the data register.  The commands of socket 0 are written to $0401: RECV ($40)
releases the bytes up to the read pointer, OPEN ($01) opens a closed socket for TCP if that is its
mode, CONNECT ($04) makes an opened socket connect; other commands have no effect here.  The
status register cannot be written. -/
def W5100.writeData (w : W5100) (v : U8) : W5100 :=
  let p := w.ptr
  if p = 0x428 then { w with rd := 256 * v.toNat + w.rd % 256 }.advance
  else if p = 0x429 then { w with rd := 256 * (w.rd / 256) + v.toNat }.advance
  else if p = 0x401 ∧ v = 0x40#8 then
    { w with freed := w.freed + (w.rd + 65536 - w.freed % 65536) % 65536 }.advance
  else if p = 0x401 ∧ v = 0x01#8 then
    { w with sr := if w.sr = stClosed ∧ (w.regs.at_ 0x400 &&& 0x0f#8) = 1#8 ∧ w.works = true then stInit else w.sr }.advance
  else if p = 0x401 ∧ v = 0x04#8 then { w with sr := if w.sr = stInit then stSynSent else w.sr }.advance
  else if p = 0x401 ∨ p = 0x403 then w.advance
  else { w with regs := { w.regs with at_ := fun q => if q = p then v else w.regs.at_ q } }.advance

/-- Writing the mode register: bit 7 resets the chip, which drops any connection.
Simplification: all registers become 0 (in the chip a few have other initial values). -/
def W5100.setMode (w : W5100) (v : U8) : W5100 :=
  if v.getLsbD 7 then
    { w with mode := 0#8, ptr := 0, rd := 0, arrived := 0, freed := 0, sr := stClosed
             regs := { at_ := fun _ => 0#8, resets := w.regs.resets + 1 } }
  else { w with mode := v }

/-- The next byte of the connection arrives in the receive buffer. -/
def W5100.arrive (file : List U8) (w : W5100) : W5100 :=
  { w with
    rx := fun j => if j = w.arrived % 8192 then file.getD w.arrived 0#8 else w.rx j
    arrived := w.arrived + 1 }

/-- Up to `n` more bytes of the file arrive, as far as there are any and the receive buffer has
room (TCP flow control). -/
def W5100.deliver (file : List U8) : Nat → W5100 → W5100
  | 0, w => w
  | n + 1, w =>
    if w.arrived < file.length ∧ w.arrived < w.freed + 8192 then W5100.deliver file n (w.arrive file) else w

/-- What the network does to a connection: an attempt to connect succeeds or fails; the server
closes the connection after everything has arrived.  Simplification: a connection that breaks is
one over which nothing arrives any more, its status does not change. -/
def W5100.link (file : List U8) (v : Option U8) (w : W5100) : W5100 :=
  match v with
  | none => w
  | some v =>
    if w.sr = stSynSent ∧ (v = stEstablished ∨ v = stClosed) then { w with sr := v }
    else if w.sr = stEstablished ∧ v = stCloseWait ∧ file.length ≤ w.arrived then { w with sr := v }
    else w

/-- The network: the connection may change, and bytes arrive if it is established. -/
def W5100.traffic (file : List U8) (v : Option U8) (n : Nat) (w : W5100) : W5100 :=
  let w := w.link file v
  if w.sr = stEstablished then w.deliver file n else w

/-! ### The machine -/

/-- Soft switches. -/
structure Switches where
  text : Bool
  mixed : Bool
  page2 : Bool
  hires : Bool
  store80 : Bool
  col80 : Bool
  dhires : Bool
  deriving DecidableEq, Repr

/-- The machine.  `cycles` counts processor cycles, `clicks` lists the times (in cycles) at
which the speaker has been toggled, `time` counts instructions, `out` lists what has been printed
through the ROM routine COUT.  Not modelled: the stack, the
overflow and decimal flags (decimal mode is off), interrupts. -/
structure Mach where
  pc : Nat
  a : U8
  x : U8
  y : U8
  n : Bool
  z : Bool
  c : Bool
  /-- main memory $0000-$BFFF -/
  main : Nat → U8
  /-- auxiliary memory -/
  aux : Nat → U8
  sw : Switches
  /-- keyboard latch: bit 7 is the strobe -/
  kbd : U8
  w : W5100
  cycles : Nat
  clicks : List Nat
  time : Nat
  /-- the characters that have been printed -/
  out : List U8 := []

/-- What a ROM subroutine leaves in the registers. -/
structure Rom where
  a : U8
  x : U8
  y : U8
  n : Bool
  z : Bool
  c : Bool
  cycles : Nat
  /-- new contents of the memory the routine uses -/
  zp : Nat → U8
  zpAux : Nat → U8

/-- The environment: the file being served, the number of bytes offered by the network, the new
status of the connection and the key pressed before each instruction, and what ROM subroutines
leave behind. -/
structure Env where
  file : List U8
  deliver : Nat → Nat
  link : Nat → Option U8
  key : Nat → Option U8
  rom : Nat → Rom

/-- Whether an address is steered to auxiliary memory: 80STORE with PAGE2 for text page 1, and
with HIRES too for hires page 1. -/
def Mach.steered (s : Mach) (addr : Nat) : Bool :=
  s.sw.store80 && s.sw.page2 &&
    ((decide (0x400 ≤ addr) && decide (addr < 0x800)) ||
     (s.sw.hires && decide (0x2000 ≤ addr) && decide (addr < 0x4000)))

/-- Reading RAM (below $C000). -/
def Mach.ram (s : Mach) (addr : Nat) : U8 := if s.steered addr then s.aux addr else s.main addr

/-- Writing RAM (below $C000). -/
def Mach.store (s : Mach) (addr : Nat) (v : U8) : Mach :=
  if s.steered addr then { s with aux := fun q => if q = addr then v else s.aux q }
  else { s with main := fun q => if q = addr then v else s.main q }

/-- The display switches $C050-$C05F (any access). -/
def Mach.display (s : Mach) (addr : Nat) : Option Mach :=
  match addr with
  | 0xc050 => some { s with sw := { s.sw with text := false } }
  | 0xc051 => some { s with sw := { s.sw with text := true } }
  | 0xc052 => some { s with sw := { s.sw with mixed := false } }
  | 0xc053 => some { s with sw := { s.sw with mixed := true } }
  | 0xc054 => some { s with sw := { s.sw with page2 := false } }
  | 0xc055 => some { s with sw := { s.sw with page2 := true } }
  | 0xc056 => some { s with sw := { s.sw with hires := false } }
  | 0xc057 => some { s with sw := { s.sw with hires := true } }
  | 0xc05e => some { s with sw := { s.sw with dhires := true } }
  | 0xc05f => some { s with sw := { s.sw with dhires := false } }
  | _ => none

/-- The speaker. -/
def Mach.click (s : Mach) : Mach := { s with clicks := s.clicks ++ [s.cycles] }

/-- Clearing the keyboard strobe. -/
def Mach.strobe (s : Mach) : Mach := { s with kbd := s.kbd &&& 0x7f#8 }

/-- A read access of the processor; `none` for addresses whose reading is not modelled (ROM and
other I/O). Simplification: the value read from switches that have none is 0. -/
def Mach.read (s : Mach) (addr : Nat) : Option (U8 × Mach) :=
  if addr < 0xc000 then some (s.ram addr, s)
  else if addr = 0xc000 then some (s.kbd, s)
  else if addr = 0xc010 then some (s.kbd &&& 0x7f#8, s.strobe)
  else if addr = 0xc030 then some (0#8, s.click)
  else if addr = 0xc094 then some (s.w.mode, s)
  else if addr = 0xc095 then some (BitVec.ofNat 8 (s.w.ptr / 256), s)
  else if addr = 0xc096 then some (BitVec.ofNat 8 s.w.ptr, s)
  else if addr = 0xc097 then some (s.w.readData.1, { s with w := s.w.readData.2 })
  else (s.display addr).map fun s => (0#8, s)

/-- A write access; `none` for I/O that is not modelled.  Writing ROM has no effect. -/
def Mach.write (s : Mach) (addr : Nat) (v : U8) : Option Mach :=
  if addr < 0xc000 then some (s.store addr v)
  else if addr = 0xc000 then some { s with sw := { s.sw with store80 := false } }
  else if addr = 0xc001 then some { s with sw := { s.sw with store80 := true } }
  else if addr = 0xc00c then some { s with sw := { s.sw with col80 := false } }
  else if addr = 0xc00d then some { s with sw := { s.sw with col80 := true } }
  else if addr = 0xc010 then some s.strobe
  else if addr = 0xc030 then some s.click
  else if addr = 0xc094 then some { s with w := s.w.setMode v }
  else if addr = 0xc095 then some { s with w := { s.w with ptr := 256 * v.toNat + s.w.ptr % 256 } }
  else if addr = 0xc096 then some { s with w := { s.w with ptr := 256 * (s.w.ptr / 256) + v.toNat } }
  else if addr = 0xc097 then some { s with w := s.w.writeData v }
  else if 0xc100 ≤ addr then some s
  else s.display addr

/-- The flags N and Z of a value. -/
def Mach.setNZ (s : Mach) (v : U8) : Mach := { s with n := v.getLsbD 7, z := v == 0#8 }

/-- Destination of a branch: `d` is a signed byte. -/
def branchTarget (pc d : Nat) : Nat := if d < 128 then (pc + d) % 65536 else (pc + d + 65536 - 256) % 65536

/-- A conditional branch: one more cycle if taken, two if to another page. -/
def Mach.branch (s : Mach) (cond : Bool) (d : Nat) : Mach :=
  if cond then
    { s with pc := branchTarget s.pc d
             cycles := s.cycles + (if branchTarget s.pc d / 256 = s.pc / 256 then 1 else 2) }
  else s

/-- The Applesoft ROM routine HCLR at $F3F2 for page 1 (main.s:78, 320-322): fills $2000-$3FFF
with zeros through the same steering; uses zero page $1A-$1C. -/
def Mach.hclr (s : Mach) (r : Rom) : Option Mach :=
  if s.main 0xe6 = 0x20#8 then
    let clear (m : Nat → U8) (q : Nat) : U8 := if 0x2000 ≤ q ∧ q < 0x4000 then 0#8 else m q
    let m (q : Nat) : U8 := if 0x1a ≤ q ∧ q ≤ 0x1c then r.zp q else s.main q
    some { s with
      a := r.a, x := r.x, y := r.y, n := r.n, z := r.z, c := r.c, cycles := s.cycles + r.cycles
      main := if s.steered 0x2000 then m else clear m
      aux := if s.steered 0x2000 then clear s.aux else s.aux }
  else none

/-- The ROM routine COUT at $FDED (main.s:79): prints the character in A; uses zero page $20-$4F
and text page 1 of both banks; keeps A and Y. -/
def Mach.cout (s : Mach) (r : Rom) : Mach :=
  { s with
    x := r.x, n := r.n, z := r.z, c := r.c, cycles := s.cycles + r.cycles, out := s.out ++ [s.a]
    main := fun q => if (0x20 ≤ q ∧ q < 0x50) ∨ (0x400 ≤ q ∧ q < 0x800) then r.zp q else s.main q
    aux := fun q => if 0x400 ≤ q ∧ q < 0x800 then r.zpAux q else s.aux q }

/-- Executes an instruction; `s` has the counter after the instruction and the cycles already
added.  `none` stops the machine: BRK, subroutines other than HCLR and COUT, unmodelled I/O.
Simplification: the dummy read of indexed stores has no effect. -/
def Mach.exec (e : Env) (s : Mach) : Instr → Option Mach
  | .ldaI v => some { s.setNZ (BitVec.ofNat 8 v) with a := BitVec.ofNat 8 v }
  | .ldxI v => some { s.setNZ (BitVec.ofNat 8 v) with x := BitVec.ofNat 8 v }
  | .ldyI v => some { s.setNZ (BitVec.ofNat 8 v) with y := BitVec.ofNat 8 v }
  | .ldaA addr => (s.read addr).map fun r => { r.2.setNZ r.1 with a := r.1 }
  | .ldxA addr => (s.read addr).map fun r => { r.2.setNZ r.1 with x := r.1 }
  | .ldyA addr => (s.read addr).map fun r => { r.2.setNZ r.1 with y := r.1 }
  | .ldaX addr => (s.read ((addr + s.x.toNat) % 65536)).map fun r =>
      { r.2.setNZ r.1 with
        a := r.1, cycles := r.2.cycles + (if (addr + s.x.toNat) / 256 = addr / 256 then 0 else 1) }
  | .ldaY addr => (s.read ((addr + s.y.toNat) % 65536)).map fun r =>
      { r.2.setNZ r.1 with
        a := r.1, cycles := r.2.cycles + (if (addr + s.y.toNat) / 256 = addr / 256 then 0 else 1) }
  | .staZ addr => s.write addr s.a
  | .staA addr => s.write addr s.a
  | .staX addr => s.write ((addr + s.x.toNat) % 65536) s.a
  | .staY addr => s.write ((addr + s.y.toNat) % 65536) s.a
  | .stxA addr => s.write addr s.x
  | .styA addr => s.write addr s.y
  | .nop => some s
  | .clc => some { s with c := false }
  | .inx => some { s.setNZ (s.x + 1#8) with x := s.x + 1#8 }
  | .iny => some { s.setNZ (s.y + 1#8) with y := s.y + 1#8 }
  | .brk => none
  | .adcI v =>
    let sum := s.a.toNat + v + (if s.c then 1 else 0)
    some { s.setNZ (BitVec.ofNat 8 sum) with a := BitVec.ofNat 8 sum, c := decide (256 ≤ sum) }
  | .cmpI v => some { s.setNZ (s.a - BitVec.ofNat 8 v) with c := decide (v ≤ s.a.toNat) }
  | .cpxI v => some { s.setNZ (s.x - BitVec.ofNat 8 v) with c := decide (v ≤ s.x.toNat) }
  | .eorI v => some { s.setNZ (s.a ^^^ BitVec.ofNat 8 v) with a := s.a ^^^ BitVec.ofNat 8 v }
  | .bitA addr => (s.read addr).map fun r => { r.2 with n := r.1.getLsbD 7, z := (r.1 &&& s.a) == 0#8 }
  | .incA addr => (s.read addr).bind fun r => (r.2.write addr (r.1 + 1#8)).map fun s => s.setNZ (r.1 + 1#8)
  | .decZ addr => (s.read addr).bind fun r => (r.2.write addr (r.1 - 1#8)).map fun s => s.setNZ (r.1 - 1#8)
  | .jmp addr => some { s with pc := addr }
  | .jsr addr => if addr = 0xf3f2 then s.hclr (e.rom s.time) else if addr = 0xfded then some (s.cout (e.rom s.time)) else none
  | .beq d => some (s.branch s.z d)
  | .bne d => some (s.branch (!s.z) d)
  | .bcs d => some (s.branch s.c d)
  | .bpl d => some (s.branch (!s.n) d)

/-- The instruction at the program counter; code is only fetched from RAM. -/
def Mach.fetch (s : Mach) : Option Instr :=
  match decode (s.ram s.pc).toNat (s.ram (s.pc + 1)).toNat (s.ram (s.pc + 2)).toNat with
  | some i => if s.pc + i.len ≤ 0xc000 then some i else none
  | none => none

/-- What the environment does before an instruction: the connection changes, bytes arrive, a key
is pressed. -/
def Mach.env (e : Env) (s : Mach) : Mach :=
  { s with
    w := s.w.traffic e.file (e.link s.time) (e.deliver s.time)
    kbd := match e.key s.time with
      | some k => k ||| 0x80#8
      | none => s.kbd
    time := s.time + 1 }

/-- One instruction. -/
def Mach.step (e : Env) (s : Mach) : Option Mach :=
  let s := s.env e
  match s.fetch with
  | some i => { s with pc := s.pc + i.len, cycles := s.cycles + i.cycles }.exec e i
  | none => none

/-- `n` instructions; `none` if the machine stops before. -/
def Mach.run (e : Env) : Nat → Mach → Option Mach
  | 0, s => some s
  | n + 1, s => (s.step e).bind (Mach.run e n)

end IIVision.Player
