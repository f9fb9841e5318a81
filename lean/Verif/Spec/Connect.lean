import Verif.Spec.Play

/-! Starting the player: what the card must be told, what is printed, what the network may do. -/

namespace IIVision.Player

/-- The player has been loaded and is entered at its first byte; page 1 is selected, the processor
has not read from the receive buffer yet.  Nothing is assumed about the card. -/
structure Started (s : Mach) : Prop where
  pc : s.pc = 0x800
  loaded : Loaded s.main
  page2 : s.sw.page2 = false
  log : s.w.log = []

/-- `n` registers of the card, from an address on. -/
def W5100.regsAt (w : W5100) (q n : Nat) : List U8 := (List.range n).map fun i => w.regs.at_ (q + i)

/-- The card is set up as the constants of main.s:36-39 and the data sheet want it: indirect bus
interface with auto-increment; hardware address 00:08:DC:01:02:03; own address 10.0.65.2; 8K of
receive and transmit memory for socket 0; socket 0 in TCP mode (no delayed ACK), local port $C000,
foreign address 10.0.0.1 port 1977.  Gateway and subnet mask are left at 0. -/
structure Configured (w : W5100) : Prop where
  mode : w.mode = 3#8
  gateway : w.regsAt 0x01 4 = [0#8, 0#8, 0#8, 0#8]
  subnet : w.regsAt 0x05 4 = [0#8, 0#8, 0#8, 0#8]
  mac : w.regsAt 0x09 6 = [0x00#8, 0x08#8, 0xdc#8, 0x01#8, 0x02#8, 0x03#8]
  address : w.regsAt 0x0f 4 = [10#8, 0#8, 65#8, 2#8]
  memory : w.regsAt 0x1a 2 = [3#8, 3#8]
  tcp : w.regsAt 0x400 1 = [0x21#8]
  port : w.regsAt 0x404 2 = [0xc0#8, 0x00#8]
  server : w.regsAt 0x40c 4 = [10#8, 0#8, 0#8, 1#8]
  serverPort : w.regsAt 0x410 2 = [BitVec.ofNat 8 (1977 / 256), BitVec.ofNat 8 (1977 % 256)]

/-- Text as the Apple II prints it: ASCII with the high bit set. -/
def appleText (t : String) : List U8 := t.toList.map fun c => BitVec.ofNat 8 (c.toNat + 128)

/-- The next instruction is a BRK. -/
def Mach.AtBrk (s : Mach) : Prop := s.ram s.pc = 0x00#8

/-- The reset vector points to the exit routine, and its check byte is right: pressing RESET
enters that routine. -/
def ResetVector (s : Mach) : Prop :=
  s.main 0x3f2 = BitVec.ofNat 8 (sym .exit) ∧ s.main 0x3f3 = BitVec.ofNat 8 (sym .exit / 256) ∧
  s.main 0x3f4 = s.main 0x3f3 ^^^ 0xa5#8

/-- The player waits for a connection and goes on waiting. -/
def WaitsForever (e : Env) (s : Mach) : Prop :=
  ∀ n, ∃ u, s.run e n = some u ∧ u.out = s.out ∧ ResetVector u ∧ sym .checktest ≤ u.pc ∧ u.pc < sym .failed

/-- Every attempt to connect is answered. -/
def Env.Answers (e : Env) : Prop := ∀ t, ∃ t', t ≤ t' ∧ (e.link t' = some stEstablished ∨ e.link t' = some stClosed)

/-- No attempt to connect fails. -/
def Env.NeverRefuses (e : Env) : Prop := ∀ t, e.link t ≠ some stClosed

/-- No attempt to connect succeeds. -/
def Env.NeverAccepts (e : Env) : Prop := ∀ t, e.link t ≠ some stEstablished

/-- The network does not change the status of the connection in other ways than to answer. -/
def Env.StaysOpen (e : Env) : Prop := ∀ t, e.link t ≠ some stCloseWait

/-- Nothing has happened to the memory, the switches and the speaker. -/
def Untouched (s t : Mach) : Prop := t.main = s.main ∧ t.aux = s.aux ∧ t.sw = s.sw ∧ t.clicks = s.clicks

/-- A key has been struck and not yet been taken: bit 7 of KBD, which a key sets and any access of
KBDSTRB clears. -/
def KeyWaits (e : Env) (s : Mach) : Prop := s.kbd.getLsbD 7 = true ∨ e.key s.time ≠ none

/-- The player has come from an ACK for bank `a`, with byte `r` of the stream about to be read in
state `s`, to the first opcode of the next block: it has read the rest of the block and that
opcode, released the block and selected the bank; nothing else has changed in memory. -/
structure NextBlock (e : Env) (s : Mach) (r : Nat) (a : Bool) (t : Mach) : Prop where
  pc : t.pc = 256 * (e.byte (r + 2)).toNat + (e.byte (r + 3)).toNat
  playing : Playing e t (r + 4)
  mem : SameMemory t s
  sw : t.sw = { s.sw with page2 := a }
  log : t.w.log = s.w.log ++ (e.file.drop r).take 4
  freed : t.w.freed = s.w.freed + 2048
  rd : t.w.rd = (s.w.rd + 2048) % 65536

/-- `n` bytes of memory, from an address on. -/
def Mach.bytesAt (s : Mach) (q n : Nat) : List U8 := (List.range n).map fun i => s.ram (q + i)

/-- The processor is about to call the ProDOS machine language interface: JSR $BF00, followed by
the number of the call and the address of the parameters. -/
def Mach.CallsProDOS (s : Mach) (call : U8) (params : List U8) : Prop :=
  ∃ lo hi : U8, s.bytesAt s.pc 6 = [0x20#8, 0x00#8, 0xbf#8, call, lo, hi] ∧
    s.bytesAt (lo.toNat + 256 * hi.toNat) params.length = params

end IIVision.Player
