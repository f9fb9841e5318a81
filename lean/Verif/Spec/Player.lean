import Verif.Model.Player

/-! What it means that the player is loaded, which of its bytes it may change itself, and what
the receive buffer holds. -/

namespace IIVision.Player

/-- Memory holds the assembled program. -/
def Loaded (m : Nat → U8) : Prop :=
  ∀ seg ∈ program, ∀ i b, seg.2[i]? = some b → m (seg.1 + i) = BitVec.ofNat 8 b

/-- The tick opcodes that end in a jump of their own (the others continue in those of t = 4 and
t = 6). -/
def ownJump : List Nat := [4, 6, 18, 36, 54, 56, 58, 60, 62, 64, 66]

/-- The bytes of the program that the program changes: the operands of the jumps to the next
opcode, and the low operand byte of the soft switch store of the ACK opcode. -/
def Patched (q : Nat) : Prop :=
  (∃ t ∈ ownJump, ∃ p, 32 ≤ p ∧ p < 64 ∧ (q = sym (.jmp t p) + 1 ∨ q = sym (.jmp t p) + 2)) ∨
  q = sym .nopD + 1 ∨ q = sym .nopD + 2 ∨ q = sym .ackD + 1

/-- The code needed for playing (segments LOWCODE and CODE) is as assembled, except for the
bytes it changes itself. -/
def Intact (m : Nat → U8) : Prop :=
  ∀ seg ∈ program, seg.1 ≠ 0x2000 → ∀ i b, seg.2[i]? = some b → ¬ Patched (seg.1 + i) →
    m (seg.1 + i) = BitVec.ofNat 8 b

/-- Byte `i` of the file. -/
def Env.byte (e : Env) (i : Nat) : U8 := e.file.getD i 0#8

/-- The receive buffer holds the last bytes that arrived, at most 8192 of which have not been
released; the connection is established, or has been closed by the server after everything has
arrived. -/
structure RingOk (e : Env) (w : W5100) : Prop where
  content : ∀ i, i < w.arrived → w.arrived ≤ i + 8192 → w.rx (i % 8192) = e.byte i
  window : w.arrived ≤ w.freed + 8192
  freed : w.freed ≤ w.arrived
  file : w.arrived ≤ e.file.length
  up : w.sr = stEstablished ∨ e.file.length ≤ w.arrived

/-- The player is about to read byte `r` of the stream: its code is there, the chip is in
auto-increment mode with its pointer at byte `r` of the receive buffer, the read pointer register
and the released bytes agree, a whole block of 2048 bytes has arrived beyond the released ones,
and X is 0. -/
structure Playing (e : Env) (s : Mach) (r : Nat) : Prop where
  intact : Intact s.main
  auto : s.w.mode.getLsbD 1 = true
  ptr : s.w.ptr = 0x6000 + r % 8192
  ring : RingOk e s.w
  rd : s.w.rd = s.w.freed % 65536
  freed : s.w.freed ≤ r
  block : s.w.freed + 2048 ≤ s.w.arrived
  x : s.x = 0#8

/-- Memory (both banks) after storing a byte at offsets of a page, in order. -/
def Mach.draw (s : Mach) (page : Nat) (c : U8) (offsets : List U8) : Mach :=
  offsets.foldl (fun s o => s.store (256 * page + o.toNat) c) s

/-- Nothing but the scratch byte $08 and the player's own operand bytes differs in memory. -/
def SameMemory (s t : Mach) : Prop := ∀ q, q ≠ 8 → ¬ Patched q → s.main q = t.main q ∧ s.aux q = t.aux q

/-- Memory differs at most in screen page 1 (both banks), the scratch byte $08 and the player's
own operand bytes. -/
def OnlyScreen (s t : Mach) : Prop :=
  ∀ q, ¬ (0x2000 ≤ q ∧ q < 0x4000) → t.aux q = s.aux q ∧ (q ≠ 8 → ¬ Patched q → t.main q = s.main q)

end IIVision.Player
