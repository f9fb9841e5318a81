import Verif.Spec.Player
import Verif.Spec.Decode
import Verif.Spec.Symbols

/-! Streams the player can play, and what it means to execute their opcodes. -/

namespace IIVision.Player

open Spec

/-- A stream for the shipped player: header, opcodes, TERMINATE and padding, a whole number of
2048-byte blocks; each ACK occupies the last four bytes of a block, every other opcode lies within
the first 2044 bytes of one. -/
structure Playable (file : List U8) (mode : VideoMode) (body : List Opcode) : Prop where
  ops : ∀ op ∈ body, BodyOp op
  bytes : ∃ pad : List Nat,
    file = (bytesOf playerAddr (.header mode :: body ++ [.terminate]) ++ pad).map (BitVec.ofNat 8)
  whole : file.length % 2048 = 0
  acks : ∀ pre a post, body = pre ++ .ack a :: post → (7 + (bytesOf playerAddr pre).length) % 2048 = 2044
  others : ∀ pre op post, body ++ [.terminate] = pre ++ op :: post → (∀ a, op ≠ .ack a) →
    (7 + (bytesOf playerAddr pre).length) % 2048 + (op.emit playerAddr).length ≤ 2044

/-- Cycles between the two accesses of the speaker in the opcode for a duty of `d` cycles: `d`,
but one less for 22 and for 40. -/
def pulseWidth (d : Nat) : Nat := if d = 22 ∨ d = 40 then d - 1 else d

/-- The machine goes from `s` to `s'` by some number of instructions. -/
def Mach.Reaches (e : Env) (s s' : Mach) : Prop := ∃ n, s.run e n = some s'

/-- The machine executes opcodes, one after the other: each tick from its entry address in 73
cycles with two accesses of the speaker, storing its byte at its four offsets of its page (in the
bank the switches select) and changing nothing else in memory; each ACK selects a bank. -/
inductive Executes (e : Env) : Mach → List Opcode → Mach → Prop
  | nil (s : Mach) : Executes e s [] s
  | tick {s s' s'' : Mach} {t p : Fin 32} {c : U8} {os : List (Fin 256)} {ops : List Opcode} :
      s.pc = playerAddr (.tick t p) → s.Reaches e s' → s'.cycles = s.cycles + 73 →
      s'.clicks = s.clicks ++ [s.cycles + 4, s.cycles + 4 + pulseWidth (4 + 2 * t.val)] →
      SameMemory s' (s.draw (32 + p.val) c (os.map fun o => BitVec.ofNat 8 o.val)) → s'.sw = s.sw →
      Executes e s' ops s'' → Executes e s (.tick t p c os :: ops) s''
  | ack {s s' s'' : Mach} {a : Bool} {ops : List Opcode} :
      s.pc = playerAddr .ack → s.Reaches e s' → SameMemory s' s → s'.sw = { s.sw with page2 := a } →
      Executes e s' ops s'' → Executes e s (.ack a :: ops) s''
  | nop {s s' s'' : Mach} {ops : List Opcode} :
      s.pc = playerAddr .nop → s.Reaches e s' → SameMemory s' s → s'.sw = s.sw →
      Executes e s' ops s'' → Executes e s (.nop :: ops) s''

/-- The network keeps delivering as long as there is something to deliver. -/
def Env.Delivers (e : Env) : Prop := ∀ t, ∃ t', t ≤ t' ∧ 0 < e.deliver t'

/-- No key has been pressed and none will be. -/
def NoKeys (e : Env) (s : Mach) : Prop := s.kbd.getLsbD 7 = false ∧ ∀ t, s.time ≤ t → e.key t = none

/-- The player has been paused by a key and waits for another one, which never comes. -/
def Paused (e : Env) (s : Mach) : Prop := s.pc = sym .recv1 ∧ NoKeys e s

/-- Nobody touches the keyboard, or whoever pauses the player makes it go on again. -/
def PausesEnd (e : Env) (s : Mach) : Prop := NoKeys e s ∨ ∀ s', s.Reaches e s' → ¬ Paused e s'

/-- The player is loaded and has just connected to the server: it is about to wait for the
header; the chip is in auto-increment mode and its pointer is among the registers of socket 0;
nothing has been read or released; page 1 is selected. -/
structure Connected (e : Env) (s : Mach) : Prop where
  pc : s.pc = sym .waitReadHeader
  loaded : Loaded s.main
  page2 : s.sw.page2 = false
  auto : s.w.mode.getLsbD 1 = true
  ptr : s.w.ptr / 256 = 4
  ring : RingOk e s.w
  rd : s.w.rd = 0
  freed : s.w.freed = 0
  log : s.w.log = []

/-- Memory differs at most in screen page 1 (both banks), the scratch byte $08, the bytes $1A-$1C
and $E6 used for clearing the screen, and the player's own operand bytes. -/
def OnlyStartup (s t : Mach) : Prop :=
  ∀ q, ¬ (0x2000 ≤ q ∧ q < 0x4000) → t.aux q = s.aux q ∧
    (q ≠ 8 → ¬ (0x1a ≤ q ∧ q ≤ 0x1c) → q ≠ 0xe6 → ¬ Patched q → t.main q = s.main q)

/-- The screen memory of a bank is all zeros. -/
def Cleared (m : Nat → U8) : Prop := ∀ q, 0x2000 ≤ q → q < 0x4000 → m q = 0#8

/-- The display switches for a video mode: graphics, full screen, page 1, hires; for DHGR also
80STORE, 80 columns and double hires (left alone for HGR). -/
def Switches.For (mode : VideoMode) (old : Switches) : Switches :=
  match mode with
  | .HGR => { old with text := false, mixed := false, page2 := false, hires := true }
  | .DHGR => { text := false, mixed := false, page2 := false, hires := true, store80 := true, col80 := true, dhires := true }

/-- Screen page 1 of a memory bank, by page and offset. -/
def Mach.screen (s : Mach) (isAux : Bool) (p : Fin 32) (o : Fin 256) : U8 :=
  (if isAux then s.aux else s.main) (0x2000 + 256 * p.val + o.val)

/-- Both banks of it. -/
def Mach.screens (s : Mach) : (Fin 32 → Fin 256 → U8) × (Fin 32 → Fin 256 → U8) := (s.screen false, s.screen true)

/-- Cycles from the entry of the first to the exit of the last opcode, if the data are there and
no key is pressed. -/
def duration : List Opcode → Nat
  | [] => 0
  | .tick _ _ _ _ :: l => 73 + duration l
  | .ack _ :: l => 2 * 73 + duration l
  | .nop :: l => 19 + duration l
  | _ :: l => duration l

/-- The times at which the speaker is toggled by opcodes that start at time `c`, if the data are
there and no key is pressed. -/
def clickTimes (c : Nat) : List Opcode → List Nat
  | [] => []
  | .tick t _ _ _ :: l => [c + 4, c + 4 + pulseWidth (4 + 2 * t.val)] ++ clickTimes (c + 73) l
  | .ack _ :: l => [c + 4, c + 4 + 34, c + 73 + 4, c + 73 + 4 + 34] ++ clickTimes (c + 2 * 73) l
  | .nop :: l => clickTimes (c + 19) l
  | _ :: l => clickTimes c l

/-- When the `i`-th tick of a movie starts, in cycles from the first opcode: an ACK, which takes as
long as two ticks, comes after 291 ticks and then after every 292. -/
def tickStart (i : Nat) : Nat := 73 * (i + 2 * ((i + 1) / 292))

/-- `t` is a state the machine comes to from `s`, before the player has exited. -/
def Before (e : Env) (s t : Mach) : Prop :=
  ∃ n, s.run e n = some t ∧ ∀ m u, m < n → s.run e m = some u → u.pc ≠ sym .exit

/-- Number of bytes the network offers before the `n` instructions from time `t` on. -/
def Env.offered (e : Env) (t : Nat) : Nat → Nat
  | 0 => 0
  | n + 1 => e.offered t n + e.deliver (t + n)

/-- The network keeps up with the player: in every stretch of 5000 instructions (fewer than the
player executes for a block) it offers at least a block, 2048 bytes. -/
def Env.KeepsUp (e : Env) : Prop := ∀ t, 2048 ≤ e.offered t 5000

end IIVision.Player
