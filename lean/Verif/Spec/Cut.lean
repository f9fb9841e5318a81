import Verif.Spec.Play
import Verif.Spec.Movie
import Verif.Spec.Encoder

/-! A player that waits forever. -/

namespace IIVision.Player

/-- From here on nothing happens any more, whatever arrives and whatever keys are pressed: the machine goes on forever, but memory (apart from
the scratch byte $08 and operands of the player's own jumps), the soft switches and what has been read of the stream stay as they are, and the
player does not exit. -/
def Hung (e : Env) (s : Mach) : Prop :=
  ∀ n, ∃ t, s.run e n = some t ∧ SameMemory t s ∧ t.sw = s.sw ∧ t.w.log = s.w.log ∧ t.pc ≠ sym .exit

/-- Meanwhile the speaker is toggled every 25 cycles, once in 9 instructions. -/
def Buzzing (e : Env) (s : Mach) : Prop :=
  ∀ i, ∃ t, s.run e (9 * i) = some t ∧ t.pc = s.pc ∧ t.cycles = s.cycles + 25 * i ∧
    t.clicks = s.clicks ++ (List.range i).map fun j => s.cycles + 19 + 25 * j

/-- Number of bytes that are read of a stream that has been cut off after `n` bytes, before the block with its TERMINATE is complete: nothing of
less than 256 bytes, the header of less than a block, and else the complete blocks. -/
def readOf (n : Nat) : Nat := if n < 256 then 0 else if n < 2048 then 7 else 2048 * (n / 2048)

open Spec

/-- What a player that has just connected does with the beginning of a stream for display mode `mode` with opcodes `body`, when the file ends before the block with
TERMINATE is complete. -/
structure CutOff (e : Env) (s : Mach) (mode : VideoMode) (body : List Opcode) : Prop where
  /-- whatever the network and the keyboard do, it goes on forever and never exits, changes no memory but screen page 1, its scratch bytes and
  the operands of its own jumps, and has read a beginning of what has arrived -/
  going : ∀ n, ∃ t, s.run e n = some t ∧ t.pc ≠ sym .exit ∧ OnlyStartup s t ∧ ∃ k, t.w.log = e.file.take k ∧ k ≤ t.w.arrived ∧ k ≤ e.file.length
  /-- of less than 256 bytes it takes no notice at all -/
  short : e.file.length < 256 → Hung e s
  /-- otherwise, if everything is delivered and every pause is ended, it switches to the display mode, clears the screen, executes exactly the
  opcodes of the complete blocks, has read those and nothing else (of less than one block the header), and then waits forever, toggling the speaker -/
  long : 256 ≤ e.file.length → e.Delivers → PausesEnd e s → ∃ pre post s1 s2, body = pre ++ post ∧
    (e.file.length < 2048 → pre = []) ∧ (2048 ≤ e.file.length → 7 + (bytesOf playerAddr pre).length = 2048 * (e.file.length / 2048)) ∧
    s.Reaches e s1 ∧ s1.sw = Switches.For mode s.sw ∧ Cleared s1.main ∧ (mode = .DHGR → Cleared s1.aux) ∧
    Executes e s1 pre s2 ∧ Hung e s2 ∧ Buzzing e s2 ∧ s2.w.log = e.file.take (readOf e.file.length) ∧
    ((mode = .HGR → ∀ a, .ack a ∈ body → a = false) → ∀ b, (mode = .HGR → b = false) →
      s2.screen b = bankOf ((ticksOf false pre).foldl playTick blank) b)

end IIVision.Player
