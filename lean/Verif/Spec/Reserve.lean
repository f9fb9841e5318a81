import Verif.Spec.Waits

/-! When the player looks for the next block. -/

namespace IIVision.Player

open Spec

/-- When the player looks for block `m + 1` of a movie if it never waits, in cycles from its first opcode: after 291 ticks and `m` times 292 ticks and an ACK, 87 cycles into the next ACK. -/
def dueTime (m : Nat) : Nat := 73 * (294 * m + 291) + 87

/-- When it first looks for it if the stays are `w`: that, and what has been lost before. -/
def lookTime (w : Nat → Stay) (m : Nat) : Nat := dueTime m + lost w m

/-- Cycles lost by pauses in the first `m` stays. -/
def pausesOf (w : Nat → Stay) (m : Nat) : Nat := ((List.range m).map fun k => (w k).pause).sum

/-- The movie begins in state `s1`.  Block `m + 1` has arrived at most `d` cycles after it is due. -/
def InTime (e : Env) (s1 : Mach) (m d : Nat) : Prop :=
  ∃ y, s1.Reaches e y ∧ y.cycles ≤ s1.cycles + dueTime m + d ∧ 2048 * (m + 2) ≤ y.w.arrived

/-- The movie is played from `s1` to `s2`.  Block `m + 1` has not arrived at some time that is `d` cycles or more after it is due. -/
def TooLate (e : Env) (s1 s2 : Mach) (m d : Nat) : Prop :=
  ∃ y, s1.Reaches e y ∧ y.Reaches e s2 ∧ s1.cycles + dueTime m + d ≤ y.cycles ∧ y.w.arrived < 2048 * (m + 2)

/-- The movie is played from `s1` to `s2`.  The network has delivered, in time `t`, at least `p / q * t` bytes, unless the file is at its end or three blocks are waiting in the buffer. -/
def Supplies (e : Env) (s1 s2 : Mach) (p q : Nat) : Prop :=
  ∀ y, s1.Reaches e y → y.Reaches e s2 → e.file.length ≤ y.w.arrived ∨ y.w.freed + 6144 ≤ y.w.arrived ∨ p * (y.cycles - s1.cycles) ≤ q * y.w.arrived

/-- The network has delivered, in time `t`, at most `b + p / q * t` bytes. -/
def Throttled (e : Env) (s1 s2 : Mach) (b p q : Nat) : Prop :=
  ∀ y, s1.Reaches e y → y.Reaches e s2 → q * y.w.arrived ≤ q * b + p * (y.cycles - s1.cycles)

end IIVision.Player
