import Verif.Spec.Play

/-! How long the player stays between two blocks, and what is heard of it. -/

namespace IIVision.Player

open Spec

/-- A stay of the player between two blocks: how often it finds less than a block received (the loop of main.s:399-412, 25 cycles each time),
and how many cycles it loses by a pause (main.s:425-433). -/
structure Stay where
  polls : Nat
  pause : Nat

/-- Cycles lost. -/
def Stay.cycles (w : Stay) : Nat := 25 * w.polls + w.pause

/-- Cycles lost in the first `m` stays. -/
def lost (w : Nat → Stay) (m : Nat) : Nat := ((List.range m).map fun k => (w k).cycles).sum

/-- Unsuccessful looks at the network in the first `m` stays. -/
def pollsOf (w : Nat → Stay) (m : Nat) : Nat := ((List.range m).map fun k => (w k).polls).sum

/-- The times at which the speaker is toggled by opcodes that start at time `c`, if the stays are `w`: as in `clickTimes`, but with one more click for every look at the network in vain, 25 cycles apart. -/
def stayClicks (w : Nat → Stay) (c : Nat) : List Opcode → List Nat
  | [] => []
  | .tick t _ _ _ :: l => [c + 4, c + 4 + pulseWidth (4 + 2 * t.val)] ++ stayClicks w (c + 73) l
  | .ack _ :: l => [c + 4, c + 4 + 34, c + 73 + 4] ++ (List.range (w 0).polls).map (fun k => c + 102 + 25 * k) ++
      [c + 73 + 4 + 34 + (w 0).cycles] ++ stayClicks (fun k => w (k + 1)) (c + 2 * 73 + (w 0).cycles) l
  | .nop :: l => stayClicks w (c + 19) l
  | _ :: l => stayClicks w c l

end IIVision.Player
