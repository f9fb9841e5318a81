import Verif.Spec.Movie

/-! A reader of the byte stream, as the player reads it: entry addresses select what to do. -/

namespace IIVision.Spec

/-- The command at an entry address. -/
def cmdAt (addr : AddrTable) (allCmds : List Cmd) (a : Nat) : Option Cmd :=
  allCmds.find? fun c => addr c = a

/-- Reads opcodes up to a TERMINATE; the bytes after it are ignored.  The number bounds the
number of opcodes. -/
def readOps (addr : AddrTable) (allCmds : List Cmd) : Nat → List Nat → Option (List Opcode)
  | 0, _ => none
  | n + 1, hi :: lo :: rest =>
    match cmdAt addr allCmds (256 * hi + lo), rest with
    | some .terminate, _ => some []
    | some .nop, rest => (readOps addr allCmds n rest).map (.nop :: ·)
    | some .ack, switch :: 0xff :: rest =>
      if switch = 0x55 then (readOps addr allCmds n rest).map (.ack true :: ·)
      else if switch = 0x54 then (readOps addr allCmds n rest).map (.ack false :: ·)
      else none
    | some (.tick t p), c :: o1 :: o2 :: o3 :: o4 :: rest =>
      (readOps addr allCmds n rest).map
        (.tick t p (BitVec.ofNat 8 c) [Fin.ofNat 256 o1, Fin.ofNat 256 o2, Fin.ofNat 256 o3, Fin.ofNat 256 o4] :: ·)
    | _, _ => none
  | _ + 1, _ => none

/-- A whole stream: six 0xff bytes, the video mode, then opcodes. -/
def readStream (addr : AddrTable) (allCmds : List Cmd) (bytes : List Nat) :
    Option (VideoMode × List Opcode) :=
  match bytes with
  | 0xff :: 0xff :: 0xff :: 0xff :: 0xff :: 0xff :: m :: rest =>
    let mode := if m = 0 then some VideoMode.HGR else if m = 1 then some VideoMode.DHGR else none
    mode.bind fun mode => (readOps addr allCmds rest.length rest).map fun ops => (mode, ops)
  | _ => none

/-- The opcodes that may follow a header: ticks with four offsets, ACKs and NOPs. -/
def BodyOp : Opcode → Prop
  | .header _ => False
  | .terminate => False
  | .nop => True
  | .ack _ => True
  | .tick _ _ _ os => os.length = 4

end IIVision.Spec
