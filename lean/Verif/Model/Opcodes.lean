import Verif.Model.Bitmap

/-! Model of transcoder/opcodes.py (the opcode classes, their equality and the bytes they
emit) and transcoder/machine.py. -/

namespace IIVision

/-- opcodes.py:11-26 `OpcodeCommand`: the names of player opcodes.  The tick commands
`TICK_t_PAGE_p` for `t in range(4, 68, 2)`, `p in range(32, 64)` are indexed by
`(t - 4) / 2` and `p - 32`. -/
inductive Cmd where
  | header
  | terminate
  | nop
  | ack
  | tick (t p : Fin 32)
  deriving DecidableEq, Repr

/-- Opcode objects (opcodes.py:64-146); the dynamically created class `Tick{t}Page{p}`
(opcodes.py:149-165) is given by the same indices as its command.  Objects are only made by
the constructors, see `Opcode.newTick` for the check of the tick classes. -/
inductive Opcode where
  | header (mode : VideoMode)
  | terminate
  | nop
  | ack (auxActive : Bool)
  | tick (t p : Fin 32) (content : U8) (offsets : List (Fin 256))
  deriving DecidableEq

/-- `COMMAND` of the object's class. -/
def Opcode.cmd : Opcode → Cmd
  | .header _ => .header
  | .terminate => .terminate
  | .nop => .nop
  | .ack _ => .ack
  | .tick t p _ _ => .tick t p

/-- opcodes.py:135-139 `BaseTick.__init__`. -/
def Opcode.newTick (t p : Fin 32) (content : U8) (offsets : List (Fin 256)) : Except PyErr Opcode :=
  if offsets.length ≠ 4 then .error .valueError else .ok (.tick t p content offsets)

/-- opcodes.py:149-165 `TICK_OPCODES[(tick, page)]`. -/
def tickOpcodes (tick page : Int) : Except PyErr (Fin 32 × Fin 32) :=
  if 4 ≤ tick ∧ tick < 68 ∧ tick % 2 = 0 ∧ 32 ≤ page ∧ page < 64 then
    .ok (Fin.ofNat 32 ((tick - 4) / 2).toNat, Fin.ofNat 32 (page - 32).toNat)
  else .error .keyError

/-- opcodes.py:39-43 `Opcode.__eq__`: `isinstance(other, self.__class__)` (no concrete opcode
class is a subclass of another one) and then `__data_eq__` (opcodes.py:71-72, 97-98, 105-106,
123-124, 141-142). -/
def Opcode.pyEq : Opcode → Opcode → Bool
  | .header m, .header m' => m == m'
  | .nop, .nop => true
  | .terminate, .terminate => true
  | .ack a, .ack a' => a == a'
  | .tick t p c os, .tick t' p' c' os' => t == t' && p == p' && (c == c' && os == os')
  | _, _ => false

/-- The class attribute `_START` of every opcode class (opcodes.py:33-34, 205-207). -/
abbrev AddrTable := Cmd → Nat

/-- opcodes.py:48-52 `emit_command`; the header has none (opcodes.py:74-78). -/
def Opcode.emitCommand (addr : AddrTable) : Opcode → List Nat
  | .header _ => []
  | op => [addr op.cmd / 256, addr op.cmd % 256]

/-- `emit_data` of the opcode classes (opcodes.py:54-55, 80-90, 116-121, 144-146). -/
def Opcode.emitData : Opcode → List Nat
  | .header m => [0xff, 0xff, 0xff, 0xff, 0xff, 0xff, m.value]
  | .terminate => []
  | .nop => []
  | .ack a => [if a then 0x55 else 0x54, 0xff]
  | .tick _ _ c os => c.toNat :: os.map (·.val)

/-- machine.py:11-25 `Machine.emit` (`opcode.apply` does nothing, opcodes.py:57-61). -/
def Opcode.emit (addr : AddrTable) (op : Opcode) : List Nat := op.emitCommand addr ++ op.emitData

end IIVision
