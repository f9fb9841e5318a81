import Verif.Model.Opcodes

/-! Model of transcoder/symbol_table.py and of the part of transcoder/opcodes.py that fills
in the opcode addresses.

Text is a list of code points.  Python dictionaries are association lists in insertion
order. -/

namespace IIVision

abbrev Text := List Nat

/-- Text of an ASCII literal. -/
def txt (s : String) : Text := s.toList.map Char.toNat

abbrev Dict (α : Type) := List (Text × α)

/-- `d[k] = v`: replaces the value in place or appends. -/
def Dict.set {α : Type} : Dict α → Text → α → Dict α
  | [], k, v => [(k, v)]
  | (k', v') :: d, k, v => if k' = k then (k, v) :: d else (k', v') :: Dict.set d k v

/-- `d.get(k)` -/
def Dict.get {α : Type} : Dict α → Text → Option α
  | [], _ => none
  | (k', v') :: d, k => if k' = k then some v' else Dict.get d k

/-- `d[k]` -/
def Dict.get! {α : Type} (d : Dict α) (k : Text) : Except PyErr α :=
  match d.get k with
  | some v => .ok v
  | none => .error .keyError

/-- `str.split(sep)` for a one character separator: always at least one piece. -/
def splitOn (sep : Nat) : Text → List Text
  | [] => [[]]
  | c :: t => if c = sep then [] :: splitOn sep t else
    match splitOn sep t with
    | [] => [[c]]
    | w :: ws => (c :: w) :: ws

/-- `str.isspace` of a code point (Unicode, CPython). -/
def isSpace (c : Nat) : Bool :=
  (9 ≤ c && c ≤ 13) || (28 ≤ c && c ≤ 32) || c == 0x85 || c == 0xa0 || c == 0x1680 ||
  (0x2000 ≤ c && c ≤ 0x200a) || c == 0x2028 || c == 0x2029 || c == 0x202f || c == 0x205f || c == 0x3000

/-- `str.split()`: maximal runs of non-space characters.  `w` is the current run reversed. -/
def splitWsFrom (w : Text) : Text → List Text
  | [] => if w.isEmpty then [] else [w.reverse]
  | c :: t => if isSpace c then
      (if w.isEmpty then splitWsFrom [] t else w.reverse :: splitWsFrom [] t)
    else splitWsFrom (c :: w) t

def splitWs (t : Text) : List Text := splitWsFrom [] t

/-- symbol_table.py:30-32: `k, v = kv.split("="); sym[k] = v` -/
def addKv (d : Dict Text) (kv : Text) : Except PyErr (Dict Text) :=
  match splitOn 61 kv with
  | [k, v] => .ok (d.set k v)
  | _ => .error .valueError

/-- symbol_table.py:28-34: the attributes of a sym line and its name. -/
def parseSym (line : Text) : Except PyErr (Text × Dict Text) :=
  match splitWs line with
  | _ :: data :: _ => do
    let sym ← (splitOn 44 data).foldlM addKv []
    let name ← sym.get! (txt "name")
    return (name, sym)
  | _ => .error .indexError

/-- symbol_table.py:24-36: one line of the file. -/
def parseLine (syms : Dict (Dict Text)) (line : Text) : Except PyErr (Dict (Dict Text)) :=
  if (txt "sym").isPrefixOf line then do
    let (name, sym) ← parseSym line
    return syms.set name sym
  else .ok syms

/-- symbol_table.py:12-38 `SymbolTable.parse` of the contents of the debug file. -/
def parseSymbols (text : Text) : Except PyErr (Dict (Dict Text)) :=
  (splitOn 10 text).foldlM parseLine []

/-- Value of a hexadecimal digit. -/
def hexDigit (c : Nat) : Option Nat :=
  if 48 ≤ c ∧ c ≤ 57 then some (c - 48)
  else if 65 ≤ c ∧ c ≤ 70 then some (c - 55)
  else if 97 ≤ c ∧ c ≤ 102 then some (c - 87)
  else none

/-- A non-empty string of hexadecimal digits. -/
def hexDigits (acc : Nat) : Text → Option Nat
  | [] => some acc
  | c :: t => match hexDigit c with
    | none => none
    | some d => hexDigits (16 * acc + d) t

/-- `int(s, 16)`: an optional 0x or 0X and hexadecimal digits.  Simplification: signs,
underscores and non-ASCII digits, which Python also accepts, give ValueError here. -/
def intHex (s : Text) : Except PyErr Nat :=
  let body := match s with
    | 48 :: 120 :: t => t
    | 48 :: 88 :: t => t
    | t => t
  if body.isEmpty then .error .valueError
  else match hexDigits 0 body with
    | some n => .ok n
    | none => .error .valueError

/-- Decimal digits of a number below 100. -/
def dec2 (n : Nat) : Text := if n < 10 then [48 + n] else [48 + n / 10, 48 + n % 10]

/-- `op.name.lower()` for the names of opcodes.py:11-26. -/
def Cmd.lowerName : Cmd → Text
  | .header => txt "header"
  | .terminate => txt "terminate"
  | .nop => txt "nop"
  | .ack => txt "ack"
  | .tick t p => txt "tick_" ++ dec2 (4 + 2 * t.val) ++ txt "_page_" ++ dec2 (32 + p.val)

/-- All commands, in the order of opcodes.py:11-26. -/
def Cmd.all : List Cmd :=
  [.header, .terminate, .nop, .ack] ++
  (List.finRange 32).flatMap fun t => (List.finRange 32).map fun p => .tick t p

/-- opcodes.py:171-178: one symbol. -/
def addOpcode (d : Dict Nat) (entry : Text × Dict Text) : Except PyErr (Dict Nat) :=
  if (txt "\"op_").isPrefixOf entry.1 then do
    let opName := (entry.1.drop 4).dropLast
    let val ← entry.2.get! (txt "val")
    let start ← intHex val
    return d.set opName start
  else .ok d

/-- opcodes.py:168-187 `_parse_symbol_table` for the parsed symbols, and the loop
opcodes.py:205-207 that stores the addresses: the address of a command, `none` if it stays
None.  (The list is sorted by address in between; every class is assigned at most once, because
the names of `opcode_data` are distinct, so the order does not matter.) -/
def opcodeAddrs (syms : Dict (Dict Text)) : Except PyErr (Cmd → Option Nat) := do
  let d ← syms.foldlM addOpcode []
  return fun c => d.get c.lowerName

/-- opcodes.py:190-214 `_fill_opcode_addresses` for the contents of the debug file: ValueError
if some command has no address, or the address 0. -/
def fillAddresses (text : Text) : Except PyErr AddrTable := do
  let syms ← parseSymbols text
  let a ← opcodeAddrs syms
  if Cmd.all.all fun c => match a c with
      | none => false
      | some n => n != 0 then
    return fun c => (a c).getD 0
  else .error .valueError

end IIVision
