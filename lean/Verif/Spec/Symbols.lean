import Verif.Model.Symbols
import Verif.Data.PlayerSymbols

/-! What a cc65 debug file looks like, and where the shipped player's opcodes are. -/

namespace IIVision.Spec

/-- `ws` joined by the character `sep`. -/
def joinWith (sep : Nat) : List Text → Text
  | [] => []
  | [w] => w
  | w :: ws => w ++ sep :: joinWith sep ws

/-- A line of a debug file: a symbol with its attributes, or something else. -/
inductive DbgLine where
  | sym (attrs : List (Text × Text))
  | other (t : Text)

/-- `sym<TAB>key=value,key=value,...` -/
def DbgLine.render : DbgLine → Text
  | .sym attrs => txt "sym" ++ 9 :: joinWith 44 (attrs.map fun kv => kv.1 ++ 61 :: kv.2)
  | .other t => t

/-- The file: lines separated by newlines. -/
def renderDbg (lines : List DbgLine) : Text := joinWith 10 (lines.map DbgLine.render)

/-- Keys and values contain no separators. -/
def PlainText (t : Text) : Prop := ∀ c ∈ t, c ≠ 61 ∧ c ≠ 44 ∧ c ≠ 10 ∧ isSpace c = false

/-- Value of the last attribute `k`. -/
def lastAttr (attrs : List (Text × Text)) (k : Text) : Option Text :=
  ((attrs.filter fun kv => kv.1 = k).getLast?).map (·.2)

/-- Well-formed lines: symbols have plain attributes, one of them a name; other lines do not
start with "sym". -/
def DbgLine.Ok : DbgLine → Prop
  | .sym attrs => (∀ kv ∈ attrs, PlainText kv.1 ∧ PlainText kv.2) ∧ (lastAttr attrs (txt "name")).isSome
  | .other t => 10 ∉ t ∧ (txt "sym").isPrefixOf t = false

/-- The symbol lines of a file, in order. -/
def symsOf (lines : List DbgLine) : List (List (Text × Text)) :=
  lines.filterMap fun l => match l with
    | .sym attrs => some attrs
    | .other _ => none

/-- The last symbol line with the given name. -/
def lastNamed (lines : List DbgLine) (name : Text) : Option (List (Text × Text)) :=
  ((symsOf lines).filter fun attrs => lastAttr attrs (txt "name") = some name).getLast?

/-- Hexadecimal number as cc65 prints it, e.g. `0xBA72`. -/
def hexText (n : Nat) : Text :=
  48 :: 120 :: (if n = 0 then [48] else go (n + 1) n [])
where
  /-- digits of `n`, most significant first, in front of `acc` -/
  go : Nat → Nat → Text → Text
    | 0, _, acc => acc
    | fuel + 1, n, acc => if n = 0 then acc else
      go fuel (n / 16) ((if n % 16 < 10 then 48 + n % 16 else 55 + n % 16) :: acc)

/-- The symbol of a player opcode: `"op_<name>"` with the quotes. -/
def opSymbol (c : Cmd) : Text := txt "\"op_" ++ c.lowerName ++ [34]

/-- Offsets of the tick opcodes of duty 4, 6, ..., 66 within the code of one page. -/
def tickOffsets : List Nat :=
  [0, 52, 103, 117, 130, 147, 163, 186, 238, 258, 281, 304, 330, 355, 384, 412, 450, 502, 534, 569,
   604, 642, 679, 720, 760, 803, 855, 907, 959, 1011, 1063, 1115]

/-- Entry addresses of the shipped player's opcodes. -/
def playerAddr : AddrTable
  | .header => 0x215b
  | .terminate => 0xba64
  | .nop => 0x4070
  | .ack => 0xba72
  | .tick t p =>
    tickOffsets.getD t.val 0 +
      (if p.val < 5 then 0x803 + 1167 * p.val
       else if p.val < 31 then 0x407f + 1167 * (p.val - 5)
       else if t.val < 11 then 0x1ece else 0x1ece + 38663)

/-- Text of a number in base 256, first character least significant. -/
def textOfNat : Nat → Nat → Text
  | 0, _ => []
  | fuel + 1, n => if n = 0 then [] else n % 256 :: textOfNat fuel (n / 256)

/-- Text of a list of such numbers of up to 32 characters. -/
def textOfNats (ns : List Nat) : Text := ns.flatMap (textOfNat 32)

/-- The attributes of the `sym` lines of player/iivision.dbg (Data/PlayerSymbols.lean), in
order. -/
def shippedSyms : List (List (Text × Text)) :=
  symLineGroups.flatten.map fun attrs => attrs.map fun kv => (textOfNats kv.1, textOfNats kv.2)

end IIVision.Spec
