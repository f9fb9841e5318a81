import Verif.Proofs.SymExec

/-! The symbolic executor. -/

namespace IIVision.Player

/-- Symbolic bytes, relative to a start state: a constant, stream byte `k`, the halves of the
address of stream byte `k` in the receive buffer, the high byte of the read pointer register and
the same plus 8, the initial registers. -/
inductive V where
  | lit (n : Nat) | str (k : Nat) | ringHi (k : Nat) | ringLo (k : Nat) | rdHi | rdHi8 | ia | ix | iy
  deriving DecidableEq, Repr

/-- Address pointer of the W5100. -/
inductive Ptr where
  | ring
  | reg (hi lo : V)
  deriving DecidableEq, Repr

/-- Symbolic state.  `clk` and `wr` are in reverse order; a write is to `base` plus an offset. -/
structure Sym where
  pc : Nat
  a : V
  x : V
  y : V
  c : Option Bool
  ptr : Ptr
  reads : Nat
  cyc : Nat
  clk : List Nat
  wr : List (Nat × V × V)
  rdw : Bool
  recv : Bool
  deriving DecidableEq, Repr

/-- The instruction at an address of the code. -/
def symFetch (h : Bool) (pc : Nat) : Option Instr :=
  match codeByte h pc with
  | none => none
  | some b =>
    match decode b ((codeByte h (pc + 1)).getD 0) ((codeByte h (pc + 2)).getD 0) with
    | none => none
    | some i =>
      match i.len with
      | 1 => some i
      | 2 => (codeByte h (pc + 1)).map fun _ => i
      | _ => (codeByte h (pc + 1)).bind fun _ => (codeByte h (pc + 2)).map fun _ => i

def symRead (n : Nat) (σ : Sym) (addr : Nat) : Option (V × Sym) :=
  bif Nat.beq addr 0xc097 then
    match σ.ptr with
    | .ring => bif Nat.blt σ.reads n then some (.str σ.reads, { σ with reads := σ.reads + 1 }) else none
    | .reg (.lit 4) (.lit 0x28) =>
      bif σ.rdw then none else some (.rdHi, { σ with ptr := .reg (.lit 4) (.lit 0x29) })
    | _ => none
  else bif Nat.beq addr 0xc095 then
    match σ.ptr with
    | .ring => some (.ringHi σ.reads, σ)
    | _ => none
  else none

def symWrite (n : Nat) (σ : Sym) (addr : Nat) (v : V) : Option Sym :=
  bif Nat.blt addr 0xc000 then
    bif Nat.beq addr 8 || isPatch addr then some { σ with wr := (addr, .lit 0, v) :: σ.wr } else none
  else bif Nat.beq addr 0xc030 then some { σ with clk := σ.cyc :: σ.clk }
  else bif Nat.beq addr 0xc095 then
    match σ.ptr with
    | .ring => some { σ with ptr := .reg v (.ringLo σ.reads) }
    | .reg _ l => some { σ with ptr := .reg v l }
  else bif Nat.beq addr 0xc096 then
    match σ.ptr with
    | .ring => none
    | .reg g _ => some { σ with ptr := .reg g v }
  else bif Nat.beq addr 0xc097 then
    match σ.ptr, v with
    | .reg (.lit 4) (.lit 0x28), .rdHi8 =>
      bif σ.rdw then none else some { σ with rdw := true, ptr := .reg (.lit 4) (.lit 0x29) }
    | .reg (.lit 4) (.lit 1), .lit 0x40 =>
      bif σ.rdw && !σ.recv && Nat.beq n 1 then some { σ with recv := true, ptr := .reg (.lit 4) (.lit 2) } else none
    | _, _ => none
  else bif Nat.ble 0xc100 addr then some σ
  else none

def symIndexed (h : Bool) (n : Nat) (σ : Sym) (base : Nat) (off : V) : Option Sym :=
  match off with
  | .lit 0 => bif Nat.blt base 65536 then symWrite n σ base σ.a else none
  | off =>
    bif !h && Nat.beq (base % 256) 0 && Nat.ble 0x2000 base && Nat.blt base 0x4000 then
      some { σ with wr := (base, off, σ.a) :: σ.wr }
    else none

/-- Executes an instruction; cycles and counter have been advanced. -/
def symExec (h : Bool) (n : Nat) (σ : Sym) : Instr → Option Sym
  | .ldaI v => some { σ with a := .lit v }
  | .ldxI v => some { σ with x := .lit v }
  | .ldyI v => some { σ with y := .lit v }
  | .ldaA addr => (symRead n σ addr).map fun r => { r.2 with a := r.1 }
  | .ldxA addr => (symRead n σ addr).map fun r => { r.2 with x := r.1 }
  | .ldyA addr => (symRead n σ addr).map fun r => { r.2 with y := r.1 }
  | .staZ addr => symWrite n σ addr σ.a
  | .staA addr => symWrite n σ addr σ.a
  | .stxA addr => symWrite n σ addr σ.x
  | .styA addr => symWrite n σ addr σ.y
  | .staX addr => symIndexed h n σ addr σ.x
  | .staY addr => symIndexed h n σ addr σ.y
  | .nop => some σ
  | .clc => some { σ with c := some false }
  | .adcI v =>
    match Nat.beq v 8, σ.a, σ.c with
    | true, .rdHi, some false => some { σ with a := .rdHi8, c := none }
    | _, _, _ => none
  | .jmp addr => some { σ with pc := addr }
  | _ => none

def symStep (h : Bool) (n : Nat) (σ : Sym) : Option Sym :=
  match symFetch h σ.pc with
  | none => none
  | some i => symExec h n { σ with pc := σ.pc + i.len, cyc := σ.cyc + i.cycles } i

/-- `k` instructions. -/
def symRun (h : Bool) (n : Nat) : Nat → Sym → Option Sym
  | 0, σ => some σ
  | k + 1, σ => match symStep h n σ with
    | none => none
    | some σ => symRun h n k σ

/-- Runs until the given address, at most `k` instructions; counts them. -/
def symUntil (h : Bool) (n stop : Nat) : Nat → Nat → Sym → Option (Nat × Sym)
  | 0, _, _ => none
  | k + 1, j, σ => bif Nat.beq σ.pc stop then some (j, σ) else
    match symStep h n σ with
    | none => none
    | some σ => symUntil h n stop k (j + 1) σ

def V.isLit : V → Nat → Bool
  | .lit m, n => Nat.beq m n
  | _, _ => false

def V.isStr : V → Nat → Bool
  | .str m, n => Nat.beq m n
  | _, _ => false

theorem V.isLit_eq {v : V} {n : Nat} (h : v.isLit n = true) : v = .lit n := by
  cases v <;> simp_all [V.isLit]

theorem V.isStr_eq {v : V} {n : Nat} (h : v.isStr n = true) : v = .str n := by
  cases v <;> simp_all [V.isStr]

/-- A write to the screen. -/
def isScr (w : Nat × V × V) : Bool := Nat.ble 0x2000 w.1 && Nat.blt w.1 0x4000 && Nat.beq (w.1 % 256) 0

/-- All other writes are to the scratch byte or to operands. -/
def otherOk (w : Nat × V × V) : Bool := isScr w || (w.2.1.isLit 0 && (Nat.beq w.1 8 || isPatch w.1))

theorem isScr_iff {w : Nat × V × V} : isScr w = true ↔ 0x2000 ≤ w.1 ∧ w.1 < 0x4000 ∧ w.1 % 256 = 0 := by
  unfold isScr
  rw [Bool.and_eq_true, Bool.and_eq_true, Nat.ble_eq, Nat.blt_eq, Nat.beq_eq, and_assoc]

/-- Start of an opcode. -/
def symStart (pc : Nat) : Sym :=
  { pc, a := .ia, x := .lit 0, y := .iy, c := none, ptr := .ring, reads := 0, cyc := 0, clk := [], wr := []
    rdw := false, recv := false }

end IIVision.Player
