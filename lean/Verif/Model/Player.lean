import Verif.Model.Cpu

/-! The player program, player/main.s, as assembler source, and its translation to bytes with
the segment addresses of player/apple2-asm-hgr.cfg. -/

namespace IIVision.Player

/-- Labels of main.s.  `jmp t p` is `_op_tick_t_page_p_jmp` or the local label `@D` of the tick
opcodes. -/
inductive Label where
  | opTick (t p : Nat) | tail (p n : Nat) | jmp (t p : Nat)
  | srcaddr | faddr | fport | mac
  | bootstrap | resetW5100 | bootL1 | bootL2 | bootL3 | bootL4 | bootDone | sockerr
  | opened | checktest | failed | errdone | errL | errDone | errmsg
  | waitReadHeader | opHeader | opHeaderHgr | hgr1
  | checkrecv | recv | recv0 | recv1 | recv2 | opNop | nopD
  | opTerminate | term0 | term1 | opAck | ackD | exit | exitParmtable | closeconn

/-- Operands: a number, a label plus an offset, the low or high byte of a label. -/
inductive Opd where
  | num (n : Nat)
  | lab (l : Label) (d : Nat)
  | lo (l : Label)
  | hi (l : Label)

/-- A line of source. -/
inductive Src where
  | label (l : Label)
  | bytes (bs : List Nat)
  | word (l : Label)
  | imp (i : Instr)
  | op (mk : Nat → Instr) (o : Opd)
  | rel (mk : Nat → Instr) (l : Label)

/-- Bytes a line occupies. -/
def Src.size : Src → Nat
  | .label _ => 0
  | .bytes bs => bs.length
  | .word _ => 2
  | .imp i => i.len
  | .op mk _ => (mk 0).len
  | .rel mk _ => (mk 0).len

/-- main.s:44-74: addresses of the card and of the soft switches. -/
abbrev WMODE := 0xc094
abbrev WADRH := 0xc095
abbrev WADRL := 0xc096
abbrev WDATA := 0xc097
abbrev KBD := 0xc000
abbrev STORE80ON := 0xc001
abbrev COL80ON := 0xc00d
abbrev KBDSTRB := 0xc010
abbrev TICK := 0xc030
abbrev TEXTOFF := 0xc050
abbrev FULLSCR := 0xc052
abbrev PAGE2OFF := 0xc054
abbrev PAGE2ON := 0xc055
abbrev HIRESON := 0xc057
abbrev DHIRESON := 0xc05e

def staTick : Src := .op .staA (.num TICK)
def staZp : Src := .op .staZ (.num 8)
def staDummy : Src := .op .staA (.num 0xffff)
def ldaData : Src := .op .ldaA (.num WDATA)
def ldxData : Src := .op .ldxA (.num WDATA)
def ldyData : Src := .op .ldyA (.num WDATA)
def nop_ : Src := .imp .nop
def lda (n : Nat) : Src := .op .ldaI (.num n)
def sta (n : Nat) : Src := .op .staA (.num n)

/-! ### Tick opcodes -/

/-- main.s:480-522 `op_tick_4` -/
def opTick4 (p : Nat) : List Src :=
  [.label (.opTick 4 p), staTick, staTick, staZp, staZp, .label (.tail p 59), ldaData,
   .label (.tail p 55), ldyData, .label (.tail p 51), .op .staY (.num (256 * p)),
   .label (.tail p 46), ldyData, .label (.tail p 42), .op .staY (.num (256 * p)),
   .label (.tail p 37), ldyData, .label (.tail p 33), .op .staY (.num (256 * p)),
   .label (.tail p 28), ldyData, .label (.tail p 24), .op .staY (.num (256 * p)),
   .label (.tail p 19), ldaData, .label (.tail p 15), .op .staA (.lab (.jmp 4 p) 2),
   .label (.tail p 11), ldaData, .label (.tail p 7), .op .staA (.lab (.jmp 4 p) 1),
   .label (.jmp 4 p), .op .jmp (.lab .opNop 0)]

/-- main.s:524-567 `op_tick_6` -/
def opTick6 (p : Nat) : List Src :=
  [.label (.opTick 6 p), staTick, nop_, staTick, staZp, .label (.tail p 60), ldaData,
   .label (.tail p 56), ldyData, .label (.tail p 52), .op .staY (.num (256 * p)),
   .label (.tail p 47), ldyData, .label (.tail p 43), .op .staY (.num (256 * p)),
   .label (.tail p 38), ldyData, .label (.tail p 34), .op .staY (.num (256 * p)),
   .label (.tail p 29), ldyData, .label (.tail p 25), .op .staY (.num (256 * p)),
   .label (.tail p 20), ldaData, .label (.tail p 16), .op .staA (.lab (.jmp 6 p) 2),
   .label (.tail p 12), ldaData, .label (.tail p 8), .op .staX (.lab (.jmp 6 p) 1),
   .label (.jmp 6 p), .op .jmp (.lab .opNop 0)]

/-- main.s:569-578 `op_tick_8` -/
def opTick8 (p : Nat) : List Src :=
  [.label (.opTick 8 p), staTick, ldaData, staTick, staZp, .op .jmp (.lab (.tail p 55) 0)]

/-- main.s:580-589 `op_tick_10` -/
def opTick10 (p : Nat) : List Src :=
  [.label (.opTick 10 p), staTick, ldaData, nop_, staTick, .op .jmp (.lab (.tail p 56) 0)]

/-- main.s:591-601 `op_tick_12` -/
def opTick12 (p : Nat) : List Src :=
  [.label (.opTick 12 p), staTick, ldaData, ldyData, staTick, staZp,
   .op .jmp (.lab (.tail p 51) 0)]

/-- main.s:603-613 `op_tick_14` -/
def opTick14 (p : Nat) : List Src :=
  [.label (.opTick 14 p), staTick, ldaData, ldyData, nop_, staTick,
   .op .jmp (.lab (.tail p 52) 0)]

/-- main.s:615-631 `op_tick_16` -/
def opTick16 (p : Nat) : List Src :=
  [.label (.opTick 16 p), staTick, ldaData, ldxData, ldyData, staTick,
   .op .staX (.num (256 * p)), .op .ldxI (.num 0), .op .jmp (.lab (.tail p 43) 0)]

/-- main.s:633-665 `op_tick_18` -/
def opTick18 (p : Nat) : List Src :=
  [.label (.opTick 18 p), staTick, ldaData, ldyData, ldxData, nop_, staTick,
   .op .staY (.num (256 * p)), .op .staX (.num (256 * p)), .op .ldxI (.num 0), nop_, ldyData,
   .op .staY (.num (256 * p)), ldyData, .op .staY (.num (256 * p)), ldaData,
   .op .staA (.lab (.jmp 18 p) 2), ldaData, .op .staA (.lab (.jmp 18 p) 1), .label (.jmp 18 p),
   .op .jmp (.lab .opNop 0)]

/-- main.s:667-678 `op_tick_20` -/
def opTick20 (p : Nat) : List Src :=
  [.label (.opTick 20 p), staTick, ldaData, ldyData, .op .staY (.num (256 * p)), staZp, staTick,
   .op .jmp (.lab (.tail p 46) 0)]

/-- main.s:681-693 `op_tick_22` -/
def opTick22 (p : Nat) : List Src :=
  [.label (.opTick 22 p), staTick, ldaData, ldyData, .op .staY (.num (256 * p)), ldyData,
   staTick, staZp, .op .jmp (.lab (.tail p 42) 0)]

/-- main.s:695-707 `op_tick_24` -/
def opTick24 (p : Nat) : List Src :=
  [.label (.opTick 24 p), staTick, ldaData, ldyData, .op .staY (.num (256 * p)), ldyData, staZp,
   staTick, .op .jmp (.lab (.tail p 42) 0)]

/-- main.s:709-722 `op_tick_26` -/
def opTick26 (p : Nat) : List Src :=
  [.label (.opTick 26 p), staTick, ldaData, ldyData, .op .staY (.num (256 * p)), ldyData,
   .op .staY (.num (256 * p)), staTick, staZp, .op .jmp (.lab (.tail p 37) 0)]

/-- main.s:724-737 `op_tick_28` -/
def opTick28 (p : Nat) : List Src :=
  [.label (.opTick 28 p), staTick, ldaData, ldyData, .op .staY (.num (256 * p)), ldyData,
   .op .staY (.num (256 * p)), nop_, staTick, .op .jmp (.lab (.tail p 38) 0)]

/-- main.s:739-753 `op_tick_30` -/
def opTick30 (p : Nat) : List Src :=
  [.label (.opTick 30 p), staTick, ldaData, ldyData, .op .staY (.num (256 * p)), ldyData,
   .op .staY (.num (256 * p)), ldyData, staTick, staZp, .op .jmp (.lab (.tail p 33) 0)]

/-- main.s:755-769 `op_tick_32` -/
def opTick32 (p : Nat) : List Src :=
  [.label (.opTick 32 p), staTick, ldaData, ldyData, .op .staY (.num (256 * p)), ldyData,
   .op .staY (.num (256 * p)), ldyData, nop_, staTick, .op .jmp (.lab (.tail p 34) 0)]

/-- main.s:771-790 `op_tick_34` -/
def opTick34 (p : Nat) : List Src :=
  [.label (.opTick 34 p), staTick, ldaData, ldyData, .op .staY (.num (256 * p)), ldyData,
   .op .staY (.num (256 * p)), ldyData, ldxData, staTick, .op .staY (.num (256 * p)),
   .op .staX (.num (256 * p)), .op .ldxI (.num 0), .op .jmp (.lab (.tail p 20) 0)]

/-- main.s:792-818 `op_tick_36` -/
def opTick36 (p : Nat) : List Src :=
  [.label (.opTick 36 p), staTick, ldaData, ldyData, .op .staY (.num (256 * p)), ldyData,
   .op .staY (.num (256 * p)), ldyData, ldxData, nop_, staTick, .op .staY (.num (256 * p)),
   .op .staX (.num (256 * p)), .op .ldxI (.num 0), nop_, ldaData, .op .staA (.lab (.jmp 36 p) 2),
   ldaData, .op .staA (.lab (.jmp 36 p) 1), .label (.jmp 36 p), .op .jmp (.lab .opNop 0)]

/-- main.s:820-835 `op_tick_38` -/
def opTick38 (p : Nat) : List Src :=
  [.label (.opTick 38 p), staTick, ldaData, ldyData, .op .staY (.num (256 * p)), ldyData,
   .op .staY (.num (256 * p)), ldyData, .op .staY (.num (256 * p)), staZp, staTick,
   .op .jmp (.lab (.tail p 28) 0)]

/-- main.s:838-854 `op_tick_40` -/
def opTick40 (p : Nat) : List Src :=
  [.label (.opTick 40 p), staTick, ldaData, ldyData, .op .staY (.num (256 * p)), ldyData,
   .op .staY (.num (256 * p)), ldyData, .op .staY (.num (256 * p)), ldyData, staTick, staZp,
   .op .jmp (.lab (.tail p 24) 0)]

/-- main.s:856-872 `op_tick_42` -/
def opTick42 (p : Nat) : List Src :=
  [.label (.opTick 42 p), staTick, ldaData, ldyData, .op .staY (.num (256 * p)), ldyData,
   .op .staY (.num (256 * p)), ldyData, .op .staY (.num (256 * p)), ldyData, staZp, staTick,
   .op .jmp (.lab (.tail p 24) 0)]

/-- main.s:874-891 `op_tick_44` -/
def opTick44 (p : Nat) : List Src :=
  [.label (.opTick 44 p), staTick, ldaData, ldyData, .op .staY (.num (256 * p)), ldyData,
   .op .staY (.num (256 * p)), ldyData, .op .staY (.num (256 * p)), ldyData,
   .op .staY (.num (256 * p)), staTick, staZp, .op .jmp (.lab (.tail p 19) 0)]

/-- main.s:893-910 `op_tick_46` -/
def opTick46 (p : Nat) : List Src :=
  [.label (.opTick 46 p), staTick, ldaData, ldyData, .op .staY (.num (256 * p)), ldyData,
   .op .staY (.num (256 * p)), ldyData, .op .staY (.num (256 * p)), ldyData,
   .op .staY (.num (256 * p)), nop_, staTick, .op .jmp (.lab (.tail p 20) 0)]

/-- main.s:912-931 `op_tick_48` -/
def opTick48 (p : Nat) : List Src :=
  [.label (.opTick 48 p), staTick, ldaData, ldyData, .op .staY (.num (256 * p)), ldyData,
   .op .staY (.num (256 * p)), ldyData, .op .staY (.num (256 * p)), ldyData,
   .op .staY (.num (256 * p)), ldaData, staTick, staZp, .op .jmp (.lab (.tail p 15) 0)]

/-- main.s:933-952 `op_tick_50` -/
def opTick50 (p : Nat) : List Src :=
  [.label (.opTick 50 p), staTick, ldaData, ldyData, .op .staY (.num (256 * p)), ldyData,
   .op .staY (.num (256 * p)), ldyData, .op .staY (.num (256 * p)), ldyData,
   .op .staY (.num (256 * p)), ldaData, nop_, staTick, .op .jmp (.lab (.tail p 16) 0)]

/-- main.s:954-974 `op_tick_52` -/
def opTick52 (p : Nat) : List Src :=
  [.label (.opTick 52 p), staTick, ldaData, ldyData, .op .staY (.num (256 * p)), ldyData,
   .op .staY (.num (256 * p)), ldyData, .op .staY (.num (256 * p)), ldyData,
   .op .staY (.num (256 * p)), ldaData, .op .staA (.lab (.jmp 6 p) 2), staTick, nop_,
   .op .jmp (.lab (.tail p 12) 0)]

/-- main.s:976-1003 `op_tick_54` -/
def opTick54 (p : Nat) : List Src :=
  [.label (.opTick 54 p), staTick, ldaData, ldyData, .op .staY (.num (256 * p)), ldyData,
   .op .staY (.num (256 * p)), ldyData, .op .staY (.num (256 * p)), ldyData,
   .op .staY (.num (256 * p)), ldaData, staZp, staZp, staTick, .op .staA (.lab (.jmp 54 p) 2),
   ldaData, .op .staA (.lab (.jmp 54 p) 1), .label (.jmp 54 p), .op .jmp (.lab .opNop 0)]

/-- main.s:1005-1032 `op_tick_56` -/
def opTick56 (p : Nat) : List Src :=
  [.label (.opTick 56 p), staTick, ldaData, ldyData, .op .staY (.num (256 * p)), ldyData,
   .op .staY (.num (256 * p)), ldyData, .op .staY (.num (256 * p)), ldyData,
   .op .staY (.num (256 * p)), ldaData, .op .staA (.lab (.jmp 56 p) 2), staDummy, staTick, nop_,
   ldaData, .op .staA (.lab (.jmp 56 p) 1), .label (.jmp 56 p), .op .jmp (.lab .opNop 0)]

/-- main.s:1034-1060 `op_tick_58` -/
def opTick58 (p : Nat) : List Src :=
  [.label (.opTick 58 p), staTick, ldaData, ldyData, .op .staY (.num (256 * p)), ldyData,
   .op .staY (.num (256 * p)), ldyData, .op .staY (.num (256 * p)), ldyData,
   .op .staY (.num (256 * p)), ldaData, .op .staA (.lab (.jmp 58 p) 2), staZp, staZp, staTick,
   ldaData, .op .staA (.lab (.jmp 58 p) 1), .label (.jmp 58 p), .op .jmp (.lab .opNop 0)]

/-- main.s:1062-1089 `op_tick_60` -/
def opTick60 (p : Nat) : List Src :=
  [.label (.opTick 60 p), staTick, ldaData, ldyData, .op .staY (.num (256 * p)), ldyData,
   .op .staY (.num (256 * p)), ldyData, .op .staY (.num (256 * p)), ldyData,
   .op .staY (.num (256 * p)), ldaData, .op .staA (.lab (.jmp 60 p) 2), ldaData, staDummy,
   staTick, nop_, .op .staA (.lab (.jmp 60 p) 1), .label (.jmp 60 p), .op .jmp (.lab .opNop 0)]

/-- main.s:1091-1117 `op_tick_62` -/
def opTick62 (p : Nat) : List Src :=
  [.label (.opTick 62 p), staTick, ldaData, ldyData, .op .staY (.num (256 * p)), ldyData,
   .op .staY (.num (256 * p)), ldyData, .op .staY (.num (256 * p)), ldyData,
   .op .staY (.num (256 * p)), ldaData, .op .staA (.lab (.jmp 62 p) 2), ldaData, staZp, staZp,
   staTick, .op .staA (.lab (.jmp 62 p) 1), .label (.jmp 62 p), .op .jmp (.lab .opNop 0)]

/-- main.s:1119-1145 `op_tick_64` -/
def opTick64 (p : Nat) : List Src :=
  [.label (.opTick 64 p), staTick, ldaData, ldyData, .op .staY (.num (256 * p)), ldyData,
   .op .staY (.num (256 * p)), ldyData, .op .staY (.num (256 * p)), ldyData,
   .op .staY (.num (256 * p)), ldaData, .op .staA (.lab (.jmp 64 p) 2), ldaData,
   .op .staA (.lab (.jmp 64 p) 1), staDummy, staTick, nop_, .label (.jmp 64 p),
   .op .jmp (.lab .opNop 0)]

/-- main.s:1147-1173 `op_tick_66` -/
def opTick66 (p : Nat) : List Src :=
  [.label (.opTick 66 p), staTick, ldaData, ldyData, .op .staY (.num (256 * p)), ldyData,
   .op .staY (.num (256 * p)), ldyData, .op .staY (.num (256 * p)), ldyData,
   .op .staY (.num (256 * p)), ldaData, .op .staA (.lab (.jmp 66 p) 2), ldaData,
   .op .staA (.lab (.jmp 66 p) 1), staZp, staZp, staTick, .label (.jmp 66 p),
   .op .jmp (.lab .opNop 0)]

/-- The macro `op_tick_<t>`. -/
def tickMacro (t p : Nat) : List Src :=
  match t with
  | 4 => opTick4 p
  | 6 => opTick6 p
  | 8 => opTick8 p
  | 10 => opTick10 p
  | 12 => opTick12 p
  | 14 => opTick14 p
  | 16 => opTick16 p
  | 18 => opTick18 p
  | 20 => opTick20 p
  | 22 => opTick22 p
  | 24 => opTick24 p
  | 26 => opTick26 p
  | 28 => opTick28 p
  | 30 => opTick30 p
  | 32 => opTick32 p
  | 34 => opTick34 p
  | 36 => opTick36 p
  | 38 => opTick38 p
  | 40 => opTick40 p
  | 42 => opTick42 p
  | 44 => opTick44 p
  | 46 => opTick46 p
  | 48 => opTick48 p
  | 50 => opTick50 p
  | 52 => opTick52 p
  | 54 => opTick54 p
  | 56 => opTick56 p
  | 58 => opTick58 p
  | 60 => opTick60 p
  | 62 => opTick62 p
  | 64 => opTick64 p
  | 66 => opTick66 p
  | _ => []

/-- main.s:1176-1209 `op_tick`: the macros for t = 4, 6, ..., 66; here for index `i` (t = 4 + 2i)
from `i` on, `n` of them. -/
def ticksFrom (p : Nat) : Nat → Nat → List Src
  | _, 0 => []
  | i, n + 1 => tickMacro (4 + 2 * i) p ++ ticksFrom p (i + 1) n

def opTick (p : Nat) : List Src := ticksFrom p 0 32

/-! ### Startup code -/

/-- main.s:121-122 segment LOWCODE -/
def entry : List Src := [.op .jmp (.lab .bootstrap 0)]

/-- main.s:36-39 segment HGR -/
def hgrData : List Src :=
  [.label .srcaddr, .bytes [10, 0, 65, 2], .label .faddr, .bytes [10, 0, 0, 1],
   .label .fport, .bytes [0x07, 0xb9], .label .mac, .bytes [0x00, 0x08, 0xdc, 0x01, 0x02, 0x03]]

/-- main.s:129-236 -/
def bootCode : List Src :=
  [.label .bootstrap, .op .ldaI (.lo .exit), sta 0x3f2, .op .ldaI (.hi .exit), sta 0x3f3,
   .op .eorI (.num 0xa5), sta 0x3f4, lda 6, .op .staZ (.num 6),
   .label .resetW5100, lda 0x80, sta WMODE, lda 3, sta WMODE,
   lda 0x00, sta WADRH, lda 0x09, sta WADRL, .op .ldxI (.num 0),
   .label .bootL1, .op .ldaX (.lab .mac 0), sta WDATA, .imp .inx, .op .cpxI (.num 6), .rel .bne .bootL1,
   lda 0x0f, sta WADRL, .op .ldxI (.num 0),
   .label .bootL2, .op .ldaX (.lab .srcaddr 0), sta WDATA, .imp .inx, .op .cpxI (.num 4), .rel .bne .bootL2,
   lda 0x1a, sta WADRL, lda 3, sta WDATA, sta WDATA,
   lda 0x04, sta WADRH, lda 0x00, sta WADRL, lda 0x21, sta WDATA,
   lda 0x04, sta WADRL, lda 0xc0, sta WDATA, lda 0, sta WDATA,
   lda 0x0c, sta WADRL, .op .ldxI (.num 0),
   .label .bootL3, .op .ldaX (.lab .faddr 0), sta WDATA, .imp .inx, .op .cpxI (.num 4), .rel .bne .bootL3,
   .op .ldaA (.lab .fport 0), sta WDATA, .op .ldaA (.lab .fport 1), sta WDATA,
   lda 0x01, sta WADRL, lda 0x01, sta WDATA,
   lda 0x03, sta WADRL, ldaData, .op .cmpI (.num 0x13), .rel .beq .opened, .op .ldyI (.num 0),
   .label .bootL4, .op .ldaY (.lab .sockerr 0), .rel .beq .bootDone, .op .jsr (.num 0xfded), .imp .iny,
   .rel .bne .bootL4,
   .label .bootDone, .imp .brk,
   .label .sockerr, .bytes [0xd5, 0xd4, 0xc8, 0xc5, 0xd2, 0xce, 0xc5, 0xd4, 0xa0, 0xc9, 0xc9, 0xba, 0xa0,
     0xc3, 0xcf, 0xd5, 0xcc, 0xc4, 0xa0, 0xce, 0xcf, 0xd4, 0xa0, 0xcf, 0xd0, 0xc5, 0xce, 0xa0, 0xd3, 0xcf,
     0xc3, 0xcb, 0xc5, 0xd4, 0xa1], .bytes [0x8d, 0x00]]

/-- main.s:239-275 -/
def connectCode : List Src :=
  [.label .opened, lda 0x01, sta WADRL, lda 0x04, sta WDATA,
   .label .checktest, lda 0x03, sta WADRL, ldaData, .rel .beq .failed, .op .cmpI (.num 0x17),
   .rel .beq .waitReadHeader, .rel .bne .checktest,
   .label .failed, .op .decZ (.num 6), .rel .beq .errdone, lda 0xae, .op .jsr (.num 0xfded),
   .op .jmp (.lab .resetW5100 0),
   .label .errdone, .op .ldyI (.num 0),
   .label .errL, .op .ldaY (.lab .errmsg 0), .rel .beq .errDone, .op .jsr (.num 0xfded), .imp .iny,
   .rel .bne .errL,
   .label .errDone, .imp .brk,
   .label .errmsg, .bytes [0xd3, 0xcf, 0xc3, 0xcb, 0xc5, 0xd4, 0xa0, 0xc3, 0xcf, 0xd5, 0xcc, 0xc4, 0xa0,
     0xce, 0xcf, 0xd4, 0xa0, 0xc3, 0xcf, 0xce, 0xce, 0xc5, 0xc3, 0xd4, 0xa0, 0xad, 0xa0, 0xc3, 0xc8, 0xc5,
     0xc3, 0xcb, 0xa0, 0xd2, 0xc5, 0xcd, 0xcf, 0xd4, 0xc5, 0xa0, 0xc8, 0xcf, 0xd3, 0xd4], .bytes [0x8d, 0x00]]

/-- main.s:277-308 -/
def headerCode : List Src :=
  [.label .waitReadHeader, lda 0x26, sta WADRL, ldaData, .op .cmpI (.num 1), .rel .bcs .opHeader,
   nop_, nop_, .op .jmp (.lab .waitReadHeader 0),
   .label .opHeader, lda 0x60, sta WADRH, lda 0x00, sta WADRL,
   ldaData, ldaData, ldaData, ldaData, ldaData, ldaData, .op .jmp (.lab .opHeaderHgr 0)]

/-! ### Main loop -/

/-- main.s:310-355 segment CODE -/
def headerHgr : List Src :=
  [.label .opHeaderHgr, sta HIRESON, sta FULLSCR, lda 0x20, .op .staZ (.num 0xe6), .op .jsr (.num 0xf3f2),
   ldaData, .rel .beq .hgr1, sta STORE80ON, sta PAGE2ON, lda 0x20, .op .staZ (.num 0xe6),
   .op .jsr (.num 0xf3f2), sta PAGE2OFF, sta TEXTOFF, sta COL80ON, sta DHIRESON,
   .label .hgr1, sta TEXTOFF, .op .ldyI (.num 0x60), .op .ldxI (.num 7), lda 0x04, sta WADRH]

/-- main.s:399-456 -/
def mainLoop : List Src :=
  [.label .checkrecv, staTick, lda 0x26, sta WADRL, ldaData, .op .cmpI (.num 8), .rel .bcs .recv,
   nop_, nop_, .op .jmp (.lab .checkrecv 0),
   .label .recv, .op .styA (.num WADRH), .op .stxA (.num WADRL),
   .label .recv0, .op .bitA (.num KBD), .rel .bpl .recv2, .op .bitA (.num KBDSTRB),
   .label .recv1, .op .bitA (.num KBD), .rel .bpl .recv1, .op .bitA (.num KBDSTRB),
   .label .recv2, staTick, .op .ldxI (.num 0), nop_, staDummy, staDummy, staDummy,
   .label .opNop, ldyData, .op .styA (.lab .nopD 2), ldyData, .op .styA (.lab .nopD 1),
   .label .nopD, .op .jmp (.lab .opNop 0)]

/-- main.s:1281-1288 -/
def terminateCode : List Src :=
  [.label .opTerminate, .op .ldaA (.num KBDSTRB), .label .term0, .op .ldaA (.num KBD), .rel .bpl .term0,
   .label .term1, .op .ldaA (.num KBDSTRB), .op .jmp (.lab .exit 0)]

/-- main.s:1295-1344 -/
def ackCode : List Src :=
  [.label .opAck, staTick, ldaData, .op .staA (.lab .ackD 1), .label .ackD, sta 0xc0ff, ldaData,
   .op .ldyA (.num WADRH), lda 0x04, sta WADRH, .op .ldxI (.num 0x28), .imp .clc, staTick,
   .op .stxA (.num WADRL), ldaData, .op .adcI (.num 8), .op .stxA (.num WADRL), sta WDATA,
   lda 0x01, sta WADRL, lda 0x40, sta WDATA, .op .ldxI (.num 0), .op .jmp (.lab .checkrecv 0)]

/-- main.s:1347-1368 -/
def exitCode : List Src :=
  [.label .exit, .op .incA (.num 0x3f4), .op .jsr (.num 0xbf00), .bytes [0x65], .word .exitParmtable,
   .label .exitParmtable, .bytes [4, 0, 0, 0, 0, 0, 0],
   .label .closeconn, lda 0x04, sta WADRH, lda 0x01, sta WADRL, lda 0x08, sta WDATA]

/-! ### Layout -/

/-- Offset of the macro for t = 4 + 2i within the code of a page. -/
def tickOffset (i : Nat) : Nat :=
  [0, 52, 103, 117, 130, 147, 163, 186, 238, 258, 281, 304, 330, 355, 384, 412, 450, 502, 534, 569,
   604, 642, 679, 720, 760, 803, 855, 907, 959, 1011, 1063, 1115, 1167].getD i 0

/-- Address of the code of a page for the macros with index `i`; page 63 is split after index 10
(main.s:1213-1279). -/
def pageBase (p i : Nat) : Nat :=
  bif Nat.blt p 37 then 0x803 + 1167 * (p - 32)
  else bif Nat.blt p 63 then 0x407f + 1167 * (p - 37)
  else bif Nat.blt i 11 then 0x1ece else 0x1ece + 38663

/-- Offset of the label `_op_tick_page_p_tail_n` within the code of a page. -/
def tailOffset (n : Nat) : Nat :=
  match n with
  | 59 => 10 | 55 => 13 | 51 => 16 | 46 => 19 | 42 => 22 | 37 => 25 | 33 => 28 | 28 => 31 | 24 => 34
  | 19 => 37 | 15 => 40 | 11 => 43 | 7 => 46
  | 60 => 61 | 56 => 64 | 52 => 67 | 47 => 70 | 43 => 73 | 38 => 76 | 34 => 79 | 29 => 82 | 25 => 85
  | 20 => 88 | 16 => 91 | 12 => 94 | 8 => 97
  | _ => 0

/-- Values of the labels. -/
def sym : Label → Nat
  | .opTick t p => pageBase p ((t - 4) / 2) + tickOffset ((t - 4) / 2)
  | .tail p n => pageBase p 0 + tailOffset n
  | .jmp t p => pageBase p ((t - 4) / 2) + tickOffset ((t - 4) / 2 + 1) - 3
  | .srcaddr => 0x2000 | .faddr => 0x2004 | .fport => 0x2008 | .mac => 0x200a
  | .bootstrap => 0x2010 | .resetW5100 => 0x2023 | .bootL1 => 0x2039 | .bootL2 => 0x204b
  | .bootL3 => 0x2088 | .bootL4 => 0x20b7 | .bootDone => 0x20c2 | .sockerr => 0x20c3
  | .opened => 0x20e8 | .checktest => 0x20f2 | .failed => 0x2102 | .errdone => 0x210e
  | .errL => 0x2110 | .errDone => 0x211b | .errmsg => 0x211c | .waitReadHeader => 0x214a
  | .opHeader => 0x215b | .opHeaderHgr => 0x4000 | .hgr1 => 0x402b | .checkrecv => 0x4037
  | .recv => 0x404b | .recv0 => 0x4051 | .recv1 => 0x4059 | .recv2 => 0x4061 | .opNop => 0x4070
  | .nopD => 0x407c | .opTerminate => 0xba64 | .term0 => 0xba67 | .term1 => 0xba6c | .opAck => 0xba72
  | .ackD => 0xba7b | .exit => 0xbaac | .exitParmtable => 0xbab5 | .closeconn => 0xbabc

/-- main.s:121-122, 1213-1229: the code of segment LOWCODE, loaded at $800. -/
def lowcode : List (List Src) :=
  [entry, opTick 32, opTick 33, opTick 34, opTick 35, opTick 36, ticksFrom 63 0 11]

/-- Segment HGR, loaded at $2000. -/
def hgrcode : List (List Src) := [hgrData, bootCode, connectCode, headerCode]

/-- Segment CODE, loaded at $4000 (main.s:310-456, 1231-1368). -/
def code : List (List Src) :=
  [headerHgr, mainLoop,
   opTick 37, opTick 38, opTick 39, opTick 40, opTick 41, opTick 42, opTick 43, opTick 44, opTick 45,
   opTick 46, opTick 47, opTick 48, opTick 49, opTick 50, opTick 51, opTick 52, opTick 53, opTick 54,
   opTick 55, opTick 56, opTick 57, opTick 58, opTick 59, opTick 60, opTick 61, opTick 62,
   ticksFrom 63 11 21, terminateCode, ackCode, exitCode]

/-! ### The assembler -/

/-- Operand of an instruction. -/
def Instr.operand : Instr → Nat
  | .ldaI v | .ldxI v | .ldyI v | .ldaA v | .ldxA v | .ldyA v | .ldaX v | .ldaY v | .staZ v | .staA v
  | .staX v | .staY v | .stxA v | .styA v | .adcI v | .cmpI v | .cpxI v | .eorI v | .bitA v | .incA v
  | .decZ v | .jmp v | .jsr v | .beq v | .bne v | .bcs v | .bpl v => v
  | _ => 0

/-- Bytes of an instruction. -/
def Instr.bytes (i : Instr) : List Nat :=
  match i.len with
  | 1 => [i.opcode]
  | 2 => [i.opcode, i.operand % 256]
  | _ => [i.opcode, i.operand % 256, i.operand / 256]

/-- Value of an operand. -/
def Opd.val : Opd → Nat
  | .num n => n
  | .lab l d => sym l + d
  | .lo l => sym l % 256
  | .hi l => sym l / 256

/-- Bytes of a line at address `pc`. -/
def Src.emit (pc : Nat) : Src → List Nat
  | .label _ => []
  | .bytes bs => bs
  | .word l => [sym l % 256, sym l / 256]
  | .imp i => i.bytes
  | .op mk o => (mk o.val).bytes
  | .rel mk l => (mk ((sym l + 256 - (pc + 2) % 256) % 256)).bytes

/-- Bytes of source lines from address `pc` on. -/
def assemble (pc : Nat) : List Src → List Nat
  | [] => []
  | l :: ls => l.emit pc ++ assemble (pc + l.size) ls

/-- Whether the labels have the addresses at which they stand, and branches reach theirs. -/
def layoutOk (pc : Nat) : List Src → Bool
  | [] => true
  | .label l :: ls => Nat.beq (sym l) pc && layoutOk pc ls
  | .rel mk l :: ls =>
    Nat.beq (branchTarget (pc + 2) ((sym l + 256 - (pc + 2) % 256) % 256)) (sym l) &&
      layoutOk (pc + (Src.rel mk l).size) ls
  | l :: ls => layoutOk (pc + l.size) ls

/-- The program: start and contents of its three segments. -/
def program : List (Nat × List Nat) :=
  [(0x800, assemble 0x800 lowcode.flatten), (0x2000, assemble 0x2000 hgrcode.flatten),
   (0x4000, assemble 0x4000 code.flatten)]

end IIVision.Player
