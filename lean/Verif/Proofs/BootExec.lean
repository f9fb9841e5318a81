import Verif.Proofs.Boot

/-! A partial executor for the start-up code: everything it computes with is known, except what
was there before the player started. -/

namespace IIVision.Player

/-- The chip between a reset and a CONNECT command: mode, pointer, status, registers written. -/
structure BCard where
  mode : Nat
  ptr : Nat
  sr : Nat
  regs : List (Nat × Nat)
  works : Bool
  deriving DecidableEq

/-- The known part of a state during start-up. -/
structure BSt where
  pc : Nat
  a : Option Nat
  x : Option Nat
  y : Option Nat
  z : Option Bool
  card : Option BCard
  /-- location $06 -/
  cnt : Option Nat
  /-- locations $3F2-$3F4 -/
  v2 : Option Nat
  v3 : Option Nat
  v4 : Option Nat
  /-- printed so far -/
  out : List Nat
  deriving DecidableEq

/-- The last value written to a register, 0 if none. -/
def regVal : List (Nat × Nat) → Nat → Nat
  | [], _ => 0
  | (p, v) :: l, q => if q = p then v else regVal l q

def bCard (c : BCard) (addr a : Nat) : Option BCard :=
  if addr = 0xc094 then
    (if a = 0x80 then some { c with mode := 0, ptr := 0, sr := 0, regs := [] }
     else if a = 3 then some { c with mode := 3 } else none)
  else if addr = 0xc095 then some { c with ptr := 256 * a + c.ptr % 256 }
  else if addr = 0xc096 then some { c with ptr := 256 * (c.ptr / 256) + a }
  else if addr = 0xc097 then
    (if c.mode = 3 ∧ c.ptr < 0x500 then
      (if c.ptr = 0x401 then
        (if a = 1 ∧ c.sr = 0 ∧ regVal c.regs 0x400 = 0x21 then
          some { c with ptr := c.ptr + 1, sr := if c.works then 0x13 else 0 } else none)
       else if c.ptr = 0x403 ∨ c.ptr = 0x428 ∨ c.ptr = 0x429 then none
       else some { c with ptr := c.ptr + 1, regs := (c.ptr, a) :: c.regs })
     else none)
  else none

/-- The effect of an instruction; `none` if something about it is not known. -/
def bExec (works : Bool) (b : BSt) : Instr → Option BSt
  | .ldaI v => if v < 256 then some { b with a := some v, z := some (v == 0) } else none
  | .ldxI v => if v < 256 then some { b with x := some v, z := some (v == 0) } else none
  | .ldyI v => if v < 256 then some { b with y := some v, z := some (v == 0) } else none
  | .ldaX q => b.x.bind fun x => if q + x < 0xc000 then
      (codeByte true (q + x)).map fun v => { b with a := some (v % 256), z := some (v % 256 == 0) } else none
  | .ldaY q => b.y.bind fun y => if q + y < 0xc000 then
      (codeByte true (q + y)).map fun v => { b with a := some (v % 256), z := some (v % 256 == 0) } else none
  | .ldaA q =>
    if q < 0xc000 then (codeByte true q).map fun v => { b with a := some (v % 256), z := some (v % 256 == 0) }
    else if q = 0xc097 then
      b.card.bind fun c => if c.mode = 3 ∧ c.ptr = 0x403 then
        some { b with a := some c.sr, z := some (c.sr == 0), card := some { c with ptr := 0x404 } } else none
    else none
  | .staZ q => b.a.bind fun a => if q = 6 then some { b with cnt := some a } else none
  | .staA q => b.a.bind fun a =>
    if q = 0x3f2 then some { b with v2 := some a }
    else if q = 0x3f3 then some { b with v3 := some a }
    else if q = 0x3f4 then some { b with v4 := some a }
    else if q = 0xc094 ∧ a = 0x80 then some { b with card := some ⟨0, 0, 0, [], works⟩ }
    else b.card.bind fun c => (bCard c q a).map fun c => { b with card := some c }
  | .inx => b.x.bind fun x => some { b with x := some ((x + 1) % 256), z := some ((x + 1) % 256 == 0) }
  | .iny => b.y.bind fun x => some { b with y := some ((x + 1) % 256), z := some ((x + 1) % 256 == 0) }
  | .cpxI v => b.x.bind fun x => if v < 256 then some { b with z := some (x == v) } else none
  | .cmpI v => b.a.bind fun x => if v < 256 then some { b with z := some (x == v) } else none
  | .eorI v => b.a.bind fun x => if v < 256 then some { b with a := some (x ^^^ v), z := none } else none
  | .decZ q => b.cnt.bind fun n =>
    if q = 6 then some { b with cnt := some ((n + 255) % 256), z := some ((n + 255) % 256 == 0) } else none
  | .jmp q => some { b with pc := q }
  | .jsr q => b.a.bind fun a => if q = 0xfded then some { b with x := none, z := none, out := b.out ++ [a] } else none
  | .beq d => b.z.bind fun z => some (if z then { b with pc := branchTarget b.pc d } else b)
  | .bne d => b.z.bind fun z => some (if z then b else { b with pc := branchTarget b.pc d })
  | _ => none

/-- One instruction. -/
def bStep (works : Bool) (b : BSt) : Option BSt :=
  match symFetch true b.pc with
  | none => none
  | some i => bExec works { b with pc := b.pc + i.len } i

def bRun (works : Bool) : Nat → BSt → Option BSt
  | 0, b => some b
  | n + 1, b => (bStep works b).bind (bRun works n)

/-! ### Meaning -/

def Known (u : U8) (o : Option Nat) : Prop := ∀ v, o = some v → u.toNat = v

structure CardIs (c : BCard) (w : W5100) : Prop where
  mode : w.mode.toNat = c.mode
  ptr : w.ptr = c.ptr
  rd : w.rd = 0
  arrived : w.arrived = 0
  freed : w.freed = 0
  sr : w.sr.toNat = c.sr
  idle : c.sr = 0 ∨ c.sr = 0x13
  regs : ∀ q, (w.regs.at_ q).toNat = regVal c.regs q
  works : w.works = c.works

/-- Memory the start-up code (and COUT) may change. -/
def Scratch (q : Nat) : Prop :=
  q = 6 ∨ (0x3f2 ≤ q ∧ q ≤ 0x3f4) ∨ (0x20 ≤ q ∧ q < 0x50) ∨ (0x400 ≤ q ∧ q < 0x800)

/-- Relative to `s0`, `s` is described by `b`. -/
structure BRel (s0 : Mach) (b : BSt) (s : Mach) : Prop where
  pc : s.pc = b.pc
  a : Known s.a b.a
  x : Known s.x b.x
  y : Known s.y b.y
  z : ∀ v, b.z = some v → s.z = v
  card : ∀ c, b.card = some c → CardIs c s.w
  cnt : Known (s.main 6) b.cnt
  v2 : Known (s.main 0x3f2) b.v2 ∧ (b.v2 = none → s.main 0x3f2 = s0.main 0x3f2)
  v3 : Known (s.main 0x3f3) b.v3 ∧ (b.v3 = none → s.main 0x3f3 = s0.main 0x3f3)
  v4 : Known (s.main 0x3f4) b.v4 ∧ (b.v4 = none → s.main 0x3f4 = s0.main 0x3f4)
  out : s.out = s0.out ++ b.out.map (BitVec.ofNat 8)
  main : ∀ q, ¬ Scratch q → s.main q = s0.main q
  aux : ∀ q, ¬ (0x400 ≤ q ∧ q < 0x800) → s.aux q = s0.aux q
  sw : s.sw = s0.sw
  clicks : s.clicks = s0.clicks
  log : s.w.log = s0.w.log
  works : s.w.works = s0.w.works
  code : CodeOk true s.main
  page2 : s.sw.page2 = false

theorem traffic_works (f : List U8) (v : Option U8) (n : Nat) (w : W5100) : (w.traffic f v n).works = w.works := by
  have hl : (w.link f v).works = w.works := by
    unfold W5100.link; repeat' split
    all_goals rfl
  have hd : ∀ n (w : W5100), (w.deliver f n).works = w.works := by
    intro n
    induction n with
    | zero => intro w; rfl
    | succ n ih =>
      intro w
      unfold W5100.deliver
      split
      · rw [ih]; rfl
      · rfl
  unfold W5100.traffic
  dsimp only
  split
  · rw [hd, hl]
  · exact hl

theorem traffic_idle (f : List U8) (v : Option U8) (n : Nat) {w : W5100} (h1 : w.sr ≠ stSynSent) (h2 : w.sr ≠ stEstablished) :
    w.traffic f v n = w := by
  have hl : w.link f v = w := by
    unfold W5100.link
    split
    · rfl
    · rw [if_neg (fun h => h1 h.1), if_neg (fun h => h2 h.1)]
  unfold W5100.traffic
  rw [hl]
  dsimp only
  rw [if_neg h2]

theorem cardIs_traffic {c : BCard} {w : W5100} (h : CardIs c w) (f : List U8) (v : Option U8) (n : Nat) : w.traffic f v n = w := by
  have h1 := h.sr
  have := h.idle
  apply traffic_idle
  · intro h; rw [h] at h1; have e : stSynSent.toNat = 0x15 := rfl; omega
  · intro h; rw [h] at h1; have e : stEstablished.toNat = 0x17 := rfl; omega

theorem brel_env {s0 : Mach} {b : BSt} {s : Mach} (e : Env) (h : BRel s0 b s) : BRel s0 b (s.env e) := by
  have w := traffic_same e.file (e.link s.time) (e.deliver s.time) s.w
  refine ⟨h.pc, h.a, h.x, h.y, h.z, ?_, h.cnt, h.v2, h.v3, h.v4, h.out, h.main, h.aux, h.sw, h.clicks, w.log.trans h.log,
    (traffic_works ..).trans h.works, h.code, h.page2⟩
  intro c hc
  have := h.card c hc
  show CardIs c (W5100.traffic _ _ _ _)
  rw [cardIs_traffic this]
  exact this

theorem brel_next {s0 : Mach} {b : BSt} {s : Mach} (h : BRel s0 b s) (p c : Nat) :
    BRel s0 { b with pc := p } { s with pc := p, cycles := c } :=
  ⟨rfl, h.a, h.x, h.y, h.z, h.card, h.cnt, h.v2, h.v3, h.v4, h.out, h.main, h.aux, h.sw, h.clicks, h.log, h.works, h.code, h.page2⟩

theorem known_some {u : U8} {v : Nat} (h : u.toNat = v) : Known u (some v) := fun w hw => by cases hw; exact h

theorem known_lit {v : Nat} (h : v < 256) : Known (BitVec.ofNat 8 v) (some v) :=
  known_some (by rw [BitVec.toNat_ofNat]; exact Nat.mod_eq_of_lt h)

theorem zero_beq (u : U8) : (u == 0#8) = (u.toNat == 0) := by
  rw [Bool.eq_iff_iff, beq_iff_eq, beq_iff_eq]
  constructor
  · rintro rfl; rfl
  · intro h; exact BitVec.eq_of_toNat_eq h

theorem z_known {u : U8} {v : Nat} (h : u.toNat = v) : ∀ w, some (v == 0) = some w → (u == 0#8) = w := by
  intro w hw; cases hw; rw [zero_beq, h]

theorem z_sub {u : U8} {v w : Nat} (h : u.toNat = v) (hw : w < 256) :
    ∀ r, some (v == w) = some r → (u - BitVec.ofNat 8 w == 0#8) = r := by
  intro r hr; cases hr
  rw [Bool.eq_iff_iff, beq_iff_eq, beq_iff_eq]
  constructor
  · intro h'
    have := congrArg BitVec.toNat h'
    rw [BitVec.toNat_sub, BitVec.toNat_ofNat, Nat.mod_eq_of_lt hw] at this
    have := u.isLt
    simp at *
    omega
  · intro h'
    have : u = BitVec.ofNat 8 w := BitVec.eq_of_toNat_eq (by rw [BitVec.toNat_ofNat, Nat.mod_eq_of_lt hw, h, h'])
    rw [this, BitVec.sub_self]

/-- Loading a value into A. -/
theorem brel_setA {s0 : Mach} {b : BSt} {s : Mach} (h : BRel s0 b s) {u : U8} {v : Nat} (hv : u.toNat = v) :
    BRel s0 { b with a := some v, z := some (v == 0) } { s.setNZ u with a := u } :=
  ⟨h.pc, known_some hv, h.x, h.y, z_known hv, h.card, h.cnt, h.v2, h.v3, h.v4, h.out, h.main, h.aux, h.sw, h.clicks, h.log,
   h.works, h.code, h.page2⟩

theorem brel_setX {s0 : Mach} {b : BSt} {s : Mach} (h : BRel s0 b s) {u : U8} {v : Nat} (hv : u.toNat = v) :
    BRel s0 { b with x := some v, z := some (v == 0) } { s.setNZ u with x := u } :=
  ⟨h.pc, h.a, known_some hv, h.y, z_known hv, h.card, h.cnt, h.v2, h.v3, h.v4, h.out, h.main, h.aux, h.sw, h.clicks, h.log,
   h.works, h.code, h.page2⟩

theorem brel_setY {s0 : Mach} {b : BSt} {s : Mach} (h : BRel s0 b s) {u : U8} {v : Nat} (hv : u.toNat = v) :
    BRel s0 { b with y := some v, z := some (v == 0) } { s.setNZ u with y := u } :=
  ⟨h.pc, h.a, h.x, known_some hv, z_known hv, h.card, h.cnt, h.v2, h.v3, h.v4, h.out, h.main, h.aux, h.sw, h.clicks, h.log,
   h.works, h.code, h.page2⟩

theorem brel_flags {s0 : Mach} {b : BSt} {s : Mach} (h : BRel s0 b s) {n z c : Bool} {zo : Option Bool} (hz : ∀ v, zo = some v → z = v) :
    BRel s0 { b with z := zo } { s with n := n, z := z, c := c } :=
  ⟨h.pc, h.a, h.x, h.y, hz, h.card, h.cnt, h.v2, h.v3, h.v4, h.out, h.main, h.aux, h.sw, h.clicks, h.log,
   h.works, h.code, h.page2⟩

theorem brel_cycles {s0 : Mach} {b : BSt} {s : Mach} (h : BRel s0 b s) (c : Nat) : BRel s0 b { s with cycles := c } :=
  ⟨h.pc, h.a, h.x, h.y, h.z, h.card, h.cnt, h.v2, h.v3, h.v4, h.out, h.main, h.aux, h.sw, h.clicks, h.log,
   h.works, h.code, h.page2⟩

theorem brel_card {s0 : Mach} {b : BSt} {s : Mach} (h : BRel s0 b s) {w : W5100} {c : BCard} (hc : CardIs c w)
    (hl : w.log = s.w.log) (hw : w.works = s.w.works) : BRel s0 { b with card := some c } { s with w := w } :=
  ⟨h.pc, h.a, h.x, h.y, h.z, fun c' hc' => by cases hc'; exact hc, h.cnt, h.v2, h.v3, h.v4, h.out, h.main, h.aux, h.sw, h.clicks,
   hl.trans h.log, hw.trans h.works, h.code, h.page2⟩

theorem brel_read {s0 : Mach} {b : BSt} {s : Mach} (h : BRel s0 b s) {q v : Nat} (hq : q < 0xc000) (hc : codeByte true q = some v) :
    s.read q = some (BitVec.ofNat 8 v, s) := by
  unfold Mach.read
  rw [if_pos hq]
  unfold Mach.ram
  rw [not_steered h.page2, if_neg (by decide), h.code q v hc]

theorem code_not_scratch {q v : Nat} (hc : codeByte true q = some v) : 0x800 ≤ q := by
  rcases codeByte_cases hc with h | h | h <;> omega

theorem brel_store {s0 : Mach} {b : BSt} {s : Mach} (h : BRel s0 b s) (q : Nat) (u : U8) :
    s.store q u = { s with main := fun p => if p = q then u else s.main p } := by
  unfold Mach.store
  rw [not_steered h.page2, if_neg (by decide)]

theorem store_code {m : Nat → U8} (h : CodeOk true m) {q : Nat} (hq : q < 0x800) (u : U8) :
    CodeOk true (fun p => if p = q then u else m p) := by
  intro p v hp
  have := code_not_scratch hp
  show (if p = q then u else m p) = _
  rw [if_neg (by omega)]
  exact h p v hp

theorem bit_value (v : U8) (h : v.toNat = 3) : v.getLsbD 7 = false ∧ v = 3#8 := by
  have : v = 3#8 := BitVec.eq_of_toNat_eq h
  rw [this]; decide

theorem cardIs_write {c c' : BCard} {w : W5100} {addr a : Nat} {u : U8} {s : Mach} (h : CardIs c w) (hw : s.w = w) (hu : u.toNat = a)
    (hc : bCard c addr a = some c') : ∃ w', s.write addr u = some { s with w := w' } ∧ CardIs c' w' ∧ w'.log = w.log ∧ w'.works = w.works := by
  subst hw
  unfold bCard at hc
  split at hc
  · rename_i ha; subst ha
    have hwr : s.write 0xc094 u = some { s with w := s.w.setMode u } := rfl
    refine ⟨_, hwr, ?_⟩
    split at hc
    · rename_i h80
      cases hc
      have : u = 0x80#8 := BitVec.eq_of_toNat_eq (hu.trans h80)
      subst this
      exact ⟨⟨rfl, rfl, rfl, rfl, rfl, rfl, .inl rfl, fun _ => rfl, h.works⟩, rfl, rfl⟩
    · split at hc
      · rename_i h3
        cases hc
        have : u = 3#8 := BitVec.eq_of_toNat_eq (hu.trans h3)
        subst this
        exact ⟨⟨rfl, h.ptr, h.rd, h.arrived, h.freed, h.sr, h.idle, h.regs, h.works⟩, rfl, rfl⟩
      · cases hc
  split at hc
  · rename_i ha; subst ha
    cases hc
    refine ⟨_, rfl, ⟨h.mode, ?_, h.rd, h.arrived, h.freed, h.sr, h.idle, h.regs, h.works⟩, rfl, rfl⟩
    show 256 * u.toNat + s.w.ptr % 256 = _
    rw [hu, h.ptr]
  split at hc
  · rename_i ha; subst ha
    cases hc
    refine ⟨_, rfl, ⟨h.mode, ?_, h.rd, h.arrived, h.freed, h.sr, h.idle, h.regs, h.works⟩, rfl, rfl⟩
    show 256 * (s.w.ptr / 256) + u.toNat = _
    rw [hu, h.ptr]
  split at hc
  · rename_i ha; subst ha
    have hwr : s.write 0xc097 u = some { s with w := s.w.writeData u } := rfl
    refine ⟨_, hwr, ?_⟩
    split at hc
    · rename_i hm
      have hmode : s.w.mode.getLsbD 1 = true := by
        have : s.w.mode = 3#8 := BitVec.eq_of_toNat_eq (h.mode.trans hm.1)
        rw [this]; decide
      have hp := h.ptr
      have adv : ∀ w' : W5100, w'.mode = s.w.mode → w'.ptr = s.w.ptr → w'.advance = { w' with ptr := c.ptr + 1 } := by
        intro w' h1 h2
        rw [advance_eq (by rw [h1]; exact hmode), h2, hp]
        unfold W5100.inc
        rw [if_neg (by omega), if_neg (by omega), Nat.mod_eq_of_lt (by omega)]
      split at hc
      · rename_i h401
        split at hc
        · rename_i hopen
          cases hc
          have hu1 : u = 1#8 := BitVec.eq_of_toNat_eq (hu.trans hopen.1)
          have hwd : s.w.writeData u = { s.w with sr := if s.w.sr = stClosed ∧ (s.w.regs.at_ 0x400 &&& 0x0f#8) = 1#8 ∧
              s.w.works = true then stInit else s.w.sr }.advance := by
            unfold W5100.writeData
            dsimp only
            rw [if_neg (show ¬ s.w.ptr = 0x428 by omega), if_neg (show ¬ s.w.ptr = 0x429 by omega),
              if_neg (show ¬ (s.w.ptr = 0x401 ∧ u = 0x40#8) by rw [hu1]; exact fun h => absurd h.2 (by decide)),
              if_pos (show s.w.ptr = 0x401 ∧ u = 0x01#8 from ⟨hp.trans h401, hu1⟩)]
          rw [hwd.trans (adv _ rfl rfl)]
          have hsr : s.w.sr = stClosed := BitVec.eq_of_toNat_eq (h.sr.trans hopen.2.1)
          have hmr : s.w.regs.at_ 0x400 = 0x21#8 := BitVec.eq_of_toNat_eq ((h.regs 0x400).trans hopen.2.2)
          refine ⟨⟨h.mode, rfl, h.rd, h.arrived, h.freed, ?_, ?_, h.regs, h.works⟩, rfl, rfl⟩
          · show BitVec.toNat (if _ then _ else _) = _
            rw [hsr, hmr, h.works]
            cases c.works <;> rfl
          · show (if c.works = true then 0x13 else 0) = 0 ∨ _
            cases c.works
            · exact .inl rfl
            · exact .inr rfl
        · cases hc
      · rename_i h401
        split at hc
        · cases hc
        · rename_i h4
          cases hc
          have hwd : s.w.writeData u = { s.w with regs := { s.w.regs with at_ := fun q => if q = s.w.ptr then u else s.w.regs.at_ q } }.advance := by
            unfold W5100.writeData
            dsimp only
            rw [if_neg (show ¬ s.w.ptr = 0x428 by omega), if_neg (show ¬ s.w.ptr = 0x429 by omega),
              if_neg (show ¬ (s.w.ptr = 0x401 ∧ u = 0x40#8) by omega), if_neg (show ¬ (s.w.ptr = 0x401 ∧ u = 0x01#8) by omega),
              if_neg (show ¬ (s.w.ptr = 0x401 ∧ u = 0x04#8) by omega), if_neg (show ¬ (s.w.ptr = 0x401 ∨ s.w.ptr = 0x403) by omega)]
          rw [hwd.trans (adv _ rfl rfl)]
          refine ⟨⟨h.mode, rfl, h.rd, h.arrived, h.freed, h.sr, h.idle, ?_, h.works⟩, rfl, rfl⟩
          intro q
          show BitVec.toNat (if q = s.w.ptr then u else s.w.regs.at_ q) = if q = c.ptr then a else regVal c.regs q
          rw [hp]
          split
          · exact hu
          · exact h.regs q
    · cases hc
  · cases hc

theorem bexec_ok {s0 : Mach} {b b' : BSt} {s : Mach} (e : Env) (h : BRel s0 b s) {i : Instr}
    (hb : bExec s0.w.works b i = some b') : ∃ s', s.exec e i = some s' ∧ BRel s0 b' s' := by
  cases i with
  | ldaI v =>
    simp only [bExec] at hb
    split at hb
    · rename_i hv
      cases hb
      exact ⟨_, rfl, brel_setA h (by rw [BitVec.toNat_ofNat]; exact Nat.mod_eq_of_lt hv)⟩
    · cases hb
  | ldxI v =>
    simp only [bExec] at hb
    split at hb
    · rename_i hv
      cases hb
      exact ⟨_, rfl, brel_setX h (by rw [BitVec.toNat_ofNat]; exact Nat.mod_eq_of_lt hv)⟩
    · cases hb
  | ldyI v =>
    simp only [bExec] at hb
    split at hb
    · rename_i hv
      cases hb
      exact ⟨_, rfl, brel_setY h (by rw [BitVec.toNat_ofNat]; exact Nat.mod_eq_of_lt hv)⟩
    · cases hb
  | ldaX q =>
    simp only [bExec] at hb
    obtain ⟨x, hx, hb2⟩ := Option.bind_eq_some_iff.mp hb
    clear hb; have hb := hb2; clear hb2
    split at hb
    · rename_i hq
      obtain ⟨v, hv, hb2⟩ := Option.map_eq_some_iff.mp hb
      clear hb; have hb := hb2; clear hb2
      have hxx := h.x x hx
      cases hb
      refine ⟨_, ?_, brel_cycles (brel_setA h (u := BitVec.ofNat 8 v) (BitVec.toNat_ofNat v 8)) (s.cycles + (if (q + s.x.toNat) / 256 = q / 256 then 0 else 1))⟩
      show (s.read ((q + s.x.toNat) % 65536)).map _ = _
      rw [hxx, Nat.mod_eq_of_lt (by omega), brel_read h hq hv]
      rfl
    · cases hb
  | ldaY q =>
    simp only [bExec] at hb
    obtain ⟨x, hx, hb2⟩ := Option.bind_eq_some_iff.mp hb
    clear hb; have hb := hb2; clear hb2
    split at hb
    · rename_i hq
      obtain ⟨v, hv, hb2⟩ := Option.map_eq_some_iff.mp hb
      clear hb; have hb := hb2; clear hb2
      have hxx := h.y x hx
      cases hb
      refine ⟨_, ?_, brel_cycles (brel_setA h (u := BitVec.ofNat 8 v) (BitVec.toNat_ofNat v 8)) (s.cycles + (if (q + s.y.toNat) / 256 = q / 256 then 0 else 1))⟩
      show (s.read ((q + s.y.toNat) % 65536)).map _ = _
      rw [hxx, Nat.mod_eq_of_lt (by omega), brel_read h hq hv]
      rfl
    · cases hb
  | ldaA q =>
    simp only [bExec] at hb
    split at hb
    · rename_i hq
      obtain ⟨v, hv, hb2⟩ := Option.map_eq_some_iff.mp hb
      clear hb; have hb := hb2; clear hb2
      cases hb
      refine ⟨_, ?_, brel_setA h (u := BitVec.ofNat 8 v) (BitVec.toNat_ofNat v 8)⟩
      show (s.read q).map _ = _
      rw [brel_read h hq hv]
      rfl
    · split at hb
      · rename_i hq
        obtain ⟨c, hc, hb2⟩ := Option.bind_eq_some_iff.mp hb
        clear hb; have hb := hb2; clear hb2
        split at hb
        · rename_i hm
          cases hb
          have ci := h.card c hc
          have hmode : s.w.mode.getLsbD 1 = true := by
            have : s.w.mode = 3#8 := BitVec.eq_of_toNat_eq (ci.mode.trans hm.1)
            rw [this]; decide
          have hp : s.w.ptr = 0x403 := ci.ptr.trans hm.2
          have hd : s.w.readData = (s.w.sr, { s.w with ptr := 0x404 }) := by
            unfold W5100.readData
            dsimp only
            rw [advance_eq hmode, hp]
            rfl
          refine ⟨_, ?_, brel_setA (brel_card h (w := { s.w with ptr := 0x404 }) (c := { c with ptr := 0x404 })
            ⟨ci.mode, rfl, ci.rd, ci.arrived, ci.freed, ci.sr, ci.idle, ci.regs, ci.works⟩ rfl rfl) ci.sr⟩
          have hr : s.read 0xc097 = some (s.w.readData.1, { s with w := s.w.readData.2 }) := rfl
          show (s.read q).map _ = _
          rw [hq, hr, hd]
          rfl
        · cases hb
      · cases hb
  | staZ q =>
    simp only [bExec] at hb
    obtain ⟨a, ha, hb2⟩ := Option.bind_eq_some_iff.mp hb
    clear hb; have hb := hb2; clear hb2
    split at hb
    · rename_i hq
      subst hq
      cases hb
      refine ⟨_, rfl, ?_⟩
      rw [brel_store h]
      exact ⟨h.pc, h.a, h.x, h.y, h.z, h.card, known_some (h.a a ha), h.v2, h.v3, h.v4, h.out,
        fun q hq => (if_neg (fun h => hq (.inl h))).trans (h.main q hq), h.aux, h.sw, h.clicks, h.log, h.works,
        store_code h.code (by decide) _, h.page2⟩
    · cases hb
  | staA q =>
    simp only [bExec] at hb
    obtain ⟨a, ha, hb2⟩ := Option.bind_eq_some_iff.mp hb
    clear hb; have hb := hb2; clear hb2
    have hav := h.a a ha
    have st : ∀ q, q < 0xc000 → s.write q s.a = some { s with main := fun p => if p = q then s.a else s.main p } := by
      intro q hq
      rw [write_low _ hq, brel_store h]
    split at hb
    · rename_i hq
      subst hq
      cases hb
      refine ⟨_, st _ (by decide), h.pc, h.a, h.x, h.y, h.z, h.card, h.cnt, ⟨known_some hav, fun h => (by cases h)⟩, h.v3, h.v4, h.out,
        fun q hq => (if_neg (fun h => hq (by subst h; exact .inr (.inl ⟨by decide, by decide⟩)))).trans (h.main q hq), h.aux, h.sw, h.clicks, h.log, h.works,
        store_code h.code (by decide) _, h.page2⟩
    split at hb
    · rename_i hq
      subst hq
      cases hb
      refine ⟨_, st _ (by decide), h.pc, h.a, h.x, h.y, h.z, h.card, h.cnt, h.v2, ⟨known_some hav, fun h => (by cases h)⟩, h.v4, h.out,
        fun q hq => (if_neg (fun h => hq (by subst h; exact .inr (.inl ⟨by decide, by decide⟩)))).trans (h.main q hq), h.aux, h.sw, h.clicks, h.log, h.works,
        store_code h.code (by decide) _, h.page2⟩
    split at hb
    · rename_i hq
      subst hq
      cases hb
      refine ⟨_, st _ (by decide), h.pc, h.a, h.x, h.y, h.z, h.card, h.cnt, h.v2, h.v3, ⟨known_some hav, fun h => (by cases h)⟩, h.out,
        fun q hq => (if_neg (fun h => hq (by subst h; exact .inr (.inl ⟨by decide, by decide⟩)))).trans (h.main q hq), h.aux, h.sw, h.clicks, h.log, h.works,
        store_code h.code (by decide) _, h.page2⟩
    split at hb
    · rename_i hq
      obtain ⟨rfl, h80⟩ := hq
      cases hb
      have hu : s.a = 0x80#8 := BitVec.eq_of_toNat_eq (hav.trans h80)
      have hwr : s.write 0xc094 s.a = some { s with w := s.w.setMode s.a } := rfl
      refine ⟨_, hwr, brel_card h ?_ ?_ ?_⟩
      · rw [hu]; exact ⟨rfl, rfl, rfl, rfl, rfl, rfl, .inl rfl, fun _ => rfl, h.works⟩
      · rw [hu]; rfl
      · rw [hu]; rfl
    · obtain ⟨c, hc, hb2⟩ := Option.bind_eq_some_iff.mp hb
      clear hb; have hb := hb2; clear hb2
      obtain ⟨c', hc', hb⟩ := Option.map_eq_some_iff.mp hb
      cases hb
      obtain ⟨w', g1, g2, g3, g4⟩ := cardIs_write (h.card c hc) rfl hav hc'
      exact ⟨_, g1, brel_card h g2 g3 g4⟩
  | inx =>
    simp only [bExec] at hb
    obtain ⟨x, hx, hb2⟩ := Option.bind_eq_some_iff.mp hb
    clear hb; have hb := hb2; clear hb2
    cases hb
    refine ⟨_, rfl, brel_setX h ?_⟩
    rw [BitVec.toNat_add, h.x x hx]
    rfl
  | iny =>
    simp only [bExec] at hb
    obtain ⟨x, hx, hb2⟩ := Option.bind_eq_some_iff.mp hb
    clear hb; have hb := hb2; clear hb2
    cases hb
    refine ⟨_, rfl, brel_setY h ?_⟩
    rw [BitVec.toNat_add, h.y x hx]
    rfl
  | cpxI v =>
    simp only [bExec] at hb
    obtain ⟨x, hx, hb2⟩ := Option.bind_eq_some_iff.mp hb
    clear hb; have hb := hb2; clear hb2
    split at hb
    · rename_i hv
      cases hb
      exact ⟨_, rfl, brel_flags h (z_sub (h.x x hx) hv)⟩
    · cases hb
  | cmpI v =>
    simp only [bExec] at hb
    obtain ⟨x, hx, hb2⟩ := Option.bind_eq_some_iff.mp hb
    clear hb; have hb := hb2; clear hb2
    split at hb
    · rename_i hv
      cases hb
      exact ⟨_, rfl, brel_flags h (z_sub (h.a x hx) hv)⟩
    · cases hb
  | eorI v =>
    simp only [bExec] at hb
    obtain ⟨x, hx, hb2⟩ := Option.bind_eq_some_iff.mp hb
    clear hb; have hb := hb2; clear hb2
    split at hb
    · rename_i hv
      cases hb
      refine ⟨_, rfl, h.pc, known_some ?_, h.x, h.y, fun v h => (by cases h), h.card, h.cnt, h.v2, h.v3, h.v4, h.out, h.main, h.aux, h.sw,
        h.clicks, h.log, h.works, h.code, h.page2⟩
      show (s.a ^^^ BitVec.ofNat 8 v).toNat = _
      rw [BitVec.toNat_xor, h.a x hx, BitVec.toNat_ofNat, Nat.mod_eq_of_lt hv]
    · cases hb
  | decZ q =>
    simp only [bExec] at hb
    obtain ⟨n, hn, hb2⟩ := Option.bind_eq_some_iff.mp hb
    clear hb; have hb := hb2; clear hb2
    split at hb
    · rename_i hq
      cases hb
      have hv := h.cnt n hn
      have hd : (s.main 6 - 1#8).toNat = (n + 255) % 256 := by
        rw [BitVec.toNat_sub, hv]
        show (2 ^ 8 - 1 + n) % 2 ^ 8 = _
        omega
      have hr : s.read 6 = some (s.main 6, s) := by
        unfold Mach.read
        rw [if_pos (by decide)]
        unfold Mach.ram
        rw [not_steered h.page2, if_neg (by decide)]
      refine ⟨{ ({ s with main := fun p => if p = 6 then s.main 6 - 1#8 else s.main p } : Mach).setNZ (s.main 6 - 1#8) with }, ?_, h.pc, h.a, h.x, h.y, ?_, h.card,
        known_some hd, h.v2, h.v3, h.v4, h.out,
        fun q hq => (if_neg (fun h => hq (.inl h))).trans (h.main q hq), h.aux, h.sw, h.clicks, h.log, h.works,
        store_code h.code (by decide) _, h.page2⟩
      · show (s.read q).bind _ = _
        rw [hq, hr]
        have hw : s.write 6 (s.main 6 - 1#8) = some { s with main := fun p => if p = 6 then s.main 6 - 1#8 else s.main p } := by
          rw [write_low _ (by decide), brel_store h]
        rw [Option.bind_some]
        dsimp only
        rw [hw]
        rfl
      · exact z_known hd
    · cases hb
  | jmp q =>
    cases hb
    exact ⟨_, rfl, brel_next h q s.cycles⟩
  | jsr q =>
    simp only [bExec] at hb
    obtain ⟨a, ha, hb2⟩ := Option.bind_eq_some_iff.mp hb
    clear hb; have hb := hb2; clear hb2
    split at hb
    · rename_i hq
      subst hq
      cases hb
      have hav := h.a a ha
      have sc : ∀ q, ¬ Scratch q → ¬ ((0x20 ≤ q ∧ q < 0x50) ∨ (0x400 ≤ q ∧ q < 0x800)) :=
        fun q hq hc => hq (hc.elim (fun h => .inr (.inr (.inl h))) (fun h => .inr (.inr (.inr h))))
      refine ⟨s.cout (e.rom s.time), rfl, h.pc, h.a, fun v h => (by cases h), h.y, fun v h => (by cases h), h.card, h.cnt, h.v2, h.v3, h.v4, ?_,
        fun q hq => (if_neg (sc q hq)).trans (h.main q hq), fun q hq => (if_neg hq).trans (h.aux q hq), h.sw, h.clicks, h.log, h.works, ?_, h.page2⟩
      · show s.out ++ [s.a] = _
        rw [h.out, List.map_append, ← List.append_assoc]
        congr 1
        show [s.a] = [BitVec.ofNat 8 a]
        rw [← hav, BitVec.ofNat_toNat, BitVec.setWidth_eq]
      · intro p v hp
        have := code_not_scratch hp
        show (if _ then _ else _) = _
        rw [if_neg (by omega)]
        exact h.code p v hp
    · cases hb
  | beq d =>
    simp only [bExec] at hb
    obtain ⟨z, hz, hb2⟩ := Option.bind_eq_some_iff.mp hb
    clear hb; have hb := hb2; clear hb2
    have hz' := h.z z hz
    cases hb
    refine ⟨_, rfl, ?_⟩
    unfold Mach.branch
    rw [h.pc]
    cases z
    · rw [if_neg (show ¬ s.z = true by rw [hz']; decide)]; exact h
    · rw [if_pos (show s.z = true from hz')]; exact brel_next h _ _
  | bne d =>
    simp only [bExec] at hb
    obtain ⟨z, hz, hb2⟩ := Option.bind_eq_some_iff.mp hb
    clear hb; have hb := hb2; clear hb2
    have hz' := h.z z hz
    cases hb
    refine ⟨_, rfl, ?_⟩
    unfold Mach.branch
    rw [h.pc]
    cases z
    · rw [if_pos (show (!s.z) = true by rw [hz']; rfl)]; exact brel_next h _ _
    · rw [if_neg (show ¬ (!s.z) = true by rw [hz']; decide)]; exact h
  | _ => cases hb

theorem bstep_ok {s0 : Mach} {b b' : BSt} {s : Mach} (e : Env) (h : BRel s0 b s)
    (hb : bStep s0.w.works b = some b') : ∃ s', s.step e = some s' ∧ BRel s0 b' s' := by
  unfold bStep at hb
  split at hb
  · cases hb
  · rename_i i hi
    rw [step_code h.code (fun _ => not_steered h.page2 _) (by rw [h.pc]; exact hi)]
    have h1 := brel_next (brel_env e h) (b.pc + i.len) (s.cycles + i.cycles)
    rw [h.pc]
    exact bexec_ok e h1 hb

theorem brun_ok {s0 : Mach} (e : Env) (n : Nat) : ∀ {b b' : BSt} {s : Mach}, BRel s0 b s → bRun s0.w.works n b = some b' →
    ∃ s', s.run e n = some s' ∧ BRel s0 b' s' := by
  induction n with
  | zero => intro b b' s h hb; cases hb; exact ⟨s, rfl, h⟩
  | succ n ih =>
    intro b b' s h hb
    obtain ⟨c, hc, hb2⟩ := Option.bind_eq_some_iff.mp hb
    clear hb; have hb := hb2; clear hb2
    obtain ⟨t, h1, h2⟩ := bstep_ok e h hc
    obtain ⟨u, h3, h4⟩ := ih h2 hb
    exact ⟨u, by rw [run_succ, h1]; exact h3, h4⟩

end IIVision.Player
