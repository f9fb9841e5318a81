import Verif.Proofs.Phase

/-! Whole streams: safety and progress. -/

namespace IIVision.Player

open Spec

/-! ### Reading opcodes from the file -/

theorem drop_cons {e : Env} {P : Nat} {b : U8} {rest : List U8} (h : e.file.drop P = b :: rest) :
    e.byte P = b ∧ e.file.drop (P + 1) = rest ∧ P < e.file.length := by
  have h1 : e.file[P]? = some b := by
    have := congrArg (·[0]?) h
    simpa using this
  refine ⟨?_, ?_, ?_⟩
  · unfold Env.byte; rw [List.getD_eq_getElem?_getD, h1]; rfl
  · have := congrArg (List.drop 1) h
    rw [List.drop_drop] at this
    simpa using this
  · exact (List.getElem?_eq_some_iff.mp h1).1

/-- Length of an opcode in the stream. -/
def opLen (op : Opcode) : Nat := (op.emit playerAddr).length

/-- Layout of opcodes from position `P` on. -/
def Lay : Nat → List Opcode → Prop
  | P, [] => P % 2048 + 2 ≤ 2044
  | P, op :: ops =>
    ((∀ a, op = .ack a → P % 2048 = 2044) ∧ ((∀ a, op ≠ .ack a) → P % 2048 + opLen op ≤ 2044)) ∧ Lay (P + opLen op) ops

/-- The opcodes still to come begin at position `P`. -/
structure Here (e : Env) (P : Nat) (ops : List Opcode) : Prop where
  bytes : ∃ pad : List Nat, e.file.drop P = (bytesOf playerAddr (ops ++ [.terminate]) ++ pad).map (BitVec.ofNat 8)
  lay : Lay P ops
  body : ∀ op ∈ ops, BodyOp op
  whole : e.file.length % 2048 = 0

theorem ofNat_hi {a : Nat} (h : a < 65536) : (BitVec.ofNat 8 (a / 256)).toNat = a / 256 := by
  rw [BitVec.toNat_ofNat]; omega

theorem ofNat_lo (a : Nat) : (BitVec.ofNat 8 (a % 256)).toNat = a % 256 := by
  rw [BitVec.toNat_ofNat]; omega

theorem addr_lt (c : Cmd) : playerAddr c < 65536 := by
  cases c with
  | tick t p =>
    have : ∀ t p : Fin 32, playerAddr (.tick t p) < 65536 := by decide +kernel
    exact this t p
  | _ => decide

theorem word_of {e : Env} {P : Nat} {c : Cmd} {rest : List U8}
    (h : e.file.drop P = BitVec.ofNat 8 (playerAddr c / 256) :: BitVec.ofNat 8 (playerAddr c % 256) :: rest) :
    256 * (e.byte P).toNat + (e.byte (P + 1)).toNat = playerAddr c ∧ e.file.drop (P + 2) = rest ∧ P + 2 ≤ e.file.length := by
  obtain ⟨h1, h2, h3⟩ := drop_cons h
  obtain ⟨h4, h5, h6⟩ := drop_cons h2
  rw [h1, h4, ofNat_hi (addr_lt c), ofNat_lo]
  exact ⟨by omega, h5, h6⟩

/-- The entry address at a position. -/
def wordAt (e : Env) (P : Nat) : Nat := 256 * (e.byte P).toNat + (e.byte (P + 1)).toNat

theorem here_nil {e : Env} {P : Nat} (h : Here e P []) : wordAt e P = 0xba64 ∧ P + 2 ≤ e.file.length := by
  obtain ⟨pad, h1⟩ := h.bytes
  obtain ⟨h2, -, h3⟩ := word_of (c := Cmd.terminate) (rest := pad.map (BitVec.ofNat 8)) (by rw [h1]; rfl)
  exact ⟨h2, h3⟩

theorem here_nop {e : Env} {P : Nat} {ops : List Opcode} (h : Here e P (.nop :: ops)) :
    wordAt e P = playerAddr .nop ∧ P % 2048 + 2 ≤ 2044 ∧ Here e (P + 2) ops := by
  obtain ⟨pad, h1⟩ := h.bytes
  obtain ⟨h2, h4, h3⟩ := word_of (c := Cmd.nop) (rest := (bytesOf playerAddr (ops ++ [.terminate]) ++ pad).map (BitVec.ofNat 8))
    (by rw [h1]; rfl)
  have hl := h.lay
  exact ⟨h2, hl.1.2 (fun a => by simp), ⟨pad, h4⟩, hl.2, fun op ho => h.body op (by simp [ho]), h.whole⟩

theorem here_ack {e : Env} {P : Nat} {a : Bool} {ops : List Opcode} (h : Here e P (.ack a :: ops)) :
    wordAt e P = playerAddr .ack ∧ P % 2048 = 2044 ∧ e.byte (P + 2) = (if a then 0x55#8 else 0x54#8) ∧ Here e (P + 4) ops := by
  obtain ⟨pad, h1⟩ := h.bytes
  obtain ⟨h2, h4, h3⟩ := word_of (c := Cmd.ack) (rest := ([if a then 0x55 else 0x54, 0xff] ++
    (bytesOf playerAddr (ops ++ [Opcode.terminate]) ++ pad)).map (BitVec.ofNat 8)) (by rw [h1]; rfl)
  obtain ⟨h5, h6, -⟩ := drop_cons h4
  obtain ⟨-, h7, -⟩ := drop_cons h6
  have hl := h.lay
  refine ⟨h2, hl.1.1 a rfl, ?_, ⟨pad, h7⟩, hl.2, fun op ho => h.body op (by simp [ho]), h.whole⟩
  rw [h5]
  cases a <;> rfl

theorem here_tick {e : Env} {P : Nat} {t p : Fin 32} {c : U8} {os : List (Fin 256)} {ops : List Opcode}
    (h : Here e P (.tick t p c os :: ops)) :
    wordAt e P = playerAddr (.tick t p) ∧ P % 2048 + 7 ≤ 2044 ∧ e.byte (P + 2) = c ∧
    [e.byte (P + 3), e.byte (P + 4), e.byte (P + 5), e.byte (P + 6)] = os.map (fun o => BitVec.ofNat 8 o.val) ∧
    Here e (P + 7) ops := by
  obtain ⟨pad, h1⟩ := h.bytes
  have ho : os.length = 4 := h.body (.tick t p c os) (by simp)
  match os, ho with
  | [o1, o2, o3, o4], _ =>
    obtain ⟨h2, h4, h3⟩ := word_of (c := Cmd.tick t p) (rest := ([c.toNat, o1.val, o2.val, o3.val, o4.val] ++
      (bytesOf playerAddr (ops ++ [Opcode.terminate]) ++ pad)).map (BitVec.ofNat 8)) (by rw [h1]; rfl)
    obtain ⟨a1, b1, -⟩ := drop_cons h4
    obtain ⟨a2, b2, -⟩ := drop_cons b1
    obtain ⟨a3, b3, -⟩ := drop_cons b2
    obtain ⟨a4, b4, -⟩ := drop_cons b3
    obtain ⟨a5, b5, -⟩ := drop_cons b4
    have hl := h.lay
    refine ⟨h2, hl.1.2 (fun a => by simp), ?_, ?_, ⟨pad, b5⟩, hl.2, fun op ho => h.body op (by simp [ho]), h.whole⟩
    · rw [a1]; exact BitVec.ofNat_toNat ..
    · show [e.byte (P + 2 + 1), e.byte (P + 2 + 1 + 1), e.byte (P + 2 + 1 + 1 + 1), e.byte (P + 2 + 1 + 1 + 1 + 1)] = _
      rw [a2, a3, a4, a5]; rfl

theorem here_word {e : Env} {P : Nat} {ops : List Opcode} (h : Here e P ops) : P + 2 ≤ e.file.length := by
  cases ops with
  | nil => exact (here_nil h).2
  | cons op ops =>
    obtain ⟨pad, h1⟩ := h.bytes
    have h2 := congrArg List.length h1
    rw [List.length_drop, List.length_map, List.length_append] at h2
    have h3 : 2 ≤ (bytesOf playerAddr (op :: ops ++ [.terminate])).length := by
      rw [show op :: ops ++ [Opcode.terminate] = (op :: ops) ++ [.terminate] from rfl]
      unfold bytesOf
      rw [List.flatMap_append, List.length_append]
      exact Nat.le_add_left 2 _
    omega

theorem here_block {e : Env} {P : Nat} {ops : List Opcode} (h : Here e P ops) :
    2048 * (P / 2048) + 2048 ≤ e.file.length := by
  have h1 := here_word h
  have h2 := h.whole
  omega

theorem here_fits {e : Env} {P : Nat} {ops : List Opcode} (h : Here e P ops) : P % 2048 + 2 ≤ 2046 := by
  cases ops with
  | nil => have := h.lay; unfold Lay at this; omega
  | cons op ops =>
    have hl := h.lay.1
    by_cases ha : ∃ a, op = .ack a
    · obtain ⟨a, rfl⟩ := ha
      have := hl.1 a rfl
      omega
    · have := hl.2 (fun a hc => ha ⟨a, hc⟩)
      omega

theorem tick_sym : ∀ t p : Fin 32, playerAddr (.tick t p) = sym (.opTick (4 + 2 * t.val) (32 + p.val)) := by decide +kernel

theorem pulse_width : ∀ t : Fin 32, pulse t.val = pulseWidth (4 + 2 * t.val) := by decide +kernel

/-! ### States between opcodes -/

/-- An opcode of the stream has been dispatched. -/
structure AtOp (e : Env) (s : Mach) (P : Nat) (ops : List Opcode) : Prop where
  play : Playing e s (P + 2)
  pc : s.pc = wordAt e P
  freed : s.w.freed = 2048 * (P / 2048)
  here : Here e P ops

/-- States of the player between opcodes and in the waiting loops; `r` is the next byte to
read. -/
inductive Phase (e : Env) (s : Mach) : Nat → Prop
  | op {P : Nat} {ops : List Opcode} : AtOp e s P ops → Phase e s (P + 2)
  | ready {P : Nat} {ops : List Opcode} : Ready e s P → s.w.freed = 2048 * (P / 2048) → Here e P ops → Phase e s P
  | lined {P pc : Nat} {ops : List Opcode} : pc = 0x4051 ∨ pc = 0x4059 ∨ pc = 0x4061 → Lined e s P pc →
      s.w.freed = 2048 * (P / 2048) → Here e P ops → Phase e s P
  | term {r : Nat} : Lined e s r 0xba67 → Phase e s r
  | exit {r : Nat} : s.pc = 0xbaac → r ≤ s.w.arrived → Phase e s r

theorem atop_avail {e : Env} {s : Mach} {P : Nat} {ops : List Opcode} (h : AtOp e s P ops) {n : Nat}
    (hn : P % 2048 + n ≤ 2048) : P + n ≤ s.w.arrived := by
  have := h.play.block
  have := h.freed
  omega

/-- From the look at the received size. -/
theorem ready_hop {e : Env} {s : Mach} {r : Nat} (h : Ready e s r) :
    (s.w.freed + 2048 ≤ (s.env e).w.arrived → ∃ s', Hop e s r 5 0 s' ∧ Lined e s' r 0x4051 ∧ Idle s s' ∧
      s'.cycles = s.cycles + 17 ∧ s'.clicks = s.clicks) ∧
    (¬ s.w.freed + 2048 ≤ (s.env e).w.arrived → ∃ s', Hop e s r 9 0 s' ∧ Ready e s' r ∧ Idle s s') := by
  obtain ⟨t, h1, h2, h3, h4, h5⟩ := ready_check h
  have hi : Intact t.main := by rw [h2.main]; exact h.intact
  have hpos : 256 * t.y.toNat + t.x.toNat = 0x6000 + r % 8192 := by rw [h2.x, h2.y]; exact h.pos
  constructor
  · intro hc
    obtain ⟨g1, g2⟩ := h4 hc
    have hb : t.w.freed + 2048 ≤ t.w.arrived := by
      rw [h2.freed]
      refine Nat.le_trans hc ?_
      obtain ⟨u, hu, hw⟩ := h1.steps 1 (by decide)
      have hs : s.step e = some u := by
        rw [run_succ] at hu
        obtain ⟨v, hv, hv'⟩ := Option.bind_eq_some_iff.mp hu
        cases hv'; exact hv
      have hr2 : u.run e 2 = some t := by
        rw [← run_add 1 hu]; exact h1.run
      have r1 := step_resets hs
      have r2 := run_resets 2 hr2
      have r3 : t.w.regs.resets = s.w.regs.resets := by rw [h2.regs]
      rw [← (step_still hs (by omega)).arrived]
      exact (run_mono 2 hr2 (by omega)).1
    obtain ⟨s', k1, k2, k3, k4, k5⟩ := ready_line hi g1 h3 (h2.ring r h.ring) hpos hb
    exact ⟨s', h1.trans0 k1, k2, (idle_soft h2).trans k3, by rw [k4, g2], by rw [k5, h2.clicks]⟩
  · intro hc
    obtain ⟨s', k1, k2, k3, k4⟩ := ready_again hi (h5 hc) h3 (h2.ring r h.ring) hpos
    exact ⟨s', h1.trans0 k1, k2, (idle_soft h2).trans k3⟩

/-- The first opcode of a block. -/
theorem go_hop {e : Env} {s : Mach} {P : Nat} {ops : List Opcode} (h : Lined e s P 0x4061)
    (hf : s.w.freed = 2048 * (P / 2048)) (hh : Here e P ops) :
    ∃ s', Hop e s P 11 2 s' ∧ AtOp e s' P ops ∧ Idle s s' ∧ s'.cycles = s.cycles + 39 ∧
      s'.clicks = s.clicks ++ [s.cycles + 4] := by
  have hb := h.block
  have hfit := here_fits hh
  obtain ⟨s', h1, h2, h3, h4, h5, h6⟩ := lined_go h (by omega)
  exact ⟨s', h1, ⟨h2, h4, by rw [h3.freed]; exact hf, hh⟩, h3, h5, h6⟩

theorem op_nop {e : Env} {s : Mach} {P : Nat} {ops : List Opcode} (h : AtOp e s P (.nop :: ops)) :
    ∃ s', Hop e s (P + 2) 5 2 s' ∧ AtOp e s' (P + 2) ops ∧ s.pc = playerAddr .nop ∧ SameMemory s' s ∧ s'.sw = s.sw ∧
      s'.cycles = s.cycles + 19 ∧ s'.clicks = s.clicks := by
  obtain ⟨a1, a2, a3⟩ := here_nop h.here
  have hpc : s.pc = 0x4070 := h.pc.trans a1
  have ha : P + 2 + 2 ≤ s.w.arrived := atop_avail h (n := 4) (by omega)
  obtain ⟨s', h1, h2, h3, h4, h5, h6⟩ := nop_hop h.play hpc ha
  refine ⟨s', h1, ⟨h2, h4, ?_, a3⟩, hpc, h3.mem, h3.sw, h5, h6⟩
  rw [h3.freed, h.freed]
  omega

theorem op_tick {e : Env} {s : Mach} {P : Nat} {t p : Fin 32} {c : U8} {os : List (Fin 256)} {ops : List Opcode}
    (h : AtOp e s P (.tick t p c os :: ops)) :
    ∃ n s', 18 ≤ n ∧ Hop e s (P + 2) n 7 s' ∧ AtOp e s' (P + 7) ops ∧ s.pc = playerAddr (.tick t p) ∧
      s'.cycles = s.cycles + 73 ∧ s'.clicks = s.clicks ++ [s.cycles + 4, s.cycles + 4 + pulseWidth (4 + 2 * t.val)] ∧
      SameMemory s' (s.draw (32 + p.val) c (os.map fun o => BitVec.ofNat 8 o.val)) ∧ s'.sw = s.sw := by
  obtain ⟨a1, a2, a3, a4, a5⟩ := here_tick h.here
  have hpc := h.pc.trans a1
  have ha : P + 2 + 7 ≤ s.w.arrived := atop_avail h (n := 9) (by omega)
  have hp := p.isLt
  obtain ⟨n, s', h0, h1, h2, h3, h4, h5, h6, h7, h8⟩ := tick_hop h.play ha t.isLt (p := 32 + p.val) (by omega) (by omega)
    (by rw [hpc]; exact tick_sym t p)
  rw [pulse_width t] at h5
  rw [a3] at h6
  rw [show [e.byte (P + 2 + 1), e.byte (P + 2 + 2), e.byte (P + 2 + 3), e.byte (P + 2 + 4)] = _ from a4] at h6
  refine ⟨n, s', h0, h1, ⟨?_, h3, ?_, a5⟩, hpc, h4, h5, h6, h7⟩
  · exact h2
  · rw [h8, h.freed]
    omega

theorem op_ack {e : Env} {s : Mach} {P : Nat} {a : Bool} {ops : List Opcode} (h : AtOp e s P (.ack a :: ops)) :
    ∃ s', Hop e s (P + 2) 25 2 s' ∧ Ready e s' (P + 4) ∧ s'.w.freed = 2048 * ((P + 4) / 2048) ∧ Here e (P + 4) ops ∧
      s.pc = playerAddr .ack ∧ SameMemory s' s ∧ s'.sw = { s.sw with page2 := a } ∧
      s'.cycles = s.cycles + 83 ∧ s'.clicks = s.clicks ++ [s.cycles + 4, s.cycles + 38, s.cycles + 77] := by
  obtain ⟨a1, a2, a3, a4⟩ := here_ack h.here
  have hpc := h.pc.trans a1
  have ha : P + 2 + 2 ≤ s.w.arrived := atop_avail h (n := 4) (by omega)
  have hf := h.freed
  obtain ⟨s', h1, h2, h3, h4, h5, h6, h7, -⟩ := ack_hop h.play hpc (by omega) ha (by omega) a3
  exact ⟨s', h1, h2, by rw [h3]; omega, a4, hpc, h4, h5, h6, h7⟩

/-- Terminating: the strobe is cleared. -/
theorem op_terminate {e : Env} {s : Mach} {P : Nat} (h : AtOp e s P []) :
    s.pc = playerAddr .terminate ∧ ∃ s', Hop e s (P + 2) 1 0 s' ∧ Lined e s' (P + 2) 0xba67 ∧ Soft e s s' := by
  have hpc : s.pc = 0xba64 := h.pc.trans (here_nil h.here).1
  have hav : P + 2 ≤ s.w.arrived := atop_avail h (n := 2) (by have := here_fits h.here; omega)
  have l : Lined e s (P + 2) 0xba64 := ⟨h.play.intact, hpc, h.play.ptr,
    ⟨h.play.auto, h.play.ring, h.play.rd, h.play.freed, hav⟩, h.play.block⟩
  obtain ⟨s', a1, a2, a3, a4, -⟩ := step_ldastrobe (e := e) (lined_code l) (fun h => by cases h) (by rw [hpc]; decide +kernel)
  rw [hpc] at a4
  exact ⟨hpc, s', hop_soft a1 hav a2 (.inr (.inr (.inr (.inl hpc)))), lined_soft l a2 a3 a4, a2⟩

/-- Waiting for a key at the end. -/
theorem term_hop {e : Env} {s : Mach} {r : Nat} (h : Lined e s r 0xba67) :
    ((s.env e).kbd.getLsbD 7 = false → ∃ s', Hop e s r 2 0 s' ∧ Lined e s' r 0xba67) ∧
    ((s.env e).kbd.getLsbD 7 = true → ∃ s', Hop e s r 4 0 s' ∧ s'.pc = 0xbaac ∧ r ≤ s'.w.arrived) := by
  obtain ⟨t1, a1, a2, a3, a4, a5, a6, a7⟩ := step_ldakbd (e := e) (lined_code h) (fun h => by cases h) (by rw [h.pc]; decide +kernel)
  rw [h.pc] at a4
  have l1 := lined_soft h a2 a3 a4
  obtain ⟨t2, b1, b2, b3, b6, b4, b5⟩ := step_bpl (e := e) (d := 251) (lined_code l1) (fun h => by cases h)
    (by rw [a4]; decide +kernel)
  rw [a4] at b4 b5
  rw [a6] at b4 b5
  have hh := (hop_soft a1 h.ring.avail a2 (.inl a7)).trans0 (hop_soft b1 l1.ring.avail b2 (.inl b6))
  constructor
  · intro hn
    exact ⟨t2, hh, lined_soft l1 b2 b3 (b4 hn).1⟩
  · intro hn
    have c1 := (b5 hn).1
    have l2 := lined_soft l1 b2 b3 c1
    obtain ⟨t3, d1, d2, d3, d4, -⟩ := step_ldastrobe (e := e) (lined_code l2) (fun h => by cases h) (by rw [c1]; decide +kernel)
    rw [c1] at d4
    have l3 := lined_soft l2 d2 d3 d4
    have se := soft_env e t3
    have st : ∃ t4, t3.step e = some t4 ∧ Soft e t3 t4 ∧ t4.pc = 0xbaac ∧ t4.kbd = (t3.env e).kbd := by
      refine ⟨_, by rw [step_code (i := .jmp 0xbaac) (lined_code l3) (fun h => by cases h) (by rw [d4]; decide +kernel)]; rfl, ?_, rfl, ?_⟩
      · exact se.trans ⟨rfl, rfl, rfl, rfl, rfl, rfl, rfl, rfl, rfl, Nat.le_refl _, fun r h => h⟩
      · rfl
    obtain ⟨t4, e1, e2, e3, e4⟩ := st
    exact ⟨t4, (hh.trans0 (hop_soft d1 l2.ring.avail d2 (.inr (.inr (.inr (.inr c1)))))).trans0 (hop_soft e1 l3.ring.avail e2 (.inl e4)), e3,
      (e2.ring r l3.ring).avail⟩

/-! ### Safety -/

/-- From every state between opcodes the player comes to another one. -/
theorem phase_hop {e : Env} {s : Mach} {r : Nat} (h : Phase e s r) :
    s.pc = 0xbaac ∨ ∃ n k s', 0 < n ∧ Hop e s r n k s' ∧ Phase e s' (r + k) := by
  cases h with
  | @op P ops h =>
    right
    cases ops with
    | nil =>
      obtain ⟨-, s', h1, h2, -⟩ := op_terminate h
      exact ⟨1, 0, s', by decide, h1, .term h2⟩
    | cons op ops =>
      cases op with
      | header m => exact absurd (h.here.body _ List.mem_cons_self) (by simp [BodyOp])
      | terminate => exact absurd (h.here.body _ List.mem_cons_self) (by simp [BodyOp])
      | nop =>
        obtain ⟨s', h1, h2, -⟩ := op_nop h
        exact ⟨_, _, s', by decide, h1, .op h2⟩
      | ack a =>
        obtain ⟨s', h1, h2, h3, h4, -⟩ := op_ack h
        exact ⟨_, _, s', by decide, h1, .ready h2 h3 h4⟩
      | tick t p c os =>
        obtain ⟨n, s', h0, h1, h2, -⟩ := op_tick h
        refine ⟨n, 7, s', by omega, h1, ?_⟩
        rw [show P + 2 + 7 = P + 7 + 2 by omega]
        exact .op h2
  | @ready P ops h hf hh =>
    right
    by_cases hc : s.w.freed + 2048 ≤ (s.env e).w.arrived
    · obtain ⟨s', h1, h2, h3, -⟩ := (ready_hop h).1 hc
      exact ⟨5, 0, s', by decide, h1, .lined (.inl rfl) h2 (by rw [h3.freed]; exact hf) hh⟩
    · obtain ⟨s', h1, h2, h3⟩ := (ready_hop h).2 hc
      exact ⟨9, 0, s', by decide, h1, .ready h2 (by rw [h3.freed]; exact hf) hh⟩
  | @lined P pc ops hp h hf hh =>
    right
    rcases hp with rfl | rfl | rfl
    · cases hk : (s.env e).kbd.getLsbD 7 with
      | false =>
        obtain ⟨s', h1, h2, h3, -⟩ := (lined_kbd h).1 hk
        exact ⟨_, 0, s', by decide, h1, .lined (.inr (.inr rfl)) h3 (by rw [h2.freed]; exact hf) hh⟩
      | true =>
        obtain ⟨s', h1, h2, h3⟩ := (lined_kbd h).2 hk
        exact ⟨_, 0, s', by decide, h1, .lined (.inr (.inl rfl)) h3 (by rw [h2.freed]; exact hf) hh⟩
    · cases hk : (s.env e).kbd.getLsbD 7 with
      | true =>
        obtain ⟨s', h1, h2, h3⟩ := (lined_pause h).1 hk
        exact ⟨_, 0, s', by decide, h1, .lined (.inr (.inr rfl)) h3 (by rw [h2.freed]; exact hf) hh⟩
      | false =>
        obtain ⟨-, s', h1, h2, h3, -⟩ := (lined_pause h).2 hk
        exact ⟨_, 0, s', by decide, h1, .lined (.inr (.inl rfl)) h3 (by rw [h2.freed]; exact hf) hh⟩
    · obtain ⟨s', h1, h2, -⟩ := go_hop h hf hh
      exact ⟨_, _, s', by decide, h1, .op h2⟩
  | term h =>
    right
    cases hk : (s.env e).kbd.getLsbD 7 with
    | false =>
      obtain ⟨s', h1, h2⟩ := (term_hop h).1 hk
      exact ⟨_, 0, s', by decide, h1, .term h2⟩
    | true =>
      obtain ⟨s', h1, h2, h3⟩ := (term_hop h).2 hk
      exact ⟨_, 0, s', by decide, h1, .exit h2 h3⟩
  | exit h => exact .inl h

theorem phase_avail {e : Env} {s : Mach} {r : Nat} (h : Phase e s r) : r ≤ s.w.arrived := by
  cases h with
  | op h => exact atop_avail h (n := 2) (by have := here_fits h.here; omega)
  | ready h => exact h.ring.avail
  | lined _ h => exact h.ring.avail
  | term h => exact h.ring.avail
  | exit _ h => exact h

theorem Within.trans {e : Env} {s s' t : Mach} {r n k : Nat} (h : Hop e s r n k s') (h' : Within e s' (r + k) t) :
    Within e s r t := by
  refine ⟨h.within.only.trans h'.only, ?_, Nat.le_trans h.within.arrived h'.arrived⟩
  obtain ⟨l, h1, h2⟩ := h'.log
  exact ⟨k + l, by omega, by rw [h2, h.log, bytes_add, List.append_assoc]⟩

/-- Whatever happens, the player goes on until it exits. -/
theorem phase_safe {e : Env} (n : Nat) : ∀ {s : Mach} {r : Nat}, Phase e s r →
    (∃ t, s.run e n = some t ∧ Within e s r t) ∨
    ∃ m t, m ≤ n ∧ s.run e m = some t ∧ Within e s r t ∧ t.pc = 0xbaac := by
  induction n using Nat.strongRecOn with
  | _ n ih =>
    intro s r h
    rcases phase_hop h with hx | ⟨m, k, s', h0, h1, h2⟩
    · exact .inr ⟨0, s, Nat.zero_le _, rfl, within_refl (phase_avail h), hx⟩
    · by_cases hn : n ≤ m
      · exact .inl (h1.steps n hn)
      · rcases ih (n - m) (by omega) h2 with ⟨t, a1, a2⟩ | ⟨j, t, a0, a1, a2, a3⟩
        · refine .inl ⟨t, ?_, Within.trans h1 a2⟩
          rw [← a1, ← run_add m h1.run, show m + (n - m) = n by omega]
        · refine .inr ⟨m + j, t, by omega, ?_, Within.trans h1 a2, a3⟩
          rw [← a1, ← run_add m h1.run]

end IIVision.Player
