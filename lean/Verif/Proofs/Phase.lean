import Verif.Proofs.Slow

/-! Between blocks: waiting for data, pausing, dispatching the first opcode of a block, and the
ACK opcode. -/

namespace IIVision.Player

/-- Nothing but scratch and operand bytes differs in memory. -/
theorem SameMemory.refl (s : Mach) : SameMemory s s := fun _ _ _ => ⟨rfl, rfl⟩

theorem SameMemory.trans {s t u : Mach} (h1 : SameMemory s t) (h2 : SameMemory t u) : SameMemory s u :=
  fun q h8 hp => ⟨(h1 q h8 hp).1.trans (h2 q h8 hp).1, (h1 q h8 hp).2.trans (h2 q h8 hp).2⟩

theorem same_soft {e : Env} {s s' : Mach} (h : Soft e s s') : SameMemory s' s :=
  fun q _ _ => ⟨by rw [h.main], by rw [h.aux]⟩

theorem same_of_rel {e : Env} {h : Bool} {s t : Mach} {r : Nat} {σ : Sym} (hr : Rel e h s r σ t)
    (hf : σ.wr.filter isScr = []) : SameMemory t s := by
  intro q h8 hq
  have := other_main e s r σ.wr hr.wrok h8 (not_isPatch hq)
  rw [hf] at this
  rw [hr.main, hr.aux]
  exact this

/-- The player is about to look at the received size; `r` is the next byte to read. -/
structure Ready (e : Env) (s : Mach) (r : Nat) : Prop where
  intact : Intact s.main
  pc : s.pc = 0x403f
  ptr : s.w.ptr = 0x426
  ring : RingW e s.w r
  pos : 256 * s.y.toNat + s.x.toNat = 0x6000 + r % 8192

/-- The player is between blocks, with its pointer at byte `r`, and a block is there. -/
structure Lined (e : Env) (s : Mach) (r pc : Nat) : Prop where
  intact : Intact s.main
  pc : s.pc = pc
  ptr : s.w.ptr = 0x6000 + r % 8192
  ring : RingW e s.w r
  block : s.w.freed + 2048 ≤ s.w.arrived

theorem base_of_ring {e : Env} {s : Mach} {r : Nat} (h : RingW e s.w r) : Base e false s r 0 :=
  ⟨h.auto, (fun h => by cases h), h.rd, h.freed, h.avail, fun h => absurd h (by decide)⟩

theorem ring_of_rel {e : Env} {s s' : Mach} {r : Nat} {h : Bool} {σ : Sym} (hw : RingW e s.w r) (hr : Rel e h s r σ s')
    (h1 : σ.rdw = false) (h2 : σ.recv = false) : RingW e s'.w (r + σ.reads) where
  auto := by rw [hr.mode]; exact hw.auto
  ring := hr.ring
  rd := by rw [hr.rd, hr.freed, h1, h2]; exact hw.rd
  freed := by rw [hr.freed, h2]; have := hw.freed; simp only [Bool.false_eq_true, if_false]; omega
  avail := Nat.le_trans hr.avail hr.arrived

/-- What does not change between blocks. -/
structure Idle (s s' : Mach) : Prop where
  mem : SameMemory s' s
  sw : s'.sw = s.sw
  freed : s'.w.freed = s.w.freed
  regs : s'.w.regs = s.w.regs

theorem Idle.trans {s t u : Mach} (h1 : Idle s t) (h2 : Idle t u) : Idle s u :=
  ⟨h2.mem.trans h1.mem, h2.sw.trans h1.sw, h2.freed.trans h1.freed, h2.regs.trans h1.regs⟩

theorem Idle.refl (s : Mach) : Idle s s := ⟨.refl s, rfl, rfl, rfl⟩

theorem idle_soft {e : Env} {s s' : Mach} (h : Soft e s s') : Idle s s' := ⟨same_soft h, h.sw, h.freed, h.regs⟩

theorem idle_of_rel {e : Env} {h : Bool} {s t : Mach} {r : Nat} {σ : Sym} (hr : Rel e h s r σ t)
    (hf : σ.wr.filter isScr = []) (h2 : σ.recv = false) : Idle s t :=
  ⟨same_of_rel hr hf, hr.sw, by rw [hr.freed, h2]; rfl, hr.regs⟩

/-- Looking at the received size (9 cycles if there is enough). -/
theorem ready_check {e : Env} {s : Mach} {r : Nat} (h : Ready e s r) :
    ∃ s', Hop e s r 3 0 s' ∧ Soft e s s' ∧ s'.w.ptr = 0x427 ∧
      (s.w.freed + 2048 ≤ (s.env e).w.arrived → s'.pc = 0x404b ∧ s'.cycles = s.cycles + 9) ∧
      (¬ s.w.freed + 2048 ≤ (s.env e).w.arrived → s'.pc = 0x4046) := by
  have hc := codeOk_of_intact h.intact
  obtain ⟨t1, a1, a2, a3, a4, a5, a6⟩ := step_rsr (e := e) hc (fun h => by cases h) (by rw [h.pc]; decide +kernel) h.ptr h.ring
  rw [h.pc] at a3
  have hc1 : CodeOk false t1.main := by rw [a2.main]; exact hc
  obtain ⟨t2, b1, b2, b3, b4, b5, b6⟩ := step_cmp (e := e) (v := 8) hc1 (fun h => by cases h) (by rw [a3]; decide +kernel)
  rw [a3] at b3
  have hc2 : CodeOk false t2.main := by rw [b2.main]; exact hc1
  obtain ⟨t3, c1, c2, c3, c6, c4, c5⟩ := step_bcs (e := e) (d := 5) hc2 (fun h => by cases h) (by rw [b3]; decide +kernel)
  rw [b3] at c4 c5
  have hs := (a2.trans b2).trans c2
  refine ⟨t3, ((hop_soft a1 h.ring.avail a2 (.inl (kept_of_fetch hc (fun h => by cases h) (i := .ldaA 0xc097) (by rw [h.pc]; decide +kernel) rfl a1))).trans0
    (hop_soft b1 (a2.ring r h.ring).avail b2 (.inl (kept_of_fetch hc1 (fun h => by cases h) (i := .cmpI 8) (by rw [a3]; decide +kernel) rfl b1)))).trans0
    (hop_soft c1 (b2.ring r (a2.ring r h.ring)).avail c2 (.inl c6)), hs, by rw [c3, b5, a5], ?_, ?_⟩
  · intro hn
    have hw := ((soft_env e s).ring r h.ring).ring.window
    rw [(soft_env e s).freed] at hw
    have e1 : t2.c = true := by
      rw [b6, a6, BitVec.toNat_ofNat, decide_eq_true_eq]
      have : ((s.env e).w.arrived - s.w.freed) / 256 % 2 ^ 8 = ((s.env e).w.arrived - s.w.freed) / 256 :=
        Nat.mod_eq_of_lt (by omega)
      rw [this]
      omega
    obtain ⟨d1, d2⟩ := c4 e1
    exact ⟨d1, by rw [d2 (by decide), b4, a4]⟩
  · intro hn
    have e1 : t2.c = false := by
      rw [b6, a6, BitVec.toNat_ofNat, decide_eq_false_iff_not]
      have : ((s.env e).w.arrived - s.w.freed) / 256 % 2 ^ 8 = ((s.env e).w.arrived - s.w.freed) / 256 :=
        Nat.mod_eq_of_lt (by omega)
      rw [this]
      omega
    exact (c5 e1).1

/-- Once round the waiting loop. -/
theorem ready_again {e : Env} {s : Mach} {r : Nat} (hi : Intact s.main) (hpc : s.pc = 0x4046) (hp : s.w.ptr = 0x427)
    (hw : RingW e s.w r) (hpos : 256 * s.y.toNat + s.x.toNat = 0x6000 + r % 8192) :
    ∃ s', Hop e s r 6 0 s' ∧ Ready e s' r ∧ Idle s s' ∧ s'.clicks = s.clicks ++ [s.cycles + 11] := by
  have hrun : symRun false 0 6 { symStart s.pc with x := .ix, ptr := .reg (.lit 4) (.lit 0x27) } =
      some { symStart 0x403f with a := .lit 0x26, x := .ix, ptr := .reg (.lit 4) (.lit 0x26), cyc := 17, clk := [11] } := by
    rw [hpc]; decide +kernel
  obtain ⟨s', h1, h2⟩ := hop_of_sym (base_of_ring hw) (rel_start (by rw [hp]; rfl) rfl hw.ring (codeOk_of_intact hi) hw.avail) hrun
  have := ring_of_rel hw h2 rfl rfl
  refine ⟨s', h1, ⟨intact_of_codeOk h2.code, h2.pc, by rw [h2.ptr]; rfl, this, ?_⟩, idle_of_rel h2 rfl rfl, h2.clicks⟩
  rw [h2.y, h2.x]; exact hpos

/-- Setting the pointer to the next block. -/
theorem ready_line {e : Env} {s : Mach} {r : Nat} (hi : Intact s.main) (hpc : s.pc = 0x404b) (hp : s.w.ptr = 0x427)
    (hw : RingW e s.w r) (hpos : 256 * s.y.toNat + s.x.toNat = 0x6000 + r % 8192) (hb : s.w.freed + 2048 ≤ s.w.arrived) :
    ∃ s', Hop e s r 2 0 s' ∧ Lined e s' r 0x4051 ∧ Idle s s' ∧ s'.cycles = s.cycles + 8 ∧ s'.clicks = s.clicks := by
  have hrun : symRun false 0 2 { symStart s.pc with x := .ix, ptr := .reg (.lit 4) (.lit 0x27) } =
      some { symStart 0x4051 with x := .ix, ptr := .reg .iy .ix, cyc := 8 } := by
    rw [hpc]; decide +kernel
  obtain ⟨s', h1, h2⟩ := hop_of_sym (base_of_ring hw) (rel_start (by rw [hp]; rfl) rfl hw.ring (codeOk_of_intact hi) hw.avail) hrun
  have := ring_of_rel hw h2 rfl rfl
  have id := idle_of_rel h2 rfl rfl
  refine ⟨s', h1, ⟨intact_of_codeOk h2.code, h2.pc, by rw [h2.ptr]; exact hpos, this, ?_⟩, id, h2.cycles,
    by rw [h2.clicks]; exact List.append_nil _⟩
  rw [id.freed]
  have := h2.arrived
  omega

theorem lined_soft {e : Env} {s s' : Mach} {r pc pc' : Nat} (h : Lined e s r pc) (hs : Soft e s s') (hp : s'.w.ptr = s.w.ptr)
    (hpc : s'.pc = pc') : Lined e s' r pc' where
  intact := by rw [hs.main]; exact h.intact
  pc := hpc
  ptr := by rw [hp]; exact h.ptr
  ring := hs.ring r h.ring
  block := by rw [hs.freed]; exact Nat.le_trans h.block hs.arrived

theorem lined_code {e : Env} {s : Mach} {r pc : Nat} (h : Lined e s r pc) : CodeOk false s.main := codeOk_of_intact h.intact

/-- Looking at the keyboard: going on (7 cycles) or clearing the strobe. -/
theorem lined_kbd {e : Env} {s : Mach} {r : Nat} (h : Lined e s r 0x4051) :
    ((s.env e).kbd.getLsbD 7 = false → ∃ s', Hop e s r 2 0 s' ∧ Soft e s s' ∧ Lined e s' r 0x4061 ∧ s'.cycles = s.cycles + 7) ∧
    ((s.env e).kbd.getLsbD 7 = true → ∃ s', Hop e s r 3 0 s' ∧ Soft e s s' ∧ Lined e s' r 0x4059) := by
  have hc := lined_code h
  obtain ⟨t1, a1, a2, a3, a4, a5, a6, a7⟩ := step_kbd (e := e) hc (fun h => by cases h) (by rw [h.pc]; decide +kernel)
  rw [h.pc] at a4
  have l1 := lined_soft h a2 a3 a4
  obtain ⟨t2, b1, b2, b3, b6, b4, b5⟩ := step_bpl (e := e) (d := 11) (lined_code l1) (fun h => by cases h)
    (by rw [a4]; decide +kernel)
  rw [a4] at b4 b5
  have hh := (hop_soft a1 h.ring.avail a2 (.inl a7)).trans0 (hop_soft b1 l1.ring.avail b2 (.inl b6))
  rw [a6] at b4 b5
  constructor
  · intro hn
    obtain ⟨c1, c2⟩ := b4 hn
    exact ⟨t2, hh, a2.trans b2, lined_soft l1 b2 b3 c1, by rw [c2 (by decide), a5]⟩
  · intro hn
    obtain ⟨c1, -⟩ := b5 hn
    have l2 := lined_soft l1 b2 b3 c1
    obtain ⟨t3, d1, d2, d3, d4, -⟩ := step_strobe (e := e) (lined_code l2) (fun h => by cases h) (by rw [c1]; decide +kernel)
    rw [c1] at d4
    exact ⟨t3, hh.trans0 (hop_soft d1 l2.ring.avail d2 (.inr (.inl c1))), (a2.trans b2).trans d2, lined_soft l2 d2 d3 d4⟩

/-- Paused: once round the loop, or going on. -/
theorem lined_pause {e : Env} {s : Mach} {r : Nat} (h : Lined e s r 0x4059) :
    ((s.env e).kbd.getLsbD 7 = true → ∃ s', Hop e s r 3 0 s' ∧ Soft e s s' ∧ Lined e s' r 0x4061) ∧
    ((s.env e).kbd.getLsbD 7 = false → ∃ t s' : Mach, Hop e s r 2 0 s' ∧ Soft e s s' ∧ Lined e s' r 0x4059 ∧
      t.kbd = (s.env e).kbd ∧ t.time = s.time + 1 ∧ s'.kbd = (t.env e).kbd ∧ s'.time = s.time + 2) := by
  have hc := lined_code h
  obtain ⟨t1, a1, a2, a3, a4, a5, a6, a7⟩ := step_kbd (e := e) hc (fun h => by cases h) (by rw [h.pc]; decide +kernel)
  rw [h.pc] at a4
  have l1 := lined_soft h a2 a3 a4
  obtain ⟨t2, b1, b2, b3, b6, b4, b5⟩ := step_bpl (e := e) (d := 251) (lined_code l1) (fun h => by cases h)
    (by rw [a4]; decide +kernel)
  rw [a4] at b4 b5
  have hh := (hop_soft a1 h.ring.avail a2 (.inl a7)).trans0 (hop_soft b1 l1.ring.avail b2 (.inl b6))
  rw [a6] at b4 b5
  constructor
  · intro hn
    obtain ⟨c1, -⟩ := b5 hn
    have l2 := lined_soft l1 b2 b3 c1
    obtain ⟨t3, d1, d2, d3, d4, -⟩ := step_strobe (e := e) (lined_code l2) (fun h => by cases h) (by rw [c1]; decide +kernel)
    rw [c1] at d4
    exact ⟨t3, hh.trans0 (hop_soft d1 l2.ring.avail d2 (.inr (.inr (.inl c1)))), (a2.trans b2).trans d2, lined_soft l2 d2 d3 d4⟩
  · intro hn
    obtain ⟨c1, -⟩ := b4 hn
    refine ⟨t1, t2, hh, a2.trans b2, lined_soft l1 b2 b3 c1, a7, (step_calm a1).time, b6, ?_⟩
    exact run_time 2 hh.run

/-- Dispatching the first opcode of a block. -/
theorem lined_go {e : Env} {s : Mach} {r : Nat} (h : Lined e s r 0x4061) (ha : r + 2 ≤ s.w.arrived) :
    ∃ s', Hop e s r 11 2 s' ∧ Playing e s' (r + 2) ∧ Idle s s' ∧
      s'.pc = 256 * (e.byte r).toNat + (e.byte (r + 1)).toNat ∧ s'.cycles = s.cycles + 39 ∧
      s'.clicks = s.clicks ++ [s.cycles + 4] := by
  have hb : Base e false s r 2 := ⟨h.ring.auto, (fun h => by cases h), h.ring.rd, h.ring.freed, ha, fun _ => h.block⟩
  have hrun : symRun false 2 10 { symStart s.pc with x := .ix, ptr := .ring } =
      some { symStart 0x407c with x := .lit 0, y := .str 1, reads := 2, cyc := 36, clk := [4], wr := [(0x407d, .lit 0, .str 1), (0x407e, .lit 0, .str 0)] } := by
    rw [h.pc]; decide +kernel
  obtain ⟨s', h1, h2⟩ := hop_of_sym_jump hb (rel_start (ptr := .ring) h.ptr rfl h.ring.ring (lined_code h) h.ring.avail) hrun
    (j := 0) (by decide +kernel)
  have hw := ring_of_rel h.ring h2 rfl rfl
  have id := idle_of_rel h2 rfl rfl
  refine ⟨s', h1, ⟨intact_of_codeOk h2.code, hw.auto, by rw [h2.ptr]; rfl, hw.ring, hw.rd, hw.freed, ?_, by rw [h2.x]; rfl⟩,
    id, h2.pc, h2.cycles, h2.clicks⟩
  rw [id.freed]
  exact Nat.le_trans h.block h2.arrived

/-- The NOP opcode. -/
theorem nop_hop {e : Env} {s : Mach} {r : Nat} (h : Playing e s r) (hpc : s.pc = 0x4070) (ha : r + 2 ≤ s.w.arrived) :
    ∃ s', Hop e s r 5 2 s' ∧ Playing e s' (r + 2) ∧ Idle s s' ∧
      s'.pc = 256 * (e.byte r).toNat + (e.byte (r + 1)).toNat ∧ s'.cycles = s.cycles + 19 ∧ s'.clicks = s.clicks := by
  have hrun : symRun false 2 4 (symStart s.pc) =
      some { symStart 0x407c with y := .str 1, reads := 2, cyc := 16, wr := [(0x407d, .lit 0, .str 1), (0x407e, .lit 0, .str 0)] } := by
    rw [hpc]; decide +kernel
  obtain ⟨s', h1, h2⟩ := hop_of_sym_jump (base_of_playing h ha) (start_of_playing h (by omega)) hrun
    (j := 0) (by decide +kernel)
  exact ⟨s', h1, playing_of_rel h h2 rfl rfl rfl rfl rfl, idle_of_rel h2 rfl rfl, h2.pc, h2.cycles,
    by rw [h2.clicks]; exact List.append_nil _⟩

theorem tickLen_le (i : Nat) : 18 ≤ tickLen i + 1 := by
  unfold tickLen
  cases Nat.beq i 7 || Nat.beq i 16 <;> decide

/-- A tick opcode (see `tick_run`) as a piece of an execution. -/
theorem tick_hop {e : Env} {s : Mach} {r i p : Nat} (h : Playing e s r) (hn : r + 7 ≤ s.w.arrived)
    (hi : i < 32) (hp : 32 ≤ p) (hp' : p < 64) (hpc : s.pc = sym (.opTick (4 + 2 * i) p)) :
    ∃ n s', 18 ≤ n ∧ Hop e s r n 7 s' ∧ Playing e s' (r + 7) ∧
      s'.pc = 256 * (e.byte (r + 5)).toNat + (e.byte (r + 6)).toNat ∧
      s'.cycles = s.cycles + 73 ∧ s'.clicks = s.clicks ++ [s.cycles + 4, s.cycles + 4 + pulse i] ∧
      SameMemory s' (s.draw p (e.byte r) [e.byte (r + 1), e.byte (r + 2), e.byte (r + 3), e.byte (r + 4)]) ∧
      s'.sw = s.sw ∧ s'.w.freed = s.w.freed := by
  obtain ⟨s', h1, h2, h3, h4, h5, h6, h7, h8, h9, -⟩ := tick_run h hn hi hp hp' hpc
  obtain ⟨σ, g1, g2, g3, -⟩ := tick_facts hi hp hp'
  rw [← hpc] at g1
  obtain ⟨t, k1, k2⟩ := hop_of_sym_jump (base_of_playing h hn) (start_of_playing h (by omega)) g1 g2
  have : t = s' := by
    have := k1.run
    rw [h1] at this
    exact (Option.some.inj this).symm
  subst this
  rw [g3] at k1
  exact ⟨_, t, tickLen_le i, k1, h2, h3, h4, h5, h7, h8, h9⟩

theorem playing_env {e : Env} {s : Mach} {r : Nat} (h : Playing e s r) : Playing e (s.env e) r := by
  have w := traffic_same e.file (e.link s.time) (e.deliver s.time) s.w
  exact ⟨h.intact, by rw [← h.auto]; exact congrArg (·.getLsbD 1) w.mode, w.ptr.trans h.ptr, traffic_ring e _ _ s.w h.ring,
    w.rd.trans (h.rd.trans (by show _ = (W5100.traffic _ _ _ _).freed % 65536; rw [w.freed])), by have := h.freed; exact Nat.le_trans (Nat.le_of_eq w.freed) this,
    Nat.le_trans (by have := w.freed; have := h.block; show (W5100.traffic _ _ _ _).freed + 2048 ≤ _; omega) w.arrived, h.x⟩

theorem playing_sw {e : Env} {s s' : Mach} {r : Nat} (h : Playing e s r) (h1 : s'.main = s.main) (h2 : s'.w = s.w)
    (h3 : s'.x = s.x) : Playing e s' r :=
  ⟨by rw [h1]; exact h.intact, by rw [h2]; exact h.auto, by rw [h2]; exact h.ptr, by rw [h2]; exact h.ring,
   by rw [h2]; exact h.rd, by rw [h2]; exact h.freed, by rw [h2]; exact h.block, by rw [h3]; exact h.x⟩

/-- The soft switch of an ACK. -/
theorem ack_switch {e : Env} {s : Mach} {r : Nat} {b : U8} (h : Playing e s r) (hpc : s.pc = 0xba7b)
    (hb : s.main 0xba7c = b) {a : Bool} (ha : b = if a then 0x55#8 else 0x54#8) :
    ∃ s', s.step e = some s' ∧ Playing e s' r ∧ s'.pc = 0xba7e ∧ s'.cycles = s.cycles + 4 ∧ s'.clicks = s.clicks ∧
      s'.main = s.main ∧ s'.aux = s.aux ∧ s'.sw = { s.sw with page2 := a } ∧ s'.w.freed = s.w.freed ∧
      s'.w.log = s.w.log ∧ s.w.arrived ≤ s'.w.arrived ∧ s'.w.regs = s.w.regs ∧ s'.kbd = (s.env e).kbd := by
  have hc := codeOk_of_intact h.intact
  have w := traffic_same e.file (e.link s.time) (e.deliver s.time) s.w
  have r1 : ∀ q, 0x4000 ≤ q → (s.env e).ram q = s.main q := by
    intro q hq
    unfold Mach.ram
    rw [steered_code (s.env e) (.inr hq)]
    rfl
  have hf : (s.env e).fetch = some (.staA (if a then 0xc055 else 0xc054)) := by
    unfold Mach.fetch
    have hp : (s.env e).pc = 0xba7b := hpc
    rw [hp, r1 _ (by decide), r1 _ (by decide), r1 _ (by decide), hc 0xba7b 0x8d (by decide +kernel), hb,
      hc (0xba7b + 2) 0xc0 (by decide +kernel), ha]
    cases a <;> rfl
  have hs : ∃ s', s.step e = some s' ∧ s' = { s.env e with pc := 0xba7e, cycles := s.cycles + 4, sw := { s.sw with page2 := a } } := by
    refine ⟨_, ?_, rfl⟩
    unfold Mach.step
    dsimp only
    rw [hf]
    have hp : (s.env e).pc = 0xba7b := hpc
    rw [hp]
    cases a <;> rfl
  obtain ⟨s', h1, h2⟩ := hs
  subst h2
  exact ⟨_, h1, playing_sw (playing_env h) rfl rfl rfl, rfl, rfl, rfl, rfl, rfl, rfl, w.freed, w.log, w.arrived, w.regs, rfl⟩

/-- The ACK opcode up to the look at the received size. -/
theorem ack_hop {e : Env} {s : Mach} {r : Nat} {a : Bool} (h : Playing e s r) (hpc : s.pc = 0xba72) (hr : r % 2048 = 2046)
    (hav : r + 2 ≤ s.w.arrived) (hfr : s.w.freed + 2048 = r + 2) (hb : e.byte r = if a then 0x55#8 else 0x54#8) :
    ∃ s', Hop e s r 25 2 s' ∧ Ready e s' (r + 2) ∧ s'.w.freed = r + 2 ∧ SameMemory s' s ∧ s'.sw = { s.sw with page2 := a } ∧
      s'.cycles = s.cycles + 83 ∧ s'.clicks = s.clicks ++ [s.cycles + 4, s.cycles + 38, s.cycles + 77] ∧
      s'.x = 0#8 ∧ s'.w.regs = s.w.regs := by
  have run1 : symRun false 1 3 (symStart s.pc) =
      some { symStart 0xba7b with a := .str 0, reads := 1, cyc := 12, clk := [4], wr := [(0xba7c, .lit 0, .str 0)] } := by
    rw [hpc]; decide +kernel
  obtain ⟨t1, a1, a2⟩ := hop_of_sym (base_of_playing h (by omega)) (start_of_playing h (by omega)) run1
  have p1 : Playing e t1 (r + 1) := playing_of_rel h a2 rfl rfl rfl rfl rfl
  have b1 : t1.main 0xba7c = e.byte r := by
    rw [a2.main]
    exact lookup_main e s r (by decide) (steered_code s (.inr (by decide))) _ (v := .str 0) (by decide +kernel)
  obtain ⟨t2, c1, c2, c3, c4, c5, c6, c7, c8, c9, c10, c11, c12, c13⟩ := ack_switch p1 a2.pc b1 hb
  have f1 : t1.w.freed = s.w.freed := a2.freed
  have g1 := a2.arrived
  have run2 : symRun false 1 21 (symStart t2.pc) =
      some { symStart 0x403f with a := .lit 0x26, y := .ringHi 1, ptr := .reg (.lit 4) (.lit 0x26), reads := 1, cyc := 67, clk := [61, 22], rdw := true, recv := true } := by
    rw [c3]; decide +kernel
  obtain ⟨t3, d1, d2⟩ := hop_of_sym (base_of_playing c2 (by omega)) (start_of_playing c2 (by omega)) run2
  have hop2 : Hop e t1 (r + 1) 1 0 t2 := hop_one c1 (by omega)
    (fun q _ => by rw [c6, c7]; exact ⟨rfl, fun _ _ => rfl⟩) (by rw [bytes_zero, List.append_nil]; exact c10) c11 (.inl c13)
  have hop := a1.trans (hop2.trans0 d1)
  have e1 : t3.w.freed = r + 2 := by
    rw [d2.freed]
    show t2.w.freed + 2048 = _
    omega
  have e2 := d2.arrived
  have hx : t3.x = 0#8 := by rw [d2.x]; rfl
  refine ⟨t3, hop, ⟨intact_of_codeOk d2.code, d2.pc, by rw [d2.ptr]; rfl, ⟨?_, d2.ring, ?_, ?_, ?_⟩, ?_⟩, e1, ?_, ?_, ?_, ?_, hx, ?_⟩
  · rw [d2.mode]; exact c2.auto
  · rw [e1, d2.rd]
    show (t2.w.rd + 2048) % 65536 = _
    rw [c2.rd, c9, f1, Nat.mod_add_mod]
    congr 1
  · exact Nat.le_of_eq e1
  · omega
  · rw [hx, d2.y]
    show 256 * (BitVec.ofNat 8 ((0x6000 + (r + 1 + 1) % 8192) / 256)).toNat + 0 = _
    rw [BitVec.toNat_ofNat]
    omega
  · exact (same_of_rel d2 rfl).trans (SameMemory.trans (fun q _ _ => by rw [c6, c7]; exact ⟨rfl, rfl⟩) (same_of_rel a2 rfl))
  · rw [d2.sw, c8, a2.sw]
  · rw [d2.cycles, c4, a2.cycles]
    show s.cycles + 12 + 4 + 67 = _
    omega
  · rw [d2.clicks, c5, a2.clicks, c4, a2.cycles]
    simp [Nat.add_assoc]
  · rw [d2.regs, c12, a2.regs]

end IIVision.Player
