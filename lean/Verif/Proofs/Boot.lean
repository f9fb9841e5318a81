import Verif.Proofs.Start

/-! The header opcode: switches, clearing the screen, video mode. -/

namespace IIVision.Player

open Spec

/-- In the course of the header opcode, in the code at $4000, after a path from `s0` that has
read `r` bytes; `mz` and `az` tell whether the screen memory of the banks has been cleared. -/
structure Boot (e : Env) (s0 s : Mach) (r pc : Nat) (sw : Switches) (mz az : Bool) : Prop where
  pc : s.pc = pc
  code : CodeOk false s.main
  sw : s.sw = sw
  ptr : s.w.ptr = 0x6000 + r % 8192
  ring : RingW e s.w r
  avail : 256 ≤ s.w.arrived
  freed : s.w.freed = 0
  path : ∃ n, Path e s0 0 n r s
  mz : mz = true → Cleared s.main
  az : az = true → Cleared s.aux

theorem path_snoc {e : Env} {s0 s s' : Mach} {r k : Nat} (hp : ∃ n, Path e s0 0 n r s) (hs : s.step e = some s')
    (ha : r ≤ s.w.arrived) (ho : OnlyStartup s s') (hl : s'.w.log = s.w.log ++ e.bytes r k) (h1 : r + k ≤ s'.w.arrived) :
    ∃ n, Path e s0 0 n (r + k) s' := by
  obtain ⟨n, hp⟩ := hp
  have := hp.trans (s'' := s') (n' := 1) (k' := k) (by rw [Nat.zero_add]; exact path_one hs ha ho hl h1)
  exact ⟨_, this⟩

/-- A step that changes nothing but the switches. -/
theorem boot_switch {e : Env} {s0 s : Mach} {r pc : Nat} {sw : Switches} {mz az : Bool} (h : Boot e s0 s r pc sw mz az)
    {addr : Nat} {f : Switches → Switches} (hw : ∀ (s : Mach) v, s.write addr v = some { s with sw := f s.sw })
    (hf : symFetch false pc = some (.staA addr)) : ∃ s', Boot e s0 s' r (pc + 3) (f sw) mz az := by
  have se := soft_env e s
  have w := traffic_same e.file (e.link s.time) (e.deliver s.time) s.w
  let s' : Mach := { ({ s.env e with pc := s.pc + 3, cycles := s.cycles + 4 } : Mach) with sw := f s.sw }
  have st : s.step e = some s' := by
    rw [step_code h.code (fun h => by cases h) (by rw [h.pc]; exact hf)]
    exact hw _ _
  refine ⟨s', ⟨?_, h.code, ?_, ?_, se.ring r h.ring, Nat.le_trans h.avail w.arrived, w.freed.trans h.freed, ?_, h.mz, h.az⟩⟩
  · show s.pc + 3 = _; rw [h.pc]
  · show f s.sw = _; rw [h.sw]
  · exact w.ptr.trans h.ptr
  · exact path_snoc (k := 0) h.path st h.ring.avail (fun q _ => ⟨rfl, fun _ _ _ _ => rfl⟩)
      (by rw [bytes_zero, List.append_nil]; exact w.log) (Nat.le_trans h.ring.avail w.arrived)

theorem boot_lda {e : Env} {s0 s : Mach} {r pc : Nat} {sw : Switches} {mz az : Bool} (h : Boot e s0 s r pc sw mz az)
    {v : Nat} (hf : symFetch false pc = some (.ldaI v)) :
    ∃ s', Boot e s0 s' r (pc + 2) sw mz az ∧ s'.a = BitVec.ofNat 8 v := by
  obtain ⟨s', h1, h2, h3, h4, h5⟩ := step_ldai (e := e) h.code (fun h => by cases h) (by rw [h.pc]; exact hf)
  refine ⟨s', ⟨by rw [h3, h.pc], by rw [h2.main]; exact h.code, by rw [h2.sw]; exact h.sw, by rw [h4]; exact h.ptr,
    h2.ring r h.ring, Nat.le_trans h.avail h2.arrived, by rw [h2.freed]; exact h.freed, ?_, by rw [h2.main]; exact h.mz,
    by rw [h2.aux]; exact h.az⟩, h5⟩
  exact path_snoc (k := 0) h.path h1 h.ring.avail (only_soft h2).startup
      (by rw [bytes_zero, List.append_nil]; exact h2.log) (Nat.le_trans h.ring.avail h2.arrived)

/-- Setting the page for HCLR, and calling it. -/
theorem boot_clear {e : Env} {s0 s : Mach} {r pc : Nat} {sw : Switches} {mz az : Bool} (h : Boot e s0 s r pc sw mz az)
    (hf1 : symFetch false pc = some (.ldaI 0x20)) (hf2 : symFetch false (pc + 2) = some (.staZ 0xe6))
    (hf3 : symFetch false (pc + 4) = some (.jsr 0xf3f2)) :
    ∃ s', Boot e s0 s' r (pc + 7) sw (mz || !s.steered 0x2000) (az || s.steered 0x2000) := by
  obtain ⟨t, h1, ha⟩ := boot_lda h hf1
  have st1 : t.steered 0x2000 = s.steered 0x2000 := steered_congr (by rw [h1.sw, h.sw]) _
  rw [← st1]
  clear h st1
  -- store
  obtain ⟨u, h2, he, hsw⟩ : ∃ u, Boot e s0 u r (pc + 4) sw mz az ∧ u.main 0xe6 = 0x20#8 ∧ u.sw = t.sw := by
    have w := traffic_same e.file (e.link t.time) (e.deliver t.time) t.w
    have hst : ({ t.env e with pc := t.pc + 2, cycles := t.cycles + 3 } : Mach).steered 0xe6 = false := by
      unfold Mach.steered; simp
    let u : Mach := { ({ t.env e with pc := t.pc + 2, cycles := t.cycles + 3 } : Mach) with main := fun q => if q = 0xe6 then t.a else t.main q }
    have st : t.step e = some u := by
      rw [step_code h1.code (fun h => by cases h) (by rw [h1.pc]; exact hf2)]
      show Mach.write _ _ _ = _
      rw [write_low _ (by decide)]
      unfold Mach.store
      show some (if ({ t.env e with pc := t.pc + 2, cycles := t.cycles + 3 } : Mach).steered 0xe6 = true then _ else _) = _
      rw [hst, if_neg (by decide)]
      rfl
    refine ⟨u, ⟨?_, ?_, h1.sw, w.ptr.trans h1.ptr, (soft_env e t).ring r h1.ring, Nat.le_trans h1.avail w.arrived,
      w.freed.trans h1.freed, ?_, ?_, h1.az⟩, ?_, rfl⟩
    · show t.pc + 2 = _; rw [h1.pc]
    · intro q b hc
      show (if q = 0xe6 then t.a else t.main q) = _
      rw [if_neg, h1.code q b hc]
      rintro rfl
      rcases codeByte_cases hc with ⟨h, -⟩ | ⟨h, -⟩ | ⟨h, -⟩
      · exact absurd h (by decide)
      · exact absurd h (by decide)
      · exact absurd h (by decide)
    · refine path_snoc (k := 0) h1.path st h1.ring.avail (fun q _ => ⟨rfl, fun _ _ h3 _ => ?_⟩)
        (by rw [bytes_zero, List.append_nil]; exact w.log) (Nat.le_trans h1.ring.avail w.arrived)
      exact if_neg h3
    · intro hm q hq hq'
      show (if q = 0xe6 then t.a else t.main q) = _
      rw [if_neg (by omega)]
      exact h1.mz hm q hq hq'
    · show (if 0xe6 = 0xe6 then t.a else t.main 0xe6) = _
      rw [if_pos rfl, ha]
  rw [show t.steered 0x2000 = u.steered 0x2000 from steered_congr hsw.symm _]
  clear h1 ha hsw
  have w := traffic_same e.file (e.link u.time) (e.deliver u.time) u.w
  have hst : ({ u.env e with pc := u.pc + 3, cycles := u.cycles + 6 } : Mach).steered 0x2000 = u.steered 0x2000 := rfl
  let clear (m : Nat → U8) (q : Nat) : U8 := if 0x2000 ≤ q ∧ q < 0x4000 then 0#8 else m q
  let R := e.rom (u.time + 1)
  let m (q : Nat) : U8 := if 0x1a ≤ q ∧ q ≤ 0x1c then R.zp q else u.main q
  let s' : Mach := { ({ u.env e with pc := u.pc + 3 } : Mach) with
      a := R.a, x := R.x, y := R.y, n := R.n, z := R.z, c := R.c, cycles := u.cycles + 6 + R.cycles,
      main := if u.steered 0x2000 then m else clear m
      aux := if u.steered 0x2000 then clear u.aux else u.aux }
  have st : u.step e = some s' := by
    rw [step_code h2.code (fun h => by cases h) (by rw [h2.pc]; exact hf3)]
    show (if 0xf3f2 = 0xf3f2 then Mach.hclr _ _ else none) = _
    rw [if_pos rfl]
    unfold Mach.hclr
    rw [if_pos (by exact he)]
    rfl
  refine ⟨s', ⟨?_, ?_, h2.sw, w.ptr.trans h2.ptr, (soft_env e u).ring r h2.ring, Nat.le_trans h2.avail w.arrived,
      w.freed.trans h2.freed, path_snoc (k := 0) h2.path st h2.ring.avail ?_
        (by rw [bytes_zero, List.append_nil]; exact w.log) (Nat.le_trans h2.ring.avail w.arrived), ?_, ?_⟩⟩
  · show u.pc + 3 = _; rw [h2.pc]
  · intro q b hc
    have hq : ¬ (0x2000 ≤ q ∧ q < 0x4000) ∧ ¬ (0x1a ≤ q ∧ q ≤ 0x1c) := by
      rcases codeByte_cases hc with ⟨h, h', -⟩ | ⟨h, -⟩ | ⟨h, -⟩
      · omega
      · cases h
      · omega
    show (if u.steered 0x2000 = true then m else clear m) q = _
    have : m q = BitVec.ofNat 8 b := by show (if _ then _ else _) = _; rw [if_neg hq.2]; exact h2.code q b hc
    split
    · exact this
    · show (if _ then _ else _) = _; rw [if_neg hq.1]; exact this
  · intro q hq
    have hm : ¬ (0x1a ≤ q ∧ q ≤ 0x1c) → m q = u.main q := fun h => if_neg h
    constructor
    · show (if u.steered 0x2000 = true then clear u.aux else u.aux) q = _
      split
      · exact if_neg hq
      · rfl
    · intro _ h4 _ _
      show (if u.steered 0x2000 = true then m else clear m) q = _
      split
      · exact hm h4
      · exact (if_neg hq).trans (hm h4)
  · intro hmz q hq hq'
    show (if u.steered 0x2000 = true then m else clear m) q = _
    cases hs : u.steered 0x2000 with
    | true =>
      rw [hs, Bool.not_true, Bool.or_false] at hmz
      rw [if_pos rfl]
      show (if _ then _ else _) = _
      rw [if_neg (by omega)]
      exact h2.mz hmz q hq hq'
    | false => rw [if_neg (by decide)]; exact if_pos ⟨hq, hq'⟩
  · intro haz q hq hq'
    show (if u.steered 0x2000 = true then clear u.aux else u.aux) q = _
    cases hs : u.steered 0x2000 with
    | true => rw [if_pos rfl]; exact if_pos ⟨hq, hq'⟩
    | false =>
      rw [hs, Bool.or_false] at haz
      rw [if_neg (by decide)]
      exact h2.az haz q hq hq'

/-- Reading a byte. -/
theorem boot_read {e : Env} {s0 s : Mach} {r pc : Nat} {sw : Switches} {mz az : Bool} (h : Boot e s0 s r pc sw mz az)
    (hr : r < 256) (hf : symFetch false pc = some (.ldaA 0xc097)) :
    ∃ s', Boot e s0 s' (r + 1) (pc + 3) sw mz az ∧ s'.z = (e.byte r == 0#8) := by
  have se := soft_env e s
  have hr' := se.ring r h.ring
  have w := traffic_same e.file (e.link s.time) (e.deliver s.time) s.w
  have hp : (s.env e).w.ptr = 0x6000 + r % 8192 := w.ptr.trans h.ptr
  have hfr : (s.env e).w.freed = 0 := w.freed.trans h.freed
  have hav : 256 ≤ (s.env e).w.arrived := Nat.le_trans h.avail w.arrived
  have hv : (s.env e).w.rx ((s.env e).w.ptr - 0x6000) = e.byte r := by
    rw [hp, Nat.add_sub_cancel_left]
    apply hr'.ring.content
    · omega
    · have := hr'.ring.window; omega
  have hd : (s.env e).w.readData = (e.byte r, { (s.env e).w with ptr := 0x6000 + (r + 1) % 8192, log := s.w.log ++ [e.byte r] }) := by
    unfold W5100.readData
    dsimp only
    rw [if_pos (by rw [hp]; omega), hv, advance_eq hr'.auto, hp, inc_ring]
    have hl : (s.env e).w.log = s.w.log := w.log
    rw [hl]
  let s' : Mach := { ({ s.env e with pc := s.pc + 3, cycles := s.cycles + 4 } : Mach) with
      w := { (s.env e).w with ptr := 0x6000 + (r + 1) % 8192, log := s.w.log ++ [e.byte r] }
      n := (e.byte r).getLsbD 7, z := e.byte r == 0#8, a := e.byte r }
  have st : s.step e = some s' := by
    rw [step_code h.code (fun h => by cases h) (by rw [h.pc]; exact hf)]
    show some { (Mach.setNZ _ (s.env e).w.readData.1) with a := (s.env e).w.readData.1 } = _
    unfold Mach.setNZ
    show some ({ ({ s.env e with pc := s.pc + 3, cycles := s.cycles + 4, w := (s.env e).w.readData.2 } : Mach) with n := _, z := _, a := _ } : Mach) = _
    rw [hd]
  refine ⟨s', ⟨?_, h.code, h.sw, rfl, ⟨hr'.auto, ⟨hr'.ring.content, hr'.ring.window, hr'.ring.freed, hr'.ring.file, hr'.ring.up⟩, hr'.rd, ?_, ?_⟩, hav, hfr,
    path_snoc (k := 1) h.path st h.ring.avail ?_ rfl ?_, h.mz, h.az⟩, rfl⟩
  · show s.pc + 3 = _; rw [h.pc]
  · exact Nat.le_succ_of_le hr'.freed
  · show r + 1 ≤ (s.env e).w.arrived; omega
  · exact fun q _ => ⟨rfl, fun _ _ _ _ => rfl⟩
  · show r + 1 ≤ (s.env e).w.arrived; omega

theorem boot_beq {e : Env} {s0 s : Mach} {r pc : Nat} {sw : Switches} {mz az : Bool} (h : Boot e s0 s r pc sw mz az)
    {d : Nat} (hf : symFetch false pc = some (.beq d)) :
    ∃ s', Boot e s0 s' r (if s.z then branchTarget (pc + 2) d else pc + 2) sw mz az := by
  obtain ⟨s', h1, h2, h3, -, h4, h5⟩ := step_beq (e := e) h.code (fun h => by cases h) (by rw [h.pc]; exact hf)
  rw [h.pc] at h4 h5
  refine ⟨s', ⟨?_, by rw [h2.main]; exact h.code, by rw [h2.sw]; exact h.sw, by rw [h3]; exact h.ptr,
    h2.ring r h.ring, Nat.le_trans h.avail h2.arrived, by rw [h2.freed]; exact h.freed, ?_, by rw [h2.main]; exact h.mz,
    by rw [h2.aux]; exact h.az⟩⟩
  · cases hz : s.z with
    | true => exact (h4 hz).1
    | false => exact (h5 hz).1
  · exact path_snoc (k := 0) h.path h1 h.ring.avail (only_soft h2).startup
      (by rw [bytes_zero, List.append_nil]; exact h2.log) (Nat.le_trans h.ring.avail h2.arrived)

theorem boot_start {e : Env} {s : Mach} (h : Heading e s) : ∃ s', Boot e s s' 6 0x4000 s.sw false false := by
  have hb : Base e true s 0 7 := ⟨h.ring.auto, fun _ => not_steered h.page2 _, h.ring.rd, h.ring.freed,
    by have := h.avail; omega, fun h => absurd h (by decide)⟩
  have run1 : symRun true 7 4 { symStart s.pc with x := .ix, ptr := .reg (.lit 4) (.lit 0x27) } =
      some { symStart 0x2165 with a := .lit 0, x := .ix, ptr := .reg (.lit 0x60) (.lit 0), cyc := 12 } := by
    rw [h.pc]; decide +kernel
  obtain ⟨t, h1, h2⟩ := hop_of_sym hb (rel_start (by rw [h.ptr]; rfl) rfl h.ring.ring h.code h.ring.avail) run1
  have hpc : t.pc = 0x2165 := h2.pc
  have hr1 : RingW e t.w 0 := ring_of_rel h.ring h2 rfl rfl
  have hfr : t.w.freed = 0 := h2.freed.trans h.freed
  have hav := h2.arrived
  have hav0 := h.avail
  have hb1 : Base e true t 0 7 := ⟨hr1.auto, fun _ => not_steered (by rw [h2.sw]; exact h.page2) _, hr1.rd, hr1.freed,
    by omega, fun h => absurd h (by decide)⟩
  have run2 : symRun true 7 7 { symStart t.pc with x := .ix, ptr := .ring } =
      some { symStart 0x4000 with a := .str 5, x := .ix, ptr := .ring, reads := 6, cyc := 27 } := by
    rw [hpc]; decide +kernel
  obtain ⟨u, k1, k2⟩ := hop_of_sym hb1 (rel_start (by rw [h2.ptr]; rfl) rfl hr1.ring h2.code hr1.avail) run2
  refine ⟨u, ⟨k2.pc, ?_, ?_, by rw [k2.ptr]; rfl, ring_of_rel hr1 k2 rfl rfl, ?_, k2.freed.trans hfr, ⟨_, (h1.trans0 k1).path⟩,
    fun h => (by cases h), fun h => (by cases h)⟩⟩
  · intro q b hc
    apply k2.code q b
    rcases codeByte_cases hc with ⟨g1, g2, g3, g4⟩ | ⟨g, -⟩ | ⟨g1, g2, g3, g4⟩
    · have := codeByte_low g1 g2 g3
      rw [← hc]
      unfold codeByte
      have e1 : Nat.blt q 0x1ffe = true := by rw [Nat.blt_eq]; exact g2
      rw [e1]; rfl
    · cases g
    · rw [← hc]
      unfold codeByte
      have e1 : Nat.blt q 0x1ffe = false := by rw [Bool.eq_false_iff, ne_eq, Nat.blt_eq]; omega
      have e2 : Nat.blt q 0x4000 = false := by rw [Bool.eq_false_iff, ne_eq, Nat.blt_eq]; omega
      rw [e1, e2]; rfl
  · rw [k2.sw, h2.sw]
  · have := k2.arrived; omega

theorem steered_of {s : Mach} {sw : Switches} (h : s.sw = sw) (h1 : sw.hires = true) :
    s.steered 0x2000 = (sw.store80 && sw.page2) := by
  unfold Mach.steered; rw [h, h1]; simp

/-- From the header to the loop that waits for the first block. -/
theorem boot_ready {e : Env} {s : Mach} {mode : VideoMode} (h : Heading e s) (hm : e.byte 6 = BitVec.ofNat 8 mode.value) :
    ∃ n s', Path e s 0 n 7 s' ∧ Ready e s' 7 ∧ s'.w.freed = 0 ∧ s'.sw = Switches.For mode s.sw ∧
      Cleared s'.main ∧ (mode = .DHGR → Cleared s'.aux) := by
  obtain ⟨t, b⟩ := boot_start h
  obtain ⟨t, b⟩ := boot_switch b (f := fun sw => { sw with hires := true }) (addr := 0xc057) (fun _ _ => rfl) (by decide +kernel)
  obtain ⟨t, b⟩ := boot_switch b (f := fun sw => { sw with mixed := false }) (addr := 0xc052) (fun _ _ => rfl) (by decide +kernel)
  have hs := steered_of b.sw rfl
  dsimp only at hs
  rw [h.page2, Bool.and_false] at hs
  obtain ⟨t, b⟩ := boot_clear b (by decide +kernel) (by decide +kernel) (by decide +kernel)
  rw [hs] at b
  obtain ⟨t, b, hz⟩ := boot_read b (by decide) (by decide +kernel)
  obtain ⟨t', b⟩ := boot_beq b (d := 25) (by decide +kernel)
  rw [hm] at hz
  -- the last part
  have fin : ∀ {u : Mach} {sw : Switches} {mz az : Bool}, Boot e s u 7 0x402b sw true az → { sw with text := false } = Switches.For mode s.sw →
      (mode = .DHGR → az = true) → ∃ n s', Path e s 0 n 7 s' ∧ Ready e s' 7 ∧ s'.w.freed = 0 ∧ s'.sw = Switches.For mode s.sw ∧
      Cleared s'.main ∧ (mode = .DHGR → Cleared s'.aux) := by
    intro u sw mz az b hsw haz
    obtain ⟨u, b⟩ := boot_switch b (f := fun sw => { sw with text := false }) (addr := 0xc050) (fun _ _ => rfl) (by decide +kernel)
    have hpc : u.pc = 0x402e := b.pc
    have run : symRun false 0 7 { symStart u.pc with x := .ix, ptr := .ring } =
        some { symStart 0x403f with a := .lit 0x26, x := .lit 7, y := .lit 0x60, ptr := .reg (.lit 4) (.lit 0x26), cyc := 20, clk := [14] } := by
      rw [hpc]; decide +kernel
    obtain ⟨v, k1, k2⟩ := hop_of_sym (base_of_ring b.ring) (rel_start (by rw [b.ptr]; rfl) rfl b.ring.ring b.code b.ring.avail) run
    obtain ⟨n, p⟩ := b.path
    have hr := ring_of_rel b.ring k2 rfl rfl
    have hmain : v.main = u.main := k2.main
    have haux : v.aux = u.aux := k2.aux
    refine ⟨n + 7, v, p.trans (by rw [Nat.zero_add]; exact k1.path), ⟨intact_of_codeOk k2.code, k2.pc, by rw [k2.ptr]; rfl, hr, ?_⟩,
      k2.freed.trans b.freed, by rw [k2.sw, b.sw, hsw], by rw [hmain]; exact b.mz rfl, fun h => by rw [haux]; exact b.az (haz h)⟩
    rw [k2.y, k2.x]; rfl
  cases mode with
  | HGR =>
    have hz' : t.z = true := hz
    rw [hz'] at b
    have hp2 := h.page2
    exact fin (mz := true) b (by show ({ s.sw with text := _, mixed := _, hires := _ } : Switches) = _; unfold Switches.For; rw [← hp2]) (fun h => by cases h)
  | DHGR =>
    have hz' : t.z = false := hz
    rw [hz'] at b
    obtain ⟨t, b⟩ := boot_switch b (f := fun sw => { sw with store80 := true }) (addr := 0xc001) (fun _ _ => rfl) (by decide +kernel)
    obtain ⟨t, b⟩ := boot_switch b (f := fun sw => { sw with page2 := true }) (addr := 0xc055) (fun _ _ => rfl) (by decide +kernel)
    have hs := steered_of b.sw rfl
    obtain ⟨t, b⟩ := boot_clear b (by decide +kernel) (by decide +kernel) (by decide +kernel)
    rw [hs] at b
    obtain ⟨t, b⟩ := boot_switch b (f := fun sw => { sw with page2 := false }) (addr := 0xc054) (fun _ _ => rfl) (by decide +kernel)
    obtain ⟨t, b⟩ := boot_switch b (f := fun sw => { sw with text := false }) (addr := 0xc050) (fun _ _ => rfl) (by decide +kernel)
    obtain ⟨t, b⟩ := boot_switch b (f := fun sw => { sw with col80 := true }) (addr := 0xc00d) (fun _ _ => rfl) (by decide +kernel)
    obtain ⟨t, b⟩ := boot_switch b (f := fun sw => { sw with dhires := true }) (addr := 0xc05e) (fun _ _ => rfl) (by decide +kernel)
    exact fin (mz := true) b rfl (fun _ => rfl)

end IIVision.Player
