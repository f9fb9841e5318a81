import Verif.Proofs.Hop
import Verif.Spec.Play

/-! The slow path of the player: ACK, waiting for data, pausing, and the first dispatch of a
block. -/

namespace IIVision.Player

/-! ### Time and keyboard -/

/-- Between resets of the chip, accesses do not make bytes arrive, released ones stay released,
and a connection stays established. -/
structure Still (w w' : W5100) : Prop where
  arrived : w'.arrived = w.arrived
  freed : w.freed ≤ w'.freed
  sr : w.sr = stEstablished → w'.sr = stEstablished

/-- Accesses do not change the time; the keyboard latch at most loses its strobe; the chip is
still unless it is reset. -/
structure Calm (s s' : Mach) : Prop where
  time : s'.time = s.time
  kbd : s'.kbd = s.kbd ∨ s'.kbd = s.kbd &&& 0x7f#8
  resets : s.w.regs.resets ≤ s'.w.regs.resets
  still : s'.w.regs.resets = s.w.regs.resets → Still s.w s'.w
  fewer : s'.w.arrived ≤ s.w.arrived
  wiped : s'.w.regs.resets ≠ s.w.regs.resets → s'.w.arrived = 0

theorem Still.refl (w : W5100) : Still w w := ⟨rfl, Nat.le_refl _, id⟩

theorem Still.trans {w w' w'' : W5100} (h1 : Still w w') (h2 : Still w' w'') : Still w w'' :=
  ⟨h2.arrived.trans h1.arrived, Nat.le_trans h1.freed h2.freed, fun h => h2.sr (h1.sr h)⟩

theorem calm_still {s s' : Mach} (h1 : s'.time = s.time) (h2 : s'.kbd = s.kbd) (h3 : s'.w.regs.resets = s.w.regs.resets)
    (h4 : Still s.w s'.w) : Calm s s' := ⟨h1, .inl h2, Nat.le_of_eq h3.symm, fun _ => h4, Nat.le_of_eq h4.arrived, fun h => absurd h3 h⟩

theorem calm_of {s s' : Mach} (h1 : s'.time = s.time) (h2 : s'.kbd = s.kbd) (h3 : s'.w = s.w) : Calm s s' :=
  calm_still h1 h2 (by rw [h3]) (by rw [h3]; exact .refl _)

theorem Calm.refl (s : Mach) : Calm s s := calm_of rfl rfl rfl

theorem and_strobe (k : U8) : (k &&& 0x7f#8) &&& 0x7f#8 = k &&& 0x7f#8 := by
  rw [BitVec.and_assoc]; rfl

theorem Calm.trans {s t u : Mach} (h1 : Calm s t) (h2 : Calm t u) : Calm s u := by
  have r1 := h1.resets
  have r2 := h2.resets
  refine ⟨h2.time.trans h1.time, ?_, Nat.le_trans r1 r2, fun h => (h1.still (by omega)).trans (h2.still (by omega)),
    Nat.le_trans h2.fewer h1.fewer, fun h => ?_⟩
  rotate_left
  · by_cases hc : u.w.regs.resets = t.w.regs.resets
    · have := h1.wiped (by omega)
      have := h2.fewer
      omega
    · exact h2.wiped hc
  rcases h1.kbd with h | h <;> rcases h2.kbd with h' | h' <;> rw [h', h]
  · exact .inl rfl
  · exact .inr rfl
  · exact .inr rfl
  · exact .inr (and_strobe _)

theorem of_ite {α : Type} {c : Prop} [Decidable c] {x y z : α} {P : Prop} (h : (if c then x else y) = z)
    (hx : x = z → P) (hy : y = z → P) : P := by
  split at h
  · exact hx h
  · exact hy h

theorem some_calm {s t s' : Mach} (h : some t = some s') (h1 : t.time = s.time) (h2 : t.kbd = s.kbd) (h3 : t.w = s.w) :
    Calm s s' := by
  rw [← Option.some.inj h]; exact calm_of h1 h2 h3

theorem display_calm {s s' : Mach} {q : Nat} (h : s.display q = some s') : Calm s s' := by
  unfold Mach.display at h
  split at h
  all_goals try exact some_calm h rfl rfl rfl
  cases h

theorem store_calm (s : Mach) (q : Nat) (v : U8) : Calm s (s.store q v) := by
  unfold Mach.store; split <;> exact calm_of rfl rfl rfl

theorem advance_calm (w : W5100) : w.advance.regs = w.regs ∧ Still w w.advance := by
  unfold W5100.advance; split <;> exact ⟨rfl, ⟨rfl, Nat.le_refl _, id⟩⟩

theorem readData_calm (w : W5100) : w.readData.2.regs = w.regs ∧ Still w w.readData.2 := by
  have := advance_calm w
  unfold W5100.readData
  dsimp only
  repeat' split
  all_goals exact ⟨this.1, ⟨this.2.arrived, this.2.freed, this.2.sr⟩⟩

theorem writeData_calm (w : W5100) (v : U8) : (w.writeData v).regs.resets = w.regs.resets ∧ Still w (w.writeData v) := by
  have step : ∀ w' : W5100, w'.regs.resets = w.regs.resets → Still w w' →
      w'.advance.regs.resets = w.regs.resets ∧ Still w w'.advance :=
    fun w' h1 h2 => ⟨by rw [(advance_calm w').1]; exact h1, h2.trans (advance_calm w').2⟩
  unfold W5100.writeData
  dsimp only
  split
  · exact step _ rfl ⟨rfl, Nat.le_refl _, id⟩
  split
  · exact step _ rfl ⟨rfl, Nat.le_refl _, id⟩
  split
  · exact step _ rfl ⟨rfl, Nat.le_add_right _ _, id⟩
  split
  · refine step _ rfl ⟨rfl, Nat.le_refl _, fun h => ?_⟩
    show (if _ then _ else _) = _
    rw [if_neg (by rw [h]; exact fun h => absurd h.1 (by decide))]
    exact h
  split
  · refine step _ rfl ⟨rfl, Nat.le_refl _, fun h => ?_⟩
    show (if _ then _ else _) = _
    rw [if_neg (by rw [h]; decide)]
    exact h
  split
  · exact step _ rfl (.refl _)
  · exact step _ rfl ⟨rfl, Nat.le_refl _, id⟩

theorem strobe_calm (s : Mach) : Calm s s.strobe := ⟨rfl, .inr rfl, Nat.le_refl _, fun _ => .refl _, Nat.le_refl _, fun h => absurd rfl h⟩

theorem setMode_calm (s : Mach) (v : U8) : Calm s { s with w := s.w.setMode v } := by
  refine ⟨rfl, .inl rfl, ?_, ?_, ?_, ?_⟩
  · show _ ≤ (W5100.setMode s.w v).regs.resets
    unfold W5100.setMode
    split
    · exact Nat.le_succ _
    · exact Nat.le_refl _
  · show (W5100.setMode s.w v).regs.resets = _ → Still s.w (W5100.setMode s.w v)
    unfold W5100.setMode
    split
    · intro h; exact absurd h (Nat.succ_ne_self _)
    · intro _; exact ⟨rfl, Nat.le_refl _, id⟩
  · show (W5100.setMode s.w v).arrived ≤ _
    unfold W5100.setMode
    split
    · exact Nat.zero_le _
    · exact Nat.le_refl _
  · show (W5100.setMode s.w v).regs.resets ≠ _ → (W5100.setMode s.w v).arrived = 0
    unfold W5100.setMode
    split
    · intro _; rfl
    · intro h; exact absurd rfl h

theorem read_calm {s : Mach} {q : Nat} {r : U8 × Mach} (h : s.read q = some r) : Calm s r.2 := by
  have same : ∀ {t : U8 × Mach}, some t = some r → t.2.time = s.time → t.2.kbd = s.kbd → t.2.w = s.w → Calm s r.2 :=
    fun h h1 h2 h3 => by rw [← Option.some.inj h]; exact calm_of h1 h2 h3
  unfold Mach.read at h
  refine of_ite h (fun h => same h rfl rfl rfl) fun h => ?_
  refine of_ite h (fun h => same h rfl rfl rfl) fun h => ?_
  refine of_ite h (fun h => by rw [← Option.some.inj h]; exact strobe_calm s) fun h => ?_
  refine of_ite h (fun h => same h rfl rfl rfl) fun h => ?_
  refine of_ite h (fun h => same h rfl rfl rfl) fun h => ?_
  refine of_ite h (fun h => same h rfl rfl rfl) fun h => ?_
  refine of_ite h (fun h => same h rfl rfl rfl) fun h => ?_
  refine of_ite h (fun h => ?_) fun h => ?_
  · rw [← Option.some.inj h]
    exact calm_still rfl rfl (congrArg Regs.resets (readData_calm s.w).1) (readData_calm s.w).2
  · obtain ⟨t, h1, rfl⟩ := Option.map_eq_some_iff.mp h
    exact display_calm h1

theorem write_calm {s s' : Mach} {q : Nat} {v : U8} (h : s.write q v = some s') : Calm s s' := by
  unfold Mach.write at h
  refine of_ite h (fun h => by rw [← Option.some.inj h]; exact store_calm ..) fun h => ?_
  refine of_ite h (fun h => some_calm h rfl rfl rfl) fun h => ?_
  refine of_ite h (fun h => some_calm h rfl rfl rfl) fun h => ?_
  refine of_ite h (fun h => some_calm h rfl rfl rfl) fun h => ?_
  refine of_ite h (fun h => some_calm h rfl rfl rfl) fun h => ?_
  refine of_ite h (fun h => by rw [← Option.some.inj h]; exact strobe_calm s) fun h => ?_
  refine of_ite h (fun h => some_calm h rfl rfl rfl) fun h => ?_
  refine of_ite h (fun h => by rw [← Option.some.inj h]; exact setMode_calm ..) fun h => ?_
  refine of_ite h (fun h => by rw [← Option.some.inj h]; exact calm_still rfl rfl rfl ⟨rfl, Nat.le_refl _, id⟩) fun h => ?_
  refine of_ite h (fun h => by rw [← Option.some.inj h]; exact calm_still rfl rfl rfl ⟨rfl, Nat.le_refl _, id⟩) fun h => ?_
  refine of_ite h (fun h => ?_) fun h => ?_
  · rw [← Option.some.inj h]
    exact calm_still rfl rfl (writeData_calm s.w v).1 (writeData_calm s.w v).2
  refine of_ite h (fun h => some_calm h rfl rfl rfl) fun h => ?_
  exact display_calm h

theorem branch_calm (s : Mach) (b : Bool) (d : Nat) : Calm s (s.branch b d) := by
  unfold Mach.branch; split <;> exact calm_of rfl rfl rfl

theorem map_read_calm {s s' : Mach} {q : Nat} {g : U8 × Mach → Mach} (h1 : (s.read q).map g = some s')
    (h2 : ∀ r, Calm r.2 (g r)) : Calm s s' := by
  obtain ⟨r, h3, rfl⟩ := Option.map_eq_some_iff.mp h1
  exact (read_calm h3).trans (h2 r)

theorem modify_calm {s s' : Mach} {q : Nat} {f : U8 → U8}
    (h1 : ((s.read q).bind fun r => (r.2.write q (f r.1)).map fun s => s.setNZ (f r.1)) = some s') : Calm s s' := by
  obtain ⟨r, h3, h4⟩ := Option.bind_eq_some_iff.mp h1
  obtain ⟨t, h5, rfl⟩ := Option.map_eq_some_iff.mp h4
  exact (read_calm h3).trans ((write_calm h5).trans (calm_of rfl rfl rfl))

theorem hclr_calm {s s' : Mach} {r : Rom} (h : s.hclr r = some s') : Calm s s' := by
  unfold Mach.hclr at h
  exact of_ite h (fun h => some_calm h rfl rfl rfl) (fun h => by cases h)

theorem exec_calm {e : Env} {s s' : Mach} {i : Instr} (h : s.exec e i = some s') : Calm s s' := by
  cases i <;> rw [Mach.exec] at h
  · exact some_calm h rfl rfl rfl
  · exact some_calm h rfl rfl rfl
  · exact some_calm h rfl rfl rfl
  · exact map_read_calm h fun r => calm_of rfl rfl rfl
  · exact map_read_calm h fun r => calm_of rfl rfl rfl
  · exact map_read_calm h fun r => calm_of rfl rfl rfl
  · exact map_read_calm h fun r => calm_of rfl rfl rfl
  · exact map_read_calm h fun r => calm_of rfl rfl rfl
  · exact write_calm h
  · exact write_calm h
  · exact write_calm h
  · exact write_calm h
  · exact write_calm h
  · exact write_calm h
  · exact some_calm h rfl rfl rfl
  · exact some_calm h rfl rfl rfl
  · exact some_calm h rfl rfl rfl
  · exact some_calm h rfl rfl rfl
  · cases h
  · exact some_calm h rfl rfl rfl
  · exact some_calm h rfl rfl rfl
  · exact some_calm h rfl rfl rfl
  · exact some_calm h rfl rfl rfl
  · exact map_read_calm h fun r => calm_of rfl rfl rfl
  · exact modify_calm (f := fun b => b + 1#8) h
  · exact modify_calm (f := fun b => b - 1#8) h
  · exact some_calm h rfl rfl rfl
  · exact of_ite h hclr_calm (fun h => of_ite h (fun h => some_calm h rfl rfl rfl) (fun h => nomatch h))
  · rw [← Option.some.inj h]; exact branch_calm ..
  · rw [← Option.some.inj h]; exact branch_calm ..
  · rw [← Option.some.inj h]; exact branch_calm ..
  · rw [← Option.some.inj h]; exact branch_calm ..

theorem step_calm {e : Env} {s s' : Mach} (h : s.step e = some s') : Calm (s.env e) s' := by
  unfold Mach.step at h
  dsimp only at h
  split at h
  · have c := exec_calm h
    exact ⟨c.time, c.kbd, c.resets, c.still, c.fewer, c.wiped⟩
  · exact nomatch h

theorem run_time {e : Env} (n : Nat) : ∀ {s s' : Mach}, s.run e n = some s' → s'.time = s.time + n := by
  induction n with
  | zero => intro s s' h; cases h; rfl
  | succ n ih =>
    intro s s' h
    rw [run_succ] at h
    obtain ⟨t, h1, h2⟩ := Option.bind_eq_some_iff.mp h
    have := ih h2
    have h3 : t.time = s.time + 1 := (step_calm h1).time
    omega

theorem nokeys_env {e : Env} {s : Mach} (h : NoKeys e s) : (s.env e).kbd = s.kbd := by
  show (match e.key s.time with | some k => k ||| 0x80#8 | none => s.kbd) = _
  rw [h.2 _ (Nat.le_refl _)]

theorem nokeys_step {e : Env} {s s' : Mach} (h : NoKeys e s) (hs : s.step e = some s') : NoKeys e s' := by
  have c := step_calm hs
  refine ⟨?_, fun t ht => h.2 t ?_⟩
  · rcases c.kbd with h1 | h1 <;> rw [h1, nokeys_env h]
    · exact h.1
    · rw [BitVec.getLsbD_and, h.1]; rfl
  · have : s'.time = s.time + 1 := c.time
    omega

theorem nokeys_run {e : Env} (n : Nat) : ∀ {s s' : Mach}, NoKeys e s → s.run e n = some s' → NoKeys e s' := by
  induction n with
  | zero => intro s s' h h1; cases h1; exact h
  | succ n ih =>
    intro s s' h h1
    rw [run_succ] at h1
    obtain ⟨t, h2, h3⟩ := Option.bind_eq_some_iff.mp h1
    exact ih (nokeys_step h h2) h3

/-! ### Steps that only look around -/

/-- The chip while `r` is the next byte to read. -/
structure RingW (e : Env) (w : W5100) (r : Nat) : Prop where
  auto : w.mode.getLsbD 1 = true
  ring : RingOk e w
  rd : w.rd = w.freed % 65536
  freed : w.freed ≤ r
  avail : r ≤ w.arrived

theorem ringW_traffic {e : Env} {w : W5100} {r : Nat} (h : RingW e w r) (v : Option U8) (n : Nat) :
    RingW e (w.traffic e.file v n) r := by
  have := traffic_same e.file v n w
  exact ⟨by rw [this.mode]; exact h.auto, traffic_ring e v n w h.ring, by rw [this.rd, this.freed]; exact h.rd,
    by rw [this.freed]; exact h.freed, Nat.le_trans h.avail this.arrived⟩

theorem ringW_ptr {e : Env} {w : W5100} {r : Nat} (h : RingW e w r) (p : Nat) : RingW e { w with ptr := p } r :=
  ⟨h.auto, ⟨h.ring.content, h.ring.window, h.ring.freed, h.ring.file, h.ring.up⟩, h.rd, h.freed, h.avail⟩

/-- A step that changes neither memory, switches, index registers, speaker nor the log. -/
structure Soft (e : Env) (s s' : Mach) : Prop where
  main : s'.main = s.main
  aux : s'.aux = s.aux
  sw : s'.sw = s.sw
  x : s'.x = s.x
  y : s'.y = s.y
  clicks : s'.clicks = s.clicks
  freed : s'.w.freed = s.w.freed
  log : s'.w.log = s.w.log
  regs : s'.w.regs = s.w.regs
  arrived : s.w.arrived ≤ s'.w.arrived
  ring : ∀ r, RingW e s.w r → RingW e s'.w r

theorem Soft.trans {e : Env} {s t u : Mach} (h1 : Soft e s t) (h2 : Soft e t u) : Soft e s u :=
  ⟨h2.main.trans h1.main, h2.aux.trans h1.aux, h2.sw.trans h1.sw, h2.x.trans h1.x, h2.y.trans h1.y,
   h2.clicks.trans h1.clicks, h2.freed.trans h1.freed, h2.log.trans h1.log, h2.regs.trans h1.regs,
   Nat.le_trans h1.arrived h2.arrived, fun r h => h2.ring r (h1.ring r h)⟩

theorem soft_env (e : Env) (s : Mach) : Soft e s (s.env e) := by
  have w := traffic_same e.file (e.link s.time) (e.deliver s.time) s.w
  exact ⟨rfl, rfl, rfl, rfl, rfl, rfl, w.freed, w.log, w.regs, w.arrived, fun r h => ringW_traffic h _ _⟩

theorem step_resets {e : Env} {s s' : Mach} (h : s.step e = some s') : s.w.regs.resets ≤ s'.w.regs.resets := by
  have := (step_calm h).resets
  rw [(soft_env e s).regs] at this
  exact this

theorem step_still {e : Env} {s s' : Mach} (h : s.step e = some s') (hr : s'.w.regs.resets = s.w.regs.resets) :
    Still (s.env e).w s'.w :=
  (step_calm h).still (by rw [(soft_env e s).regs]; exact hr)

theorem run_resets {e : Env} (n : Nat) : ∀ {s s' : Mach}, s.run e n = some s' → s.w.regs.resets ≤ s'.w.regs.resets := by
  induction n with
  | zero => intro s s' h; cases h; exact Nat.le_refl _
  | succ n ih =>
    intro s s' h
    rw [run_succ] at h
    obtain ⟨v, hv, hv'⟩ := Option.bind_eq_some_iff.mp h
    exact Nat.le_trans (step_resets hv) (ih hv')

/-- Without a reset of the chip, what has arrived or been released stays so. -/
theorem run_mono {e : Env} (n : Nat) : ∀ {s s' : Mach}, s.run e n = some s' → s'.w.regs.resets = s.w.regs.resets →
    s.w.arrived ≤ s'.w.arrived ∧ s.w.freed ≤ s'.w.freed := by
  induction n with
  | zero => intro s s' h _; cases h; exact ⟨Nat.le_refl _, Nat.le_refl _⟩
  | succ n ih =>
    intro s s' h hr
    rw [run_succ] at h
    obtain ⟨v, hv, hv'⟩ := Option.bind_eq_some_iff.mp h
    have r1 := step_resets hv
    have r2 := run_resets n hv'
    have c := step_still hv (by omega)
    have h1 := c.arrived
    have h2 := (soft_env e s).arrived
    have h3 := c.freed
    have h4 := (soft_env e s).freed
    have := ih hv' (by omega)
    omega

theorem only_soft {e : Env} {s s' : Mach} (h : Soft e s s') : OnlyScreen s s' := by
  intro q _
  rw [h.aux, h.main]
  exact ⟨rfl, fun _ _ => rfl⟩

theorem hop_soft {e : Env} {s s' : Mach} {r : Nat} (hs : s.step e = some s') (ha : r ≤ s.w.arrived) (h : Soft e s s')
    (hk : s'.kbd = (s.env e).kbd ∨ StrobeAt s.pc) : Hop e s r 1 0 s' :=
  hop_one hs ha (only_soft h) (by rw [bytes_zero, List.append_nil]; exact h.log) h.arrived hk

/-- Reading the high byte of the received size. -/
theorem step_rsr {e : Env} {h : Bool} {s : Mach} (hc : CodeOk h s.main) (hs : h = true → s.steered 0x2000 = false)
    (hf : symFetch h s.pc = some (.ldaA 0xc097)) (hp : s.w.ptr = 0x426) {r : Nat} (hr : RingW e s.w r) :
    ∃ s', s.step e = some s' ∧ Soft e s s' ∧ s'.pc = s.pc + 3 ∧ s'.cycles = s.cycles + 4 ∧ s'.w.ptr = 0x427 ∧
      s'.a = BitVec.ofNat 8 (((s.env e).w.arrived - s.w.freed) / 256) := by
  have se := soft_env e s
  have hr' := se.ring r hr
  have w := traffic_same e.file (e.link s.time) (e.deliver s.time) s.w
  have hd : (s.env e).w.readData = (BitVec.ofNat 8 (((s.env e).w.arrived - s.w.freed) / 256),
      { (s.env e).w with ptr := 0x427 }) := by
    have hp' : (s.env e).w.ptr = 0x426 := by rw [← hp]; exact w.ptr
    unfold W5100.readData
    simp only [hp']
    rw [if_neg (by decide), if_pos trivial, advance_eq hr'.auto, hp', se.freed]
    rfl
  refine ⟨_, by rw [step_code hc hs hf]; rfl, ?_, rfl, rfl, ?_, ?_⟩
  · refine se.trans ?_
    refine ⟨rfl, rfl, rfl, rfl, rfl, rfl, ?_, ?_, ?_, ?_, ?_⟩
    · show (s.env e).w.readData.2.freed = _; rw [hd]
    · show (s.env e).w.readData.2.log = _; rw [hd]
    · show (s.env e).w.readData.2.regs = _; rw [hd]
    · show _ ≤ (s.env e).w.readData.2.arrived; rw [hd]; exact Nat.le_refl _
    · intro r h
      show RingW e (s.env e).w.readData.2 r
      rw [hd]
      exact ringW_ptr h _
  · show (s.env e).w.readData.2.ptr = _; rw [hd]
  · show (s.env e).w.readData.1 = _; rw [hd]

theorem step_cmp {e : Env} {h : Bool} {s : Mach} {v : Nat} (hc : CodeOk h s.main) (hs : h = true → s.steered 0x2000 = false)
    (hf : symFetch h s.pc = some (.cmpI v)) :
    ∃ s', s.step e = some s' ∧ Soft e s s' ∧ s'.pc = s.pc + 2 ∧ s'.cycles = s.cycles + 2 ∧ s'.w.ptr = s.w.ptr ∧
      s'.c = decide (v ≤ s.a.toNat) := by
  have se := soft_env e s
  have w := traffic_same e.file (e.link s.time) (e.deliver s.time) s.w
  refine ⟨_, by rw [step_code hc hs hf]; rfl, ?_, rfl, rfl, w.ptr, rfl⟩
  exact se.trans ⟨rfl, rfl, rfl, rfl, rfl, rfl, rfl, rfl, rfl, Nat.le_refl _, fun r h => h⟩

theorem branch_soft (e : Env) (s : Mach) (b : Bool) (d : Nat) :
    Soft e s (s.branch b d) ∧ (s.branch b d).w = s.w ∧ (s.branch b d).kbd = s.kbd ∧ (b = true → (s.branch b d).pc = branchTarget s.pc d) ∧
    (b = false → (s.branch b d).pc = s.pc ∧ (s.branch b d).cycles = s.cycles) ∧
    (b = true → branchTarget s.pc d / 256 = s.pc / 256 → (s.branch b d).cycles = s.cycles + 1) := by
  cases b with
  | true =>
    refine ⟨⟨rfl, rfl, rfl, rfl, rfl, rfl, rfl, rfl, rfl, Nat.le_refl _, fun r h => h⟩, rfl, rfl, fun _ => rfl, ?_, ?_⟩
    · intro h; cases h
    · intro _ h; show _ + (if _ then 1 else 2) = _; rw [if_pos h]
  | false =>
    refine ⟨⟨rfl, rfl, rfl, rfl, rfl, rfl, rfl, rfl, rfl, Nat.le_refl _, fun r h => h⟩, rfl, rfl, ?_, fun _ => ⟨rfl, rfl⟩, ?_⟩
    · intro h; cases h
    · intro h; cases h

/-- A branch instruction whose condition is `b`. -/
theorem step_branch {e : Env} {h : Bool} {s : Mach} {i : Instr} {d : Nat} {b : Bool} (hc : CodeOk h s.main)
    (hs : h = true → s.steered 0x2000 = false) (hf : symFetch h s.pc = some i) (hi : i.len = 2 ∧ i.cycles = 2)
    (hb : ∀ t : Mach, t.n = s.n → t.z = s.z → t.c = s.c → t.exec e i = some (t.branch b d)) :
    ∃ s', s.step e = some s' ∧ Soft e s s' ∧ s'.w.ptr = s.w.ptr ∧ s'.kbd = (s.env e).kbd ∧
      (b = true → s'.pc = branchTarget (s.pc + 2) d ∧
        (branchTarget (s.pc + 2) d / 256 = (s.pc + 2) / 256 → s'.cycles = s.cycles + 3)) ∧
      (b = false → s'.pc = s.pc + 2 ∧ s'.cycles = s.cycles + 2) := by
  have se := soft_env e s
  have w := traffic_same e.file (e.link s.time) (e.deliver s.time) s.w
  have st := step_code (e := e) hc hs hf
  rw [hb { s.env e with pc := s.pc + i.len, cycles := s.cycles + i.cycles } rfl rfl rfl, hi.1, hi.2] at st
  obtain ⟨h1, h2, h6, h3, h4, h5⟩ := branch_soft e { s.env e with pc := s.pc + 2, cycles := s.cycles + 2 } b d
  refine ⟨_, st, se.trans ?_, ?_, h6, ?_, ?_⟩
  · exact (⟨rfl, rfl, rfl, rfl, rfl, rfl, rfl, rfl, rfl, Nat.le_refl _, fun r h => h⟩ :
      Soft e (s.env e) { s.env e with pc := s.pc + 2, cycles := s.cycles + 2 }).trans h1
  · rw [h2]; exact w.ptr
  · intro hb
    exact ⟨h3 hb, fun hp => h5 hb hp⟩
  · intro hb
    exact h4 hb

theorem step_bcs {e : Env} {h : Bool} {s : Mach} {d : Nat} (hc : CodeOk h s.main) (hs : h = true → s.steered 0x2000 = false)
    (hf : symFetch h s.pc = some (.bcs d)) :
    ∃ s', s.step e = some s' ∧ Soft e s s' ∧ s'.w.ptr = s.w.ptr ∧ s'.kbd = (s.env e).kbd ∧
      (s.c = true → s'.pc = branchTarget (s.pc + 2) d ∧
        (branchTarget (s.pc + 2) d / 256 = (s.pc + 2) / 256 → s'.cycles = s.cycles + 3)) ∧
      (s.c = false → s'.pc = s.pc + 2 ∧ s'.cycles = s.cycles + 2) :=
  step_branch (i := .bcs d) hc hs hf ⟨rfl, rfl⟩ fun t _ _ h3 => by show some (t.branch t.c d) = _; rw [h3]

theorem step_bpl {e : Env} {h : Bool} {s : Mach} {d : Nat} (hc : CodeOk h s.main) (hs : h = true → s.steered 0x2000 = false)
    (hf : symFetch h s.pc = some (.bpl d)) :
    ∃ s', s.step e = some s' ∧ Soft e s s' ∧ s'.w.ptr = s.w.ptr ∧ s'.kbd = (s.env e).kbd ∧
      (s.n = false → s'.pc = branchTarget (s.pc + 2) d ∧
        (branchTarget (s.pc + 2) d / 256 = (s.pc + 2) / 256 → s'.cycles = s.cycles + 3)) ∧
      (s.n = true → s'.pc = s.pc + 2 ∧ s'.cycles = s.cycles + 2) := by
  obtain ⟨s', h1, h2, h3, h6, h4, h5⟩ := step_branch (e := e) (b := !s.n) (d := d) hc hs hf ⟨rfl, rfl⟩
    fun t h1 _ _ => by show some (t.branch (!t.n) d) = _; rw [h1]
  exact ⟨s', h1, h2, h3, h6, fun h => h4 (by rw [h]; rfl), fun h => h5 (by rw [h]; rfl)⟩

theorem step_beq {e : Env} {h : Bool} {s : Mach} {d : Nat} (hc : CodeOk h s.main) (hs : h = true → s.steered 0x2000 = false)
    (hf : symFetch h s.pc = some (.beq d)) :
    ∃ s', s.step e = some s' ∧ Soft e s s' ∧ s'.w.ptr = s.w.ptr ∧ s'.kbd = (s.env e).kbd ∧
      (s.z = true → s'.pc = branchTarget (s.pc + 2) d ∧
        (branchTarget (s.pc + 2) d / 256 = (s.pc + 2) / 256 → s'.cycles = s.cycles + 3)) ∧
      (s.z = false → s'.pc = s.pc + 2 ∧ s'.cycles = s.cycles + 2) :=
  step_branch (i := .beq d) hc hs hf ⟨rfl, rfl⟩ fun t _ h2 _ => by show some (t.branch t.z d) = _; rw [h2]

/-- BIT KBD -/
theorem step_kbd {e : Env} {h : Bool} {s : Mach} (hc : CodeOk h s.main) (hs : h = true → s.steered 0x2000 = false)
    (hf : symFetch h s.pc = some (.bitA 0xc000)) :
    ∃ s', s.step e = some s' ∧ Soft e s s' ∧ s'.w.ptr = s.w.ptr ∧ s'.pc = s.pc + 3 ∧ s'.cycles = s.cycles + 4 ∧
      s'.n = (s.env e).kbd.getLsbD 7 ∧ s'.kbd = (s.env e).kbd := by
  have se := soft_env e s
  have w := traffic_same e.file (e.link s.time) (e.deliver s.time) s.w
  refine ⟨_, by rw [step_code hc hs hf]; rfl, ?_, w.ptr, rfl, rfl, ?_⟩
  · exact se.trans ⟨rfl, rfl, rfl, rfl, rfl, rfl, rfl, rfl, rfl, Nat.le_refl _, fun r h => h⟩
  · exact ⟨rfl, rfl⟩

/-- BIT KBDSTRB -/
theorem step_strobe {e : Env} {h : Bool} {s : Mach} (hc : CodeOk h s.main) (hs : h = true → s.steered 0x2000 = false)
    (hf : symFetch h s.pc = some (.bitA 0xc010)) :
    ∃ s', s.step e = some s' ∧ Soft e s s' ∧ s'.w.ptr = s.w.ptr ∧ s'.pc = s.pc + 3 ∧ s'.cycles = s.cycles + 4 := by
  have se := soft_env e s
  have w := traffic_same e.file (e.link s.time) (e.deliver s.time) s.w
  refine ⟨_, by rw [step_code hc hs hf]; rfl, ?_, w.ptr, rfl, rfl⟩
  exact se.trans ⟨rfl, rfl, rfl, rfl, rfl, rfl, rfl, rfl, rfl, Nat.le_refl _, fun r h => h⟩

/-- LDA KBD -/
theorem step_ldakbd {e : Env} {h : Bool} {s : Mach} (hc : CodeOk h s.main) (hs : h = true → s.steered 0x2000 = false)
    (hf : symFetch h s.pc = some (.ldaA 0xc000)) :
    ∃ s', s.step e = some s' ∧ Soft e s s' ∧ s'.w.ptr = s.w.ptr ∧ s'.pc = s.pc + 3 ∧ s'.cycles = s.cycles + 4 ∧
      s'.n = (s.env e).kbd.getLsbD 7 ∧ s'.kbd = (s.env e).kbd := by
  have se := soft_env e s
  have w := traffic_same e.file (e.link s.time) (e.deliver s.time) s.w
  refine ⟨_, by rw [step_code hc hs hf]; rfl, ?_, w.ptr, rfl, rfl, ?_⟩
  · exact se.trans ⟨rfl, rfl, rfl, rfl, rfl, rfl, rfl, rfl, rfl, Nat.le_refl _, fun r h => h⟩
  · exact ⟨rfl, rfl⟩

/-- LDA KBDSTRB -/
theorem step_ldastrobe {e : Env} {h : Bool} {s : Mach} (hc : CodeOk h s.main) (hs : h = true → s.steered 0x2000 = false)
    (hf : symFetch h s.pc = some (.ldaA 0xc010)) :
    ∃ s', s.step e = some s' ∧ Soft e s s' ∧ s'.w.ptr = s.w.ptr ∧ s'.pc = s.pc + 3 ∧ s'.cycles = s.cycles + 4 := by
  have se := soft_env e s
  have w := traffic_same e.file (e.link s.time) (e.deliver s.time) s.w
  refine ⟨_, by rw [step_code hc hs hf]; rfl, ?_, w.ptr, rfl, rfl⟩
  exact se.trans ⟨rfl, rfl, rfl, rfl, rfl, rfl, rfl, rfl, rfl, Nat.le_refl _, fun r h => h⟩

end IIVision.Player
