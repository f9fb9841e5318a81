import Verif.Proofs.Timely
import Verif.Spec.Waits

/-! Executing opcodes with delays between the blocks. -/

namespace IIVision.Player

open Spec

/-! ### Every instruction takes time -/

theorem display_cycles {s s' : Mach} {q : Nat} (h : s.display q = some s') : s'.cycles = s.cycles := by
  unfold Mach.display at h
  repeat' split at h
  all_goals first | (cases h; rfl) | cases h

theorem read_cycles {s : Mach} {q : Nat} {r : U8 × Mach} (h : s.read q = some r) : r.2.cycles = s.cycles := by
  unfold Mach.read at h
  repeat' split at h
  all_goals first
    | (cases h; rfl)
    | (obtain ⟨t, h1, rfl⟩ := Option.map_eq_some_iff.mp h; exact display_cycles h1)

theorem write_cycles {s s' : Mach} {q : Nat} {v : U8} (h : s.write q v = some s') : s'.cycles = s.cycles := by
  have same : ∀ {t : Mach}, some t = some s' → t.cycles = s.cycles → s'.cycles = s.cycles := fun h h1 => by rw [← Option.some.inj h]; exact h1
  unfold Mach.write at h
  refine of_ite h (fun h => same h (by unfold Mach.store; split <;> rfl)) fun h => ?_
  iterate 11 refine of_ite h (fun h => same h rfl) fun h => ?_
  exact display_cycles h

theorem branch_cycles (s : Mach) (b : Bool) (d : Nat) : s.cycles ≤ (s.branch b d).cycles := by
  unfold Mach.branch
  split
  · exact Nat.le_add_right _ _
  · exact Nat.le_refl _

theorem exec_cycles {e : Env} {s s' : Mach} {i : Instr} (h : s.exec e i = some s') : s.cycles ≤ s'.cycles := by
  cases i <;> rw [Mach.exec] at h
  all_goals first
    | (cases h; done)
    | (cases h; exact Nat.le_refl _)
    | exact (write_cycles h).ge
    | (obtain ⟨r, h1, rfl⟩ := Option.map_eq_some_iff.mp h; first | exact (read_cycles h1).ge | exact (read_cycles h1).ge.trans (Nat.le_add_right _ _))
    | (obtain ⟨r, h1, h2⟩ := Option.bind_eq_some_iff.mp h; obtain ⟨t, h3, rfl⟩ := Option.map_eq_some_iff.mp h2
       rw [← read_cycles h1, ← write_cycles h3]; exact Nat.le_refl _)
    | (cases h; exact branch_cycles ..)
    | skip
  split at h
  · unfold Mach.hclr at h
    split at h
    · cases h; exact Nat.le_add_right _ _
    · cases h
  · split at h
    · cases h; exact Nat.le_add_right _ _
    · cases h

theorem instr_cycles (i : Instr) : 2 ≤ i.cycles := by
  cases i <;> simp [Instr.cycles]

theorem step_cycles {e : Env} {s s' : Mach} (h : s.step e = some s') : s.cycles + 2 ≤ s'.cycles := by
  unfold Mach.step at h
  dsimp only at h
  split at h
  · rename_i i _
    have c := exec_cycles h
    have := instr_cycles i
    have : s.cycles + i.cycles ≤ s'.cycles := c
    omega
  · cases h

theorem run_cycles {e : Env} (n : Nat) : ∀ {s s' : Mach}, s.run e n = some s' → s.cycles + 2 * n ≤ s'.cycles := by
  induction n with
  | zero => intro s s' h; cases h; exact Nat.le_refl _
  | succ n ih =>
    intro s s' h
    rw [run_succ] at h
    obtain ⟨t, h1, h2⟩ := Option.bind_eq_some_iff.mp h
    have := ih h2
    have := step_cycles h1
    omega

/-! ### Waiting -/

theorem ready_check_not {e : Env} {s : Mach} {r : Nat} (h : Ready e s r) (hn : ¬ s.w.freed + 2048 ≤ (s.env e).w.arrived) :
    ∃ s', Hop e s r 3 0 s' ∧ Soft e s s' ∧ s'.w.ptr = 0x427 ∧ s'.pc = 0x4046 ∧ s'.cycles = s.cycles + 8 := by
  have hc := codeOk_of_intact h.intact
  obtain ⟨t1, a1, a2, a3, a4, a5, a6⟩ := step_rsr (e := e) hc (fun h => by cases h) (by rw [h.pc]; decide +kernel) h.ptr h.ring
  rw [h.pc] at a3
  have hc1 : CodeOk false t1.main := by rw [a2.main]; exact hc
  obtain ⟨t2, b1, b2, b3, b4, b5, b6⟩ := step_cmp (e := e) (v := 8) hc1 (fun h => by cases h) (by rw [a3]; decide +kernel)
  rw [a3] at b3
  have hc2 : CodeOk false t2.main := by rw [b2.main]; exact hc1
  obtain ⟨t3, c1, c2, c3, c6, c4, c5⟩ := step_bcs (e := e) (d := 5) hc2 (fun h => by cases h) (by rw [b3]; decide +kernel)
  rw [b3] at c4 c5
  have hs := (a2.trans b2).trans c2
  have e1 : t2.c = false := by
    rw [b6, a6, BitVec.toNat_ofNat, decide_eq_false_iff_not]
    have : ((s.env e).w.arrived - s.w.freed) / 256 % 2 ^ 8 = ((s.env e).w.arrived - s.w.freed) / 256 :=
      Nat.mod_eq_of_lt (by omega)
    rw [this]
    omega
  exact ⟨t3, ((hop_soft a1 h.ring.avail a2 (.inl (kept_of_fetch hc (fun h => by cases h) (i := .ldaA 0xc097) (by rw [h.pc]; decide +kernel) rfl a1))).trans0
    (hop_soft b1 (a2.ring r h.ring).avail b2 (.inl (kept_of_fetch hc1 (fun h => by cases h) (i := .cmpI 8) (by rw [a3]; decide +kernel) rfl b1)))).trans0
    (hop_soft c1 (b2.ring r (a2.ring r h.ring)).avail c2 (.inl c6)), hs, by rw [c3, b5, a5], (c5 e1).1, by rw [(c5 e1).2, b4, a4]⟩

theorem ready_again_cycles {e : Env} {s : Mach} {r : Nat} (hi : Intact s.main) (hpc : s.pc = 0x4046) (hp : s.w.ptr = 0x427)
    (hw : RingW e s.w r) (hpos : 256 * s.y.toNat + s.x.toNat = 0x6000 + r % 8192) :
    ∃ s', Hop e s r 6 0 s' ∧ Ready e s' r ∧ Idle s s' ∧ s'.clicks = s.clicks ++ [s.cycles + 11] ∧ s'.cycles = s.cycles + 17 := by
  have hrun : symRun false 0 6 { symStart s.pc with x := .ix, ptr := .reg (.lit 4) (.lit 0x27) } =
      some { symStart 0x403f with a := .lit 0x26, x := .ix, ptr := .reg (.lit 4) (.lit 0x26), cyc := 17, clk := [11] } := by
    rw [hpc]; decide +kernel
  obtain ⟨s', h1, h2⟩ := hop_of_sym (base_of_ring hw) (rel_start (by rw [hp]; rfl) rfl hw.ring (codeOk_of_intact hi) hw.avail) hrun
  have := ring_of_rel hw h2 rfl rfl
  refine ⟨s', h1, ⟨intact_of_codeOk h2.code, h2.pc, by rw [h2.ptr]; rfl, this, ?_⟩, idle_of_rel h2 rfl rfl, h2.clicks, h2.cycles⟩
  rw [h2.y, h2.x]; exact hpos

/-- Once round the loop. -/
theorem ready_loop {e : Env} {s : Mach} {r : Nat} (h : Ready e s r) (hn : ¬ s.w.freed + 2048 ≤ (s.env e).w.arrived) :
    ∃ s', Hop e s r 9 0 s' ∧ Ready e s' r ∧ Idle s s' ∧ s'.clicks = s.clicks ++ [s.cycles + 19] ∧ s'.cycles = s.cycles + 25 := by
  obtain ⟨t, h1, h2, h3, h4, h5⟩ := ready_check_not h hn
  have hi : Intact t.main := by rw [h2.main]; exact h.intact
  have hpos : 256 * t.y.toNat + t.x.toNat = 0x6000 + r % 8192 := by rw [h2.x, h2.y]; exact h.pos
  obtain ⟨s', k1, k2, k3, k4, k5⟩ := ready_again_cycles hi h4 h3 (h2.ring r h.ring) hpos
  exact ⟨s', h1.trans0 k1, k2, (idle_soft h2).trans k3, by rw [k4, h2.clicks, h5], by rw [k5, h5]⟩

/-- From `c` cycles on, every 25 cycles, on the way from `s` to `t`: `k` times less than `b` bytes have arrived, and then `b` bytes have. -/
def Lacking (e : Env) (s t : Mach) (k c b : Nat) : Prop :=
  ∀ j, j ≤ k → ∃ x, s.Reaches e x ∧ x.Reaches e t ∧ x.cycles = c + 25 * j ∧ (b ≤ x.w.arrived ↔ j = k) ∧ x.w.freed + 2048 = b ∧ b ≤ e.file.length

theorem Lacking.extend {e : Env} {s s1 t1 t : Mach} {k c b : Nat} (h : Lacking e s1 t1 k c b) (h1 : s.Reaches e s1) (h2 : t1.Reaches e t) : Lacking e s t k c b := by
  intro j hj
  obtain ⟨x, a1, a2, a3⟩ := h j hj
  exact ⟨x, reaches_trans h1 a1, reaches_trans a2 h2, a3⟩

/-- While something remains in the chip, it has not been reset. -/
theorem run_unreset {e : Env} (n : Nat) : ∀ {s s' : Mach}, s.run e n = some s' → (∀ j t, j ≤ n → s.run e j = some t → 0 < t.w.arrived) →
    s'.w.regs.resets = s.w.regs.resets := by
  induction n with
  | zero => intro s s' h _; cases h; rfl
  | succ n ih =>
    intro s s' h hp
    rw [run_succ] at h
    obtain ⟨v, hv, hv'⟩ := Option.bind_eq_some_iff.mp h
    have c := step_calm hv
    have hv1 : s.run e 1 = some v := by rw [run_succ, hv]; rfl
    have hr : v.w.regs.resets = (s.env e).w.regs.resets := by
      refine Decidable.byContradiction fun hc => ?_
      have := c.wiped hc
      have := hp 1 v (by omega) hv1
      omega
    rw [(soft_env e s).regs] at hr
    rw [← hr]
    exact ih hv' fun j t hj hjt => hp (1 + j) t (by omega) (by rw [run_add 1 hv1]; exact hjt)

theorem hop_unreset {e : Env} {s s' : Mach} {r n k : Nat} (h : Hop e s r n k s') (hp : 0 < s.w.arrived) : s'.w.regs.resets = s.w.regs.resets := by
  refine run_unreset n h.run fun j t hj ht => ?_
  obtain ⟨u, h1, h2⟩ := h.steps j hj
  rw [ht] at h1
  cases h1
  exact Nat.lt_of_lt_of_le hp h2.arrived

theorem reaches_after {e : Env} {s x t : Mach} {n : Nat} (h1 : s.step e = some x) (h2 : s.run e (n + 1) = some t) : x.Reaches e t := by
  rw [run_succ, h1] at h2
  exact ⟨n, h2⟩

/-- The look itself. -/
theorem ready_look {e : Env} {s : Mach} {r : Nat} (h : Ready e s r) :
    ∃ x, s.step e = some x ∧ x.cycles = s.cycles + 4 ∧ x.w.arrived = (s.env e).w.arrived ∧ x.w.freed = s.w.freed := by
  obtain ⟨t1, a1, a2, a3, a4, a5, a6⟩ := step_rsr (e := e) (codeOk_of_intact h.intact) (fun h => by cases h) (by rw [h.pc]; decide +kernel) h.ptr h.ring
  exact ⟨t1, a1, a4, (step_still a1 (by rw [a2.regs])).arrived, a2.freed⟩

/-- `k` times round the loop, and then it goes on. -/
def Onward (e : Env) (r : Nat) (s : Mach) : Prop :=
  ∃ k n s', Hop e s r n 0 s' ∧ Lined e s' r 0x4051 ∧ Idle s s' ∧ s'.cycles = s.cycles + 17 + 25 * k ∧
    (s'.clicks = s.clicks ++ (List.range k).map fun m => s.cycles + 19 + 25 * m) ∧ Lacking e s s' k (s.cycles + 4) (s.w.freed + 2048)

theorem onward_loop {e : Env} {r n : Nat} {s t : Mach} (h : Hop e s r (n + 1) 0 t) (hr : Ready e s r) (hi : Idle s t) (hc : t.clicks = s.clicks ++ [s.cycles + 19])
    (ht : t.cycles = s.cycles + 25) (hl : ¬ s.w.freed + 2048 ≤ (s.env e).w.arrived) (hf : s.w.freed + 2048 ≤ e.file.length) (ha : Onward e r t) : Onward e r s := by
  obtain ⟨k, m, s', a1, a2, a3, a4, a5, a6⟩ := ha
  refine ⟨k + 1, _, s', h.trans0 a1, a2, hi.trans a3, by omega, ?_, fun j hj => ?_⟩
  swap
  · cases j with
    | zero =>
      obtain ⟨x, x1, x2, x3, x4⟩ := ready_look hr
      exact ⟨x, ⟨1, by rw [run_succ, x1]; rfl⟩, reaches_trans (reaches_after x1 h.run) ⟨_, a1.run⟩, x2, by rw [x3]; exact ⟨fun h => absurd h hl, fun h => by omega⟩, by rw [x4], hf⟩
    | succ j =>
      obtain ⟨x, b1, b2, b3, b4, b5, -⟩ := a6 j (by omega)
      exact ⟨x, reaches_trans ⟨_, h.run⟩ b1, b2, by omega, by rw [hi.freed] at b4; rw [b4]; omega, by rw [b5, hi.freed], hf⟩
  rw [a5, hc, ht, List.range_succ_eq_map, List.map_cons, List.map_map, List.append_assoc]
  refine congrArg _ (congrArg (_ :: ·) (List.map_congr_left fun m _ => ?_))
  show s.cycles + 25 + 19 + 25 * m = s.cycles + 19 + 25 * (m + 1)
  omega

theorem wait_exact {e : Env} (hD : e.Delivers) {r : Nat} (d : Nat) : ∀ {s : Mach}, Ready e s r →
    s.w.freed + 2048 ≤ e.file.length → s.w.freed + 2048 ≤ s.w.arrived + d → Onward e r s := by
  have enough : ∀ {s : Mach}, Ready e s r → s.w.freed + 2048 ≤ (s.env e).w.arrived → s.w.freed + 2048 ≤ e.file.length → Onward e r s := by
    intro s h hc hf
    obtain ⟨s', h1, h2, h3, h4, h5⟩ := (ready_hop h).1 hc
    refine ⟨0, _, s', h1, h2, h3, h4, by rw [h5]; exact (List.append_nil _).symm, fun j hj => ?_⟩
    obtain ⟨x, x1, x2, x3, x4⟩ := ready_look h
    exact ⟨x, ⟨1, by rw [run_succ, x1]; rfl⟩, reaches_after x1 h1.run, by omega, by rw [x3]; exact ⟨fun _ => by omega, fun _ => hc⟩, by rw [x4], hf⟩
  induction d with
  | zero =>
    intro s h hf hd
    exact enough h (by have := (soft_env e s).arrived; omega) hf
  | succ d ih =>
    intro s0 h0 hf0 hd0
    obtain ⟨T, ht, hT⟩ := hD s0.time
    have inner : ∀ (g : Nat) {s : Mach}, Ready e s r → s.w.freed + 2048 ≤ e.file.length →
        s.w.freed + 2048 ≤ s.w.arrived + (d + 1) → s.time ≤ T → T + 1 ≤ s.time + g → Onward e r s := by
      intro g
      induction g with
      | zero => intro s _ _ _ h1 h2; omega
      | succ g ihg =>
        intro s h hf hd h1 h2
        by_cases hc : s.w.freed + 2048 ≤ (s.env e).w.arrived
        · exact enough h hc hf
        · obtain ⟨s', a1, a2, a3, a4, a5⟩ := ready_loop h hc
          have hm := run_mono 9 a1.run (by rw [a3.regs])
          have htm := run_time 9 a1.run
          have hfr := a3.freed
          have hse := (soft_env e s).arrived
          by_cases hl : s'.time ≤ T
          · exact onward_loop a1 h a3 a4 a5 hc hf (ihg a2 (by omega) (by omega) hl (by omega))
          · have := run_arrives hT 9 a1.run (by rw [a3.regs]) (h.ring.ring.up.resolve_right (by omega)) h1 (by omega) (by omega) (by omega)
            exact onward_loop a1 h a3 a4 a5 hc hf (ih a2 (by omega) (by omega))
    exact inner (T + 1) h0 hf0 hd0 ht (by omega)

/-- A pause ends with the next key; nothing is heard. -/
theorem pause_exact {e : Env} {r : Nat} {T : Nat} (hT : e.key T ≠ none) (g : Nat) : ∀ {s : Mach}, Lined e s r 0x4059 →
    s.kbd.getLsbD 7 = true ∨ s.time ≤ T → T + 1 ≤ s.time + g →
    ∃ n s', Hop e s r n 0 s' ∧ Lined e s' r 0x4061 ∧ Idle s s' ∧ s'.clicks = s.clicks ∧ s.cycles + 6 ≤ s'.cycles := by
  induction g using Nat.strongRecOn with
  | _ g ih =>
    intro s h h1 h2
    cases hk : (s.env e).kbd.getLsbD 7 with
    | true =>
      obtain ⟨s', a1, a2, a3⟩ := (lined_pause h).1 hk
      exact ⟨_, s', a1, a3, idle_soft a2, a2.clicks, run_cycles _ a1.run⟩
    | false =>
      have hb : ¬ s.kbd.getLsbD 7 = true := fun hc => by rw [env_kbd (.inl hc)] at hk; cases hk
      have hle : s.time ≤ T := h1.resolve_left hb
      have hne : s.time ≠ T := fun hc => by rw [env_kbd (.inr (by rw [hc]; exact hT))] at hk; cases hk
      obtain ⟨t, s', a1, a2, a3, a4, a5, a6, a7⟩ := (lined_pause h).2 hk
      have := run_cycles _ a1.run
      obtain ⟨n, s'', b1, b2, b3, b4, b5⟩ := ih (g - 1) (by omega) a3 (by
        by_cases hc : s'.time ≤ T
        · exact .inr hc
        · left
          rw [a6]
          exact env_kbd (.inr (by rw [a5, show s.time + 1 = T by omega]; exact hT))) (by omega)
      exact ⟨_, s'', a1.trans0 b1, b2, (idle_soft a2).trans b3, by rw [b4, a2.clicks], by omega⟩

/-- From the end of a block to the first opcode of the next, unless paused for ever: how long it takes and what is heard. -/
theorem ready_exact {e : Env} (hD : e.Delivers) {s : Mach} {P : Nat} {ops : List Opcode} (h : Ready e s P)
    (hf : s.w.freed = 2048 * (P / 2048)) (hh : Here e P ops) :
    (∃ n s' w, Hop e s P n 2 s' ∧ AtOp e s' P ops ∧ Idle s s' ∧ s'.cycles = s.cycles + 63 + Stay.cycles w ∧
      s'.clicks = s.clicks ++ ((List.range w.polls).map fun m => s.cycles + 19 + 25 * m) ++ [s.cycles + 28 + w.cycles] ∧ (NoKeys e s → w.pause = 0) ∧
      Lacking e s s' w.polls (s.cycles + 4) (s.w.freed + 2048)) ∨
      ∃ n s', Hop e s P n 0 s' ∧ Paused e s' ∧ ¬ NoKeys e s := by
  have hb := here_block hh
  obtain ⟨k, n1, t1, a1, a2, a3, a4, a5, a6⟩ := wait_exact hD 2048 h (by omega) (by have := h.ring.ring.freed; omega)
  have fin : ∀ {t : Mach} {n : Nat}, Hop e s P n 0 t → t1.Reaches e t → Lined e t P 0x4061 → Idle s t → t.clicks = t1.clicks → t1.cycles + 7 ≤ t.cycles →
      (NoKeys e s → t.cycles = t1.cycles + 7) →
      ∃ n s' w, Hop e s P n 2 s' ∧ AtOp e s' P ops ∧ Idle s s' ∧ s'.cycles = s.cycles + 63 + Stay.cycles w ∧
        s'.clicks = s.clicks ++ ((List.range w.polls).map fun m => s.cycles + 19 + 25 * m) ++ [s.cycles + 28 + w.cycles] ∧ (NoKeys e s → w.pause = 0) ∧
        Lacking e s s' w.polls (s.cycles + 4) (s.w.freed + 2048) := by
    intro t n b1 br b2 b3 b4 b5 b6
    obtain ⟨s', c1, c2, c3, c4, c5⟩ := go_hop b2 (by rw [b3.freed]; exact hf) hh
    refine ⟨_, s', ⟨k, t.cycles - (t1.cycles + 7)⟩, b1.trans0 c1, c2, b3.trans c3, ?_, ?_, fun hk => ?_, a6.extend ⟨0, rfl⟩ (reaches_trans br ⟨_, c1.run⟩)⟩
    · show _ = _ + (25 * k + (t.cycles - (t1.cycles + 7)))
      omega
    · rw [c5, b4, a5]
      refine congrArg (_ ++ [·]) ?_
      show _ = _ + (25 * k + (t.cycles - (t1.cycles + 7)))
      omega
    · have := b6 hk
      show t.cycles - (t1.cycles + 7) = 0
      omega
  cases hk : (t1.env e).kbd.getLsbD 7 with
  | false =>
    obtain ⟨t2, b1, b2, b3, b4⟩ := (lined_kbd a2).1 hk
    exact .inl (fin (a1.trans0 b1) ⟨_, b1.run⟩ b3 (a3.trans (idle_soft b2)) b2.clicks (by omega) fun _ => b4)
  | true =>
    obtain ⟨t2, b1, b2, b3⟩ := (lined_kbd a2).2 hk
    have hop := a1.trans0 b1
    have id := a3.trans (idle_soft b2)
    have hkeys : ¬ NoKeys e s := by
      intro hno
      have h1 := nokeys_run _ hno a1.run
      rw [nokeys_env h1, h1.1] at hk
      cases hk
    have hcy := run_cycles _ b1.run
    by_cases hkb : t2.kbd.getLsbD 7 = true
    · obtain ⟨t3, c1, c2, c3⟩ := (lined_pause b3).1 (env_kbd (.inl hkb))
      have := run_cycles _ c1.run
      exact .inl (fin (hop.trans0 c1) ⟨_, (b1.trans0 c1).run⟩ c3 (id.trans (idle_soft c2)) (by rw [c2.clicks, b2.clicks]) (by omega) fun h => absurd h hkeys)
    · by_cases hex : ∃ T, t2.time ≤ T ∧ e.key T ≠ none
      · obtain ⟨T, h1, h2⟩ := hex
        obtain ⟨n3, t3, c1, c2, c3, c4, c5⟩ := pause_exact h2 (T + 1) b3 (.inr h1) (by omega)
        exact .inl (fin (hop.trans0 c1) ⟨_, (b1.trans0 c1).run⟩ c2 (id.trans c3) (by rw [c4, b2.clicks]) (by omega) fun h => absurd h hkeys)
      · refine .inr ⟨_, t2, hop, ⟨b3.pc, by simpa using hkb, ?_⟩, hkeys⟩
        exact fun t ht => Classical.byContradiction fun hc => hex ⟨t, ht, hc⟩

/-! ### A stream with stays between its blocks -/

/-- The chip is not reset, and `b` bytes are released. -/
structure Kin (s t : Mach) (b : Nat) : Prop where
  resets : t.w.regs.resets = s.w.regs.resets
  freed : t.w.freed = s.w.freed + b

/-- The opcodes are executed with the stays `w`. -/
inductive Stays (e : Env) : (Nat → Stay) → Mach → List Opcode → Mach → Prop
  | nil (w : Nat → Stay) (s : Mach) : Stays e w s [] s
  | op {w : Nat → Stay} {s t s' : Mach} {op : Opcode} {ops : List Opcode} : (∀ a, op ≠ .ack a) → Executes e s [op] t →
      t.cycles = s.cycles + duration [op] → t.clicks = s.clicks ++ clickTimes s.cycles [op] → Kin s t 0 → Stays e w t ops s' → Stays e w s (op :: ops) s'
  | ack {w : Nat → Stay} {s t s' : Mach} {a : Bool} {ops : List Opcode} : Executes e s [.ack a] t →
      t.cycles = s.cycles + 2 * 73 + (w 0).cycles → t.clicks = s.clicks ++ ([s.cycles + 4, s.cycles + 4 + 34, s.cycles + 73 + 4] ++
        (List.range (w 0).polls).map (fun k => s.cycles + 102 + 25 * k) ++ [s.cycles + 73 + 4 + 34 + (w 0).cycles]) →
      Kin s t 2048 → Lacking e s t (w 0).polls (s.cycles + 87) (s.w.freed + 4096) → Stays e (fun k => w (k + 1)) t ops s' → Stays e w s (.ack a :: ops) s'

theorem Stays.executes {e : Env} {w : Nat → Stay} {s s' : Mach} {ops : List Opcode} (h : Stays e w s ops s') : Executes e s ops s' := by
  induction h with
  | nil w s => exact .nil s
  | op _ h _ _ _ _ ih => exact executes_cons h ih
  | ack h _ _ _ _ _ ih => exact executes_cons h ih

theorem lost_succ (w : Nat → Stay) (m : Nat) : lost w (m + 1) = (w 0).cycles + lost (fun k => w (k + 1)) m := by
  unfold lost
  rw [List.range_succ_eq_map, List.map_cons, List.sum_cons, List.map_map]
  rfl

theorem pollsOf_succ (w : Nat → Stay) (m : Nat) : pollsOf w (m + 1) = (w 0).polls + pollsOf (fun k => w (k + 1)) m := by
  unfold pollsOf
  rw [List.range_succ_eq_map, List.map_cons, List.sum_cons, List.map_map]
  rfl

theorem Stays.cycles {e : Env} {w : Nat → Stay} {s s' : Mach} {ops : List Opcode} (h : Stays e w s ops s') :
    s'.cycles = s.cycles + duration ops + lost w (acks ops).length := by
  induction h with
  | nil w s => rfl
  | @op w s t s' op ops hne _ h1 _ _ _ ih =>
    have := duration_append [op] ops
    rw [List.singleton_append] at this
    have ha : acks (op :: ops) = acks ops := by
      cases op <;> first | rfl | exact absurd rfl (hne _)
    rw [ha]
    omega
  | @ack w s t s' a ops _ h1 _ _ _ _ ih =>
    have : (acks (.ack a :: ops)).length = (acks ops).length + 1 := rfl
    rw [this, lost_succ]
    show _ = _ + (2 * 73 + duration ops) + _
    omega

theorem Stays.clicks {e : Env} {w : Nat → Stay} {s s' : Mach} {ops : List Opcode} (h : Stays e w s ops s') :
    s'.clicks = s.clicks ++ stayClicks w s.cycles ops := by
  induction h with
  | nil w s => exact (List.append_nil _).symm
  | @op w s t s' op ops hne hx h1 h2 _ _ ih =>
    rw [ih, h2, List.append_assoc, h1]
    refine congrArg _ ?_
    cases op with
    | ack a => exact absurd rfl (hne a)
    | tick a b c d => rfl
    | nop => rfl
    | header m => cases hx
    | terminate => cases hx
  | @ack w s t s' a ops _ h1 h2 _ _ _ ih =>
    rw [ih, h2, List.append_assoc, h1]
    rfl

theorem Stays.split {e : Env} {ops2 : List Opcode} {s2 : Mach} : ∀ {ops1 : List Opcode} {w : Nat → Stay} {s : Mach}, Stays e w s (ops1 ++ ops2) s2 →
    ∃ u, Stays e w s ops1 u ∧ Stays e (fun k => w (k + (acks ops1).length)) u ops2 s2
  | [], w, s, h => ⟨s, .nil w s, h⟩
  | _ :: ops1, w, s, .op h0 h1 h2 h3 hk h4 => by
    rename_i o t
    obtain ⟨u, a, b⟩ := Stays.split h4
    have ha : acks (o :: ops1) = acks ops1 := by
      cases o <;> first | rfl | exact absurd rfl (h0 _)
    rw [ha]
    exact ⟨u, .op h0 h1 h2 h3 hk a, b⟩
  | .ack x :: ops1, w, s, .ack h1 h2 h3 hk hl h4 => by
    obtain ⟨u, a, b⟩ := Stays.split h4
    refine ⟨u, .ack h1 h2 h3 hk hl a, ?_⟩
    exact b

theorem Stays.kin {e : Env} {w : Nat → Stay} {s s' : Mach} {ops : List Opcode} (h : Stays e w s ops s') : Kin s s' (2048 * (acks ops).length) := by
  induction h with
  | nil w s => exact ⟨rfl, rfl⟩
  | @op w s t s' op ops hne _ _ _ k _ ih =>
    have ha : acks (op :: ops) = acks ops := by
      cases op <;> first | rfl | exact absurd rfl (hne _)
    rw [ha]
    exact ⟨ih.resets.trans k.resets, by rw [ih.freed, k.freed]; rfl⟩
  | @ack w s t s' a ops _ _ _ k _ _ ih =>
    have : (acks (.ack a :: ops)).length = (acks ops).length + 1 := rfl
    exact ⟨ih.resets.trans k.resets, by rw [ih.freed, k.freed, this]; omega⟩

/-- Whenever the player looks in vain, the block is not there. -/
theorem Stays.lacking {e : Env} {w : Nat → Stay} {s s' : Mach} {done rest : List Opcode} {a : Bool} (h : Stays e w s (done ++ .ack a :: rest) s') :
    Lacking e s s' (w (acks done).length).polls (s.cycles + duration done + lost w (acks done).length + 87) (s.w.freed + 2048 * ((acks done).length + 2)) := by
  obtain ⟨u, h1, h2⟩ := h.split
  have hc := h1.cycles
  have hf := h1.kin.freed
  cases h2 with
  | op g _ _ _ _ _ => exact absurd rfl (g a)
  | ack g1 _ _ _ g2 g3 =>
    rw [hf, hc] at g2
    change Lacking e u _ (w (0 + (acks done).length)).polls _ _ at g2
    rw [Nat.zero_add] at g2
    have := g2.extend (executes_reaches h1.executes) (executes_reaches g3.executes)
    rw [show s.w.freed + 2048 * ((acks done).length + 2) = s.w.freed + 2048 * (acks done).length + 4096 by omega]
    exact this

/-- What has arrived at one time is there at every later one. -/
theorem later_more {e : Env} {s s2 x y : Mach} (hr : s2.w.regs.resets = s.w.regs.resets) (hx : s.Reaches e x) (hx2 : x.Reaches e s2) (hy : s.Reaches e y)
    (hc : y.cycles ≤ x.cycles) : y.w.arrived ≤ x.w.arrived := by
  obtain ⟨n, hx⟩ := hx
  obtain ⟨m, hy⟩ := hy
  obtain ⟨k, hx2⟩ := hx2
  have hle : m ≤ n := by
    refine Nat.le_of_not_lt fun hlt => ?_
    obtain ⟨d, rfl⟩ := Nat.exists_eq_add_of_lt hlt
    rw [Nat.add_assoc, run_add n hx] at hy
    have := run_cycles _ hy
    omega
  obtain ⟨d, rfl⟩ := Nat.exists_eq_add_of_le hle
  rw [run_add m hy] at hx
  have r1 := run_resets _ hy
  have r2 := run_resets _ hx
  have r3 := run_resets _ hx2
  exact (run_mono d hx (by omega)).1

/-- All opcodes of a stream are executed, unless the player is paused for ever. -/
theorem stays {e : Env} (hD : e.Delivers) (ops : List Opcode) : ∀ {s : Mach} {P : Nat}, AtOp e s P ops →
    (∃ w P' s', Stays e w s ops s' ∧ AtOp e s' P' [] ∧ (NoKeys e s → ∀ k, (w k).pause = 0)) ∨
    ∃ s', s.Reaches e s' ∧ Paused e s' ∧ ¬ NoKeys e s := by
  induction ops with
  | nil => intro s P h; exact .inl ⟨fun _ => ⟨0, 0⟩, P, s, .nil _ s, h, fun _ _ => rfl⟩
  | cons op ops ih =>
    intro s P h
    have hpos : 0 < s.w.arrived := by
      have := h.play.block
      omega
    have hfr := h.freed
    have fin : ∀ {t : Mach} {P' n k : Nat}, Hop e s (P + 2) n k t → AtOp e t P' ops → (∀ a, op ≠ .ack a) → Executes e s [op] t →
        t.cycles = s.cycles + duration [op] → t.clicks = s.clicks ++ clickTimes s.cycles [op] → t.w.freed = s.w.freed →
        (∃ w P' s', Stays e w s (op :: ops) s' ∧ AtOp e s' P' [] ∧ (NoKeys e s → ∀ k, (w k).pause = 0)) ∨
        ∃ s', s.Reaches e s' ∧ Paused e s' ∧ ¬ NoKeys e s := by
      intro t P' n k a1 a2 a3 a4 a5 a6 a7
      rcases ih a2 with ⟨w, P', s', b1, b2, b3⟩ | ⟨s', b1, b2, b3⟩
      · exact .inl ⟨w, P', s', .op a3 a4 a5 a6 ⟨hop_unreset a1 hpos, a7⟩ b1, b2, fun hk => b3 (nokeys_run _ hk a1.run)⟩
      · exact .inr ⟨s', reaches_trans ⟨_, a1.run⟩ b1, b2, fun hk => b3 (nokeys_run _ hk a1.run)⟩
    cases op with
    | header m => exact absurd (h.here.body _ List.mem_cons_self) (by simp [BodyOp])
    | terminate => exact absurd (h.here.body _ List.mem_cons_self) (by simp [BodyOp])
    | nop =>
      obtain ⟨t, a1, a2, a3, a4, a5, a6, a7⟩ := op_nop h
      exact fin a1 a2 (fun a h => by cases h) (.nop a3 ⟨_, a1.run⟩ a4 a5 (.nil _)) a6 (by rw [a7]; exact (List.append_nil _).symm) (by have := a2.freed; have := (here_nop h.here).2.1; omega)
    | tick x p c os =>
      obtain ⟨n, t, -, a1, a2, a3, a4, a5, a6, a7⟩ := op_tick h
      exact fin a1 a2 (fun a h => by cases h) (.tick a3 ⟨_, a1.run⟩ a4 a5 a6 a7 (.nil _)) a4 a5 (by have := a2.freed; have := (here_tick h.here).2.1; omega)
    | ack a =>
      obtain ⟨t, a1, a2, a3, a4, a5, a6, a7, a8, a9⟩ := op_ack h
      rcases ready_exact hD a2 a3 a4 with ⟨n, u, w0, b1, b2, b3, b4, b5, b6, b7⟩ | ⟨n, u, b1, b2, b3⟩
      · have hrun := (a1.trans b1).run
        have hr : u.w.regs.resets = s.w.regs.resets := hop_unreset (a1.trans b1) hpos
        have h44 := (here_ack h.here).2.1
        have hl : Lacking e s u w0.polls (s.cycles + 87) (s.w.freed + 4096) := by
          rw [a8, Nat.add_assoc, show t.w.freed + 2048 = s.w.freed + 4096 by omega] at b7
          exact b7.extend ⟨_, a1.run⟩ ⟨0, rfl⟩
        rcases ih b2 with ⟨w, P', s', c1, c2, c3⟩ | ⟨s', c1, c2, c3⟩
        · refine .inl ⟨fun k => match k with | 0 => w0 | k + 1 => w k, P', s', .ack (.ack a5 ⟨_, hrun⟩ (b3.mem.trans a6) (by rw [b3.sw, a7]) (.nil _)) ?_ ?_ ⟨hr, by have := b3.freed; omega⟩ hl c1, c2, fun hk k => ?_⟩
          · show u.cycles = s.cycles + 2 * 73 + w0.cycles
            omega
          · show u.clicks = s.clicks ++ ([s.cycles + 4, s.cycles + 4 + 34, s.cycles + 73 + 4] ++
              (List.range w0.polls).map (fun k => s.cycles + 102 + 25 * k) ++ [s.cycles + 73 + 4 + 34 + w0.cycles])
            rw [b5, a9, a8]
            simp only [List.append_assoc]
          · cases k with
            | zero => exact b6 (nokeys_run _ hk a1.run)
            | succ k => exact c3 (nokeys_run _ hk hrun) k
        · exact .inr ⟨s', reaches_trans ⟨_, hrun⟩ c1, c2, fun hk => c3 (nokeys_run _ hk hrun)⟩
      · exact .inr ⟨u, ⟨_, (a1.trans b1).run⟩, b2, fun hk => b3 (nokeys_run _ hk a1.run)⟩

end IIVision.Player
