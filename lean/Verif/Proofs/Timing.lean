import Verif.Proofs.Whole

/-! Exact timing with a network that keeps up. -/

namespace IIVision.Player

open Spec

theorem deliver_fill (f : List U8) (n : Nat) : ∀ w : W5100, min (min f.length (w.freed + 8192)) (w.arrived + n) ≤ (w.deliver f n).arrived := by
  induction n with
  | zero => intro w; exact Nat.min_le_right _ _
  | succ n ih =>
    intro w
    unfold W5100.deliver
    split
    · have := ih (w.arrive f)
      have e1 : (w.arrive f).freed = w.freed := rfl
      have e2 : (w.arrive f).arrived = w.arrived + 1 := rfl
      rw [e1, e2] at this
      omega
    · omega

theorem env_fill {e : Env} {s : Mach} (hu : s.w.sr = stEstablished ∨ e.file.length ≤ s.w.arrived) :
    min (min e.file.length (s.w.freed + 8192)) (s.w.arrived + e.deliver s.time) ≤ (s.env e).w.arrived := by
  have ha := (traffic_same e.file (e.link s.time) (e.deliver s.time) s.w).arrived
  show _ ≤ (s.w.traffic e.file (e.link s.time) (e.deliver s.time)).arrived
  by_cases hc : s.w.arrived < e.file.length
  · rw [traffic_eq _ _ _ _ (hu.resolve_right (by omega)) hc]
    exact deliver_fill e.file (e.deliver s.time) s.w
  · omega

theorem offered_succ (e : Env) (t n : Nat) : e.offered t (n + 1) = e.deliver t + e.offered (t + 1) n := by
  induction n with
  | zero => exact Nat.add_comm _ _
  | succ n ih =>
    show e.offered t (n + 1) + e.deliver (t + (n + 1)) = e.deliver t + (e.offered (t + 1) n + e.deliver (t + 1 + n))
    rw [ih, show t + (n + 1) = t + 1 + n by omega]
    omega

theorem offered_add (e : Env) (t m n : Nat) : e.offered t (m + n) = e.offered t m + e.offered (t + m) n := by
  induction n with
  | zero => rfl
  | succ n ih =>
    show e.offered t (m + n) + e.deliver (t + (m + n)) = _ + (e.offered (t + m) n + e.deliver (t + m + n))
    rw [ih, show t + (m + n) = t + m + n by omega]
    omega

theorem keepsUp_delivers {e : Env} (hK : e.KeepsUp) : e.Delivers := by
  intro t
  have key : ∀ n, 0 < e.offered t n → ∃ t', t ≤ t' ∧ 0 < e.deliver t' := by
    intro n
    induction n with
    | zero => intro h; exact absurd h (Nat.lt_irrefl 0)
    | succ n ih =>
      intro h
      have e1 : e.offered t (n + 1) = e.offered t n + e.deliver (t + n) := rfl
      by_cases hc : 0 < e.offered t n
      · exact ih hc
      · exact ⟨t + n, by omega, by omega⟩
  exact key 5000 (by have := hK t; omega)

/-- While the chip is not reset, what the network offers arrives unless the buffer is full or the
file is at its end. -/
theorem run_fill {e : Env} (n : Nat) : ∀ {s s' : Mach}, s.run e n = some s' →
    (∀ j t, j ≤ n → s.run e j = some t → 0 < t.w.arrived) → s.w.sr = stEstablished ∨ e.file.length ≤ s.w.arrived →
    min (min e.file.length (s.w.freed + 8192)) (s.w.arrived + e.offered s.time n) ≤ s'.w.arrived := by
  induction n with
  | zero => intro s s' h _ _; cases h; exact Nat.min_le_right _ _
  | succ n ih =>
    intro s s' h hp hu
    rw [run_succ] at h
    obtain ⟨v, hv, hv'⟩ := Option.bind_eq_some_iff.mp h
    have c := step_calm hv
    have ht : v.time = s.time + 1 := c.time
    have hv1 : s.run e 1 = some v := by rw [run_succ, hv]; rfl
    have hr : v.w.regs.resets = (s.env e).w.regs.resets := by
      refine Decidable.byContradiction fun hc => ?_
      have := c.wiped hc
      have := hp 1 v (by omega) hv1
      omega
    have st := c.still hr
    have f := env_fill hu
    have g1 := st.arrived
    have g2 := st.freed
    have g3 := (soft_env e s).freed
    have g4 := (soft_env e s).arrived
    have uv : v.w.sr = stEstablished ∨ e.file.length ≤ v.w.arrived := by
      by_cases hl : e.file.length ≤ v.w.arrived
      · exact .inr hl
      · have hs : s.w.arrived < e.file.length := by omega
        exact .inl (st.sr (traffic_sr _ _ _ _ (hu.resolve_right (by omega)) hs))
    have k := ih hv' (fun j t hj hjt => hp (1 + j) t (by omega) (by rw [run_add 1 hv1]; exact hjt)) uv
    rw [ht] at k
    rw [offered_succ]
    omega

theorem hop_fill {e : Env} {s s' : Mach} {r n k : Nat} (h : Hop e s r n k s') (hr : RingOk e s.w) (hp : 0 < s.w.arrived) :
    min (min e.file.length (s.w.freed + 8192)) (s.w.arrived + e.offered s.time n) ≤ s'.w.arrived ∧ s'.time = s.time + n := by
  refine ⟨run_fill n h.run (fun j t hj ht => ?_) hr.up, run_time n h.run⟩
  obtain ⟨u, h1, h2⟩ := h.steps j hj
  rw [ht] at h1
  cases h1
  exact Nat.lt_of_lt_of_le hp h2.arrived

/-- `d` instructions after the start of the block at `B`, at position `P` of the stream. -/
structure OnTime (e : Env) (s : Mach) (P : Nat) : Prop where
  ex : ∃ d, d ≤ s.time ∧ 5 * (P % 2048) ≤ 2 * d + 35 ∧
    min (min e.file.length (2048 * (P / 2048) + 8192)) (2048 * (P / 2048) + 2048 + e.offered (s.time - d) d) ≤ s.w.arrived

theorem paced_start {e : Env} {s : Mach} {P : Nat} {ops : List Opcode} (h : AtOp e s P ops) (hP : P % 2048 ≤ 7) : OnTime e s P := by
  refine ⟨0, Nat.zero_le _, by omega, ?_⟩
  have := h.play.block
  have := h.freed
  show min _ (2048 * (P / 2048) + 2048 + 0) ≤ _
  omega

theorem paced_next {e : Env} {s t : Mach} {P r n k : Nat} {ops : List Opcode} (h : AtOp e s P ops) (hp : OnTime e s P)
    (hh : Hop e s (P + 2) n r t) (hk : 5 * k ≤ 2 * n) (hm : P % 2048 + k < 2048) : OnTime e t (P + k) := by
  obtain ⟨d, h1, h2, h3⟩ := hp.ex
  have hf := h.freed
  have hb := h.play.block
  obtain ⟨g1, g2⟩ := hop_fill hh h.play.ring (by omega)
  have e1 : (P + k) / 2048 = P / 2048 := by omega
  refine ⟨d + n, by omega, by omega, ?_⟩
  rw [g2, show s.time + n - (d + n) = s.time - d by omega, offered_add, show s.time - d + d = s.time by omega, e1]
  omega

/-- After an ACK the next block is there. -/
theorem paced_ack {e : Env} (hK : e.KeepsUp) {s t : Mach} {P : Nat} {ops ops' : List Opcode} (h : AtOp e s P ops) (hp : OnTime e s P)
    (hh : Hop e s (P + 2) 25 2 t) (hP : P % 2048 = 2044) (hf' : t.w.freed = 2048 * ((P + 4) / 2048)) (h4 : Here e (P + 4) ops') :
    t.w.freed + 2048 ≤ (t.env e).w.arrived := by
  obtain ⟨d, h1, h2, h3⟩ := hp.ex
  have hf := h.freed
  have hb := h.play.block
  obtain ⟨g1, g2⟩ := hop_fill hh h.play.ring (by omega)
  have g3 := (soft_env e t).arrived
  have hl := here_block h4
  have k := hK (s.time - d)
  have o1 := offered_add e (s.time - d) d 25
  rw [show s.time - d + d = s.time by omega] at o1
  obtain ⟨m, hm⟩ : ∃ m, d + 25 = 5000 + m := ⟨d + 25 - 5000, by omega⟩
  have o2 := offered_add e (s.time - d) 5000 m
  rw [← hm] at o2
  omega

/-- From the look at the received size to the first opcode of a block, without waiting. -/
theorem ready_go {e : Env} {s : Mach} {P : Nat} {ops : List Opcode} (h : Ready e s P)
    (hf : s.w.freed = 2048 * (P / 2048)) (hh : Here e P ops) (hb : s.w.freed + 2048 ≤ (s.env e).w.arrived) (hk : NoKeys e s) :
    ∃ s', Hop e s P 18 2 s' ∧ AtOp e s' P ops ∧ Idle s s' ∧ s'.cycles = s.cycles + 63 ∧
      s'.clicks = s.clicks ++ [s.cycles + 28] := by
  obtain ⟨t1, a1, a2, a3, a4, a5⟩ := (ready_hop h).1 hb
  have k1 := nokeys_run _ hk a1.run
  obtain ⟨t2, b1, b2, b3, b4⟩ := (lined_kbd a2).1 (by rw [nokeys_env k1]; exact k1.1)
  obtain ⟨t3, c1, c2, c3, c4, c5⟩ := go_hop b3 (by rw [b2.freed, a3.freed]; exact hf) hh
  refine ⟨t3, (a1.trans0 b1).trans0 c1, c2, (a3.trans (idle_soft b2)).trans c3, by omega, ?_⟩
  rw [c5, b2.clicks, a5, b4, a4]

theorem timed {e : Env} (hK : e.KeepsUp) (ops : List Opcode) : ∀ {s : Mach} {P : Nat}, AtOp e s P ops → OnTime e s P → NoKeys e s →
    ∃ n k s', Hop e s (P + 2) n k s' ∧ Executes e s ops s' ∧ AtOp e s' (P + k) [] ∧
      s'.cycles = s.cycles + duration ops ∧ s'.clicks = s.clicks ++ clickTimes s.cycles ops := by
  induction ops with
  | nil =>
    intro s P h _ _
    have hav : P + 2 ≤ s.w.arrived := phase_avail (.op h)
    refine ⟨0, 0, s, ⟨rfl, ?_, by rw [bytes_zero, List.append_nil], fun j _ _ hj => absurd hj (Nat.not_lt_zero j)⟩, .nil s, h, rfl, (List.append_nil _).symm⟩
    intro j hj
    obtain rfl : j = 0 := by omega
    exact ⟨s, rfl, within_refl hav⟩
  | cons op ops ih =>
    intro s P h hpc hk
    have fin : ∀ {t : Mach} {n k d : Nat} {cl : List Nat}, Hop e s (P + 2) n k t → AtOp e t (P + k) ops → OnTime e t (P + k) →
        (∀ s', Executes e t ops s' → Executes e s (op :: ops) s') → t.cycles = s.cycles + d → t.clicks = s.clicks ++ cl →
        duration (op :: ops) = d + duration ops → clickTimes s.cycles (op :: ops) = cl ++ clickTimes (s.cycles + d) ops →
        ∃ n k s', Hop e s (P + 2) n k s' ∧ Executes e s (op :: ops) s' ∧ AtOp e s' (P + k) [] ∧
          s'.cycles = s.cycles + duration (op :: ops) ∧ s'.clicks = s.clicks ++ clickTimes s.cycles (op :: ops) := by
      intro t n k d cl a1 a2 ap a3 a4 a5 a6 a7
      obtain ⟨n', k', s', b1, b2, b3, b4, b5⟩ := ih a2 ap (nokeys_run _ hk a1.run)
      rw [Nat.add_right_comm] at b1
      refine ⟨_, _, s', a1.trans b1, a3 s' b2, by rw [← Nat.add_assoc]; exact b3, ?_, ?_⟩
      · rw [b4, a4, a6, Nat.add_assoc]
      · rw [b5, a5, a7, a4, List.append_assoc]
    cases op with
    | header m => exact absurd (h.here.body _ List.mem_cons_self) (by simp [BodyOp])
    | terminate => exact absurd (h.here.body _ List.mem_cons_self) (by simp [BodyOp])
    | nop =>
      obtain ⟨t, a1, a2, a3, a4, a5, a6, a7⟩ := op_nop h
      exact fin (cl := []) a1 a2 (paced_next h hpc a1 (by decide) (by have := (here_nop h.here).2.1; omega)) (fun s' h' => .nop a3 ⟨_, a1.run⟩ a4 a5 h') a6 (by rw [a7, List.append_nil]) rfl rfl
    | tick x p c os =>
      obtain ⟨n, t, a0, a1, a2, a3, a4, a5, a6, a7⟩ := op_tick h
      exact fin a1 a2 (paced_next h hpc a1 (by omega) (by have := (here_tick h.here).2.1; omega)) (fun s' h' => .tick a3 ⟨_, a1.run⟩ a4 a5 a6 a7 h') a4 a5 rfl rfl
    | ack a =>
      obtain ⟨t, a1, a2, a3, a4, a5, a6, a7, a8, a9⟩ := op_ack h
      obtain ⟨u, b1, b2, b3, b4, b5⟩ := ready_go a2 a3 a4
        (paced_ack hK h hpc a1 (here_ack h.here).2.1 a3 a4) (nokeys_run _ hk a1.run)
      refine fin (a1.trans b1) b2 (paced_start b2 (by have := (here_ack h.here).2.1; omega)) (fun s' h' => .ack a5 ⟨_, (a1.trans b1).run⟩ (b3.mem.trans a6) (by rw [b3.sw, a7]) h')
        (d := 2 * 73) (cl := [s.cycles + 4, s.cycles + 4 + 34, s.cycles + 73 + 4, s.cycles + 73 + 4 + 34]) ?_ ?_ rfl rfl
      · rw [b4, a8]
      · rw [b5, a9, a8, List.append_assoc]
        rfl

end IIVision.Player
