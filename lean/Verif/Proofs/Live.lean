import Verif.Proofs.Play

/-! Progress of the player. -/

namespace IIVision.Player

open Spec

theorem deliver_some (f : List U8) {n : Nat} (hn : 0 < n) (w : W5100) (h1 : w.arrived < f.length)
    (h2 : w.arrived < w.freed + 8192) : w.arrived + 1 ≤ (w.deliver f n).arrived := by
  obtain ⟨m, rfl⟩ : ∃ m, n = m + 1 := ⟨n - 1, by omega⟩
  unfold W5100.deliver
  rw [if_pos ⟨h1, h2⟩]
  exact (deliver_same f m (w.arrive f)).arrived

theorem traffic_eq (f : List U8) (v : Option U8) (n : Nat) (w : W5100) (h0 : w.sr = stEstablished)
    (h1 : w.arrived < f.length) : w.traffic f v n = w.deliver f n := by
  have hl : w.link f v = w := by
    unfold W5100.link
    split
    · rfl
    · rw [if_neg (by rw [h0]; exact fun h => absurd h.1 (by decide)), if_neg (fun h => by omega)]
  unfold W5100.traffic
  rw [hl]
  dsimp only
  rw [if_pos h0]

theorem traffic_some (f : List U8) (v : Option U8) {n : Nat} (hn : 0 < n) (w : W5100) (h0 : w.sr = stEstablished)
    (h1 : w.arrived < f.length) (h2 : w.arrived < w.freed + 8192) : w.arrived + 1 ≤ (w.traffic f v n).arrived := by
  rw [traffic_eq f v n w h0 h1]
  exact deliver_some f hn w h1 h2

theorem traffic_sr (f : List U8) (v : Option U8) (n : Nat) (w : W5100) (h0 : w.sr = stEstablished)
    (h1 : w.arrived < f.length) : (w.traffic f v n).sr = stEstablished := by
  rw [traffic_eq f v n w h0 h1, deliver_sr]
  exact h0

/-- If something is delivered at time `T`, something arrives. -/
theorem run_arrives {e : Env} {T : Nat} (hT : 0 < e.deliver T) (n : Nat) : ∀ {s s' : Mach}, s.run e n = some s' →
    s'.w.regs.resets = s.w.regs.resets → s.w.sr = stEstablished →
    s.time ≤ T → T < s.time + n → s.w.arrived < e.file.length → s.w.arrived < s.w.freed + 8192 →
    s.w.arrived + 1 ≤ s'.w.arrived := by
  induction n with
  | zero => intro s s' _ _ _ h1 h2; omega
  | succ n ih =>
    intro s s' h hr h0 h1 h2 h3 h4
    rw [run_succ] at h
    obtain ⟨v, hv, hv'⟩ := Option.bind_eq_some_iff.mp h
    have ht : v.time = s.time + 1 := (step_calm hv).time
    have r1 := step_resets hv
    have r2 := run_resets n hv'
    have c := step_still hv (by omega)
    have g1 : v.w.arrived = (s.env e).w.arrived := c.arrived
    have g2 := (soft_env e s).arrived
    have g3 := c.freed
    have g4 := (soft_env e s).freed
    have g5 := (run_mono n hv' (by omega)).1
    by_cases hc : s.time = T
    · have : s.w.arrived + 1 ≤ (s.env e).w.arrived := traffic_some e.file _ (by rw [hc]; exact hT) s.w h0 h3 h4
      omega
    · by_cases hd : s.w.arrived + 1 ≤ v.w.arrived
      · omega
      · have := ih hv' (by omega) (c.sr (traffic_sr _ _ _ _ h0 h3)) (by omega) (by omega) (by omega) (by omega)
        omega

/-- Waiting for a block ends if the network delivers. -/
theorem wait_live {e : Env} (hD : e.Delivers) {r : Nat} (d : Nat) : ∀ {s : Mach}, Ready e s r →
    s.w.freed + 2048 ≤ e.file.length → s.w.freed + 2048 ≤ s.w.arrived + d →
    ∃ n s', Hop e s r n 0 s' ∧ Lined e s' r 0x4051 ∧ Idle s s' := by
  induction d with
  | zero =>
    intro s h hf hd
    obtain ⟨s', h1, h2, h3, -⟩ := (ready_hop h).1 (by have := (soft_env e s).arrived; omega)
    exact ⟨_, s', h1, h2, h3⟩
  | succ d ih =>
    intro s0 h0 hf0 hd0
    obtain ⟨T, ht, hT⟩ := hD s0.time
    have inner : ∀ (g : Nat) {s : Mach}, Ready e s r → s.w.freed + 2048 ≤ e.file.length →
        s.w.freed + 2048 ≤ s.w.arrived + (d + 1) → s.time ≤ T → T + 1 ≤ s.time + g →
        ∃ n s', Hop e s r n 0 s' ∧ Lined e s' r 0x4051 ∧ Idle s s' := by
      intro g
      induction g with
      | zero => intro s _ _ _ h1 h2; omega
      | succ g ihg =>
        intro s h hf hd h1 h2
        by_cases hc : s.w.freed + 2048 ≤ (s.env e).w.arrived
        · obtain ⟨s', a1, a2, a3, -⟩ := (ready_hop h).1 hc
          exact ⟨_, s', a1, a2, a3⟩
        · obtain ⟨s', a1, a2, a3⟩ := (ready_hop h).2 hc
          have hm := run_mono 9 a1.run (by rw [a3.regs])
          have htm := run_time 9 a1.run
          have hfr := a3.freed
          have hse := (soft_env e s).arrived
          by_cases hl : s'.time ≤ T
          · obtain ⟨n, s'', b1, b2, b3⟩ := ihg a2 (by omega) (by omega) hl (by omega)
            exact ⟨_, s'', a1.trans0 b1, b2, a3.trans b3⟩
          · have := run_arrives hT 9 a1.run (by rw [a3.regs]) (h.ring.ring.up.resolve_right (by omega)) h1 (by omega) (by omega) (by omega)
            obtain ⟨n, s'', b1, b2, b3⟩ := ih a2 (by omega) (by omega)
            exact ⟨_, s'', a1.trans0 b1, b2, a3.trans b3⟩
    exact inner (T + 1) h0 hf0 hd0 ht (by omega)

theorem env_kbd {e : Env} {s : Mach} (h : s.kbd.getLsbD 7 = true ∨ e.key s.time ≠ none) : (s.env e).kbd.getLsbD 7 = true := by
  show (match e.key s.time with | some k => k ||| 0x80#8 | none => s.kbd).getLsbD 7 = true
  cases hk : e.key s.time with
  | some k => simp
  | none =>
    rcases h with h | h
    · exact h
    · exact absurd hk h

/-- A pause ends with the next key. -/
theorem pause_live {e : Env} {r : Nat} {T : Nat} (hT : e.key T ≠ none) (g : Nat) : ∀ {s : Mach}, Lined e s r 0x4059 →
    s.kbd.getLsbD 7 = true ∨ s.time ≤ T → T + 1 ≤ s.time + g → ∃ n s', Hop e s r n 0 s' ∧ Lined e s' r 0x4061 ∧ Idle s s' := by
  induction g using Nat.strongRecOn with
  | _ g ih =>
    intro s h h1 h2
    cases hk : (s.env e).kbd.getLsbD 7 with
    | true =>
      obtain ⟨s', a1, a2, a3⟩ := (lined_pause h).1 hk
      exact ⟨_, s', a1, a3, idle_soft a2⟩
    | false =>
      have hb : ¬ s.kbd.getLsbD 7 = true := fun hc => by rw [env_kbd (.inl hc)] at hk; cases hk
      have hle : s.time ≤ T := h1.resolve_left hb
      have hne : s.time ≠ T := fun hc => by rw [env_kbd (.inr (by rw [hc]; exact hT))] at hk; cases hk
      obtain ⟨t, s', a1, a2, a3, a4, a5, a6, a7⟩ := (lined_pause h).2 hk
      obtain ⟨n, s'', b1, b2, b3⟩ := ih (g - 1) (by omega) a3 (by
        by_cases hc : s'.time ≤ T
        · exact .inr hc
        · left
          rw [a6]
          exact env_kbd (.inr (by rw [a5, show s.time + 1 = T by omega]; exact hT))) (by omega)
      exact ⟨_, s'', a1.trans0 b1, b2, (idle_soft a2).trans b3⟩

/-- From the end of a block to the first opcode of the next, unless paused for ever. -/
theorem ready_live {e : Env} (hD : e.Delivers) {s : Mach} {P : Nat} {ops : List Opcode} (h : Ready e s P)
    (hf : s.w.freed = 2048 * (P / 2048)) (hh : Here e P ops) :
    (∃ n s', Hop e s P n 2 s' ∧ AtOp e s' P ops ∧ Idle s s') ∨ ∃ n s', Hop e s P n 0 s' ∧ Paused e s' ∧ ¬ NoKeys e s := by
  have hb := here_block hh
  obtain ⟨n1, t1, a1, a2, a3⟩ := wait_live hD 2048 h (by omega) (by have := h.ring.ring.freed; omega)
  have fin : ∀ {t : Mach} {n : Nat}, Hop e s P n 0 t → Lined e t P 0x4061 → Idle s t →
      ∃ n s', Hop e s P n 2 s' ∧ AtOp e s' P ops ∧ Idle s s' := by
    intro t n b1 b2 b3
    obtain ⟨s', c1, c2, c3, -⟩ := go_hop b2 (by rw [b3.freed]; exact hf) hh
    exact ⟨_, s', b1.trans0 c1, c2, b3.trans c3⟩
  cases hk : (t1.env e).kbd.getLsbD 7 with
  | false =>
    obtain ⟨t2, b1, b2, b3, -⟩ := (lined_kbd a2).1 hk
    exact .inl (fin (a1.trans0 b1) b3 (a3.trans (idle_soft b2)))
  | true =>
    obtain ⟨t2, b1, b2, b3⟩ := (lined_kbd a2).2 hk
    have hop := a1.trans0 b1
    have id := a3.trans (idle_soft b2)
    by_cases hkb : t2.kbd.getLsbD 7 = true
    · obtain ⟨t3, c1, c2, c3⟩ := (lined_pause b3).1 (env_kbd (.inl hkb))
      exact .inl (fin (hop.trans0 c1) c3 (id.trans (idle_soft c2)))
    · by_cases hex : ∃ T, t2.time ≤ T ∧ e.key T ≠ none
      · obtain ⟨T, h1, h2⟩ := hex
        obtain ⟨n3, t3, c1, c2, c3⟩ := pause_live h2 (T + 1) b3 (.inr h1) (by omega)
        exact .inl (fin (hop.trans0 c1) c2 (id.trans c3))
      · refine .inr ⟨_, t2, hop, ⟨b3.pc, by simpa using hkb, ?_⟩, ?_⟩
        · exact fun t ht => Classical.byContradiction fun hc => hex ⟨t, ht, hc⟩
        · intro hno
          have h1 := nokeys_run _ hno a1.run
          rw [nokeys_env h1, h1.1] at hk
          cases hk

/-- All opcodes of a stream are executed, unless the player is paused for ever. -/
theorem play_ops {e : Env} (hD : e.Delivers) (ops : List Opcode) : ∀ {s : Mach} {P : Nat}, AtOp e s P ops →
    (∃ n k s' P', Hop e s (P + 2) n k s' ∧ Executes e s ops s' ∧ AtOp e s' P' [] ∧ P' = P + k) ∨
    ∃ n k s', Hop e s (P + 2) n k s' ∧ Paused e s' ∧ ¬ NoKeys e s := by
  induction ops with
  | nil =>
    intro s P h
    have hav : P + 2 ≤ s.w.arrived := phase_avail (.op h)
    refine .inl ⟨0, 0, s, P, ⟨rfl, ?_, by rw [bytes_zero, List.append_nil], fun j _ _ hj => absurd hj (Nat.not_lt_zero j)⟩, .nil s, h, rfl⟩
    intro j hj
    obtain rfl : j = 0 := by omega
    exact ⟨s, rfl, within_refl hav⟩
  | cons op ops ih =>
    intro s P h
    -- the next opcode having been dispatched
    have fin : ∀ {t : Mach} {P' n k : Nat}, Hop e s (P + 2) n k t → AtOp e t P' ops → P' = P + k →
        (∀ s', Executes e t ops s' → Executes e s (op :: ops) s') →
        (∃ n k s' P', Hop e s (P + 2) n k s' ∧ Executes e s (op :: ops) s' ∧ AtOp e s' P' [] ∧ P' = P + k) ∨
        ∃ n k s', Hop e s (P + 2) n k s' ∧ Paused e s' ∧ ¬ NoKeys e s := by
      intro t P' n k a1 a2 a3 a4
      rcases ih a2 with ⟨n', k', s', P'', b1, b2, b3, b4⟩ | ⟨n', k', s', b1, b2, b5⟩
      · rw [a3, Nat.add_right_comm] at b1
        exact .inl ⟨_, _, s', P'', a1.trans b1, a4 s' b2, b3, by omega⟩
      · rw [a3, Nat.add_right_comm] at b1
        exact .inr ⟨_, _, s', a1.trans b1, b2, fun hc => b5 (nokeys_run _ hc a1.run)⟩
    cases op with
    | header m => exact absurd (h.here.body _ List.mem_cons_self) (by simp [BodyOp])
    | terminate => exact absurd (h.here.body _ List.mem_cons_self) (by simp [BodyOp])
    | nop =>
      obtain ⟨t, a1, a2, a3, a4, a5, -⟩ := op_nop h
      exact fin a1 a2 rfl fun s' h' => .nop a3 ⟨_, a1.run⟩ a4 a5 h'
    | tick x p c os =>
      obtain ⟨n, t, -, a1, a2, a3, a4, a5, a6, a7⟩ := op_tick h
      exact fin a1 a2 rfl fun s' h' => .tick a3 ⟨_, a1.run⟩ a4 a5 a6 a7 h'
    | ack a =>
      obtain ⟨t, a1, a2, a3, a4, a5, a6, a7, -⟩ := op_ack h
      rcases ready_live hD a2 a3 a4 with ⟨n, u, b1, b2, b3⟩ | ⟨n, u, b1, b2, b5⟩
      · exact fin (a1.trans b1) b2 rfl fun s' h' =>
          .ack a5 ⟨_, (a1.trans b1).run⟩ (b3.mem.trans a6) (by rw [b3.sw, a7]) h'
      · exact .inr ⟨_, _, u, a1.trans b1, b2, fun hc => b5 (nokeys_run _ hc a1.run)⟩

end IIVision.Player
