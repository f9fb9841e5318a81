import Verif.Proofs.TickCheck

/-! The tick opcodes do what they should. -/

namespace IIVision.Player

theorem steered_code {q : Nat} (s : Mach) (h : (0x800 ≤ q ∧ q < 0x2000) ∨ 0x4000 ≤ q) : s.steered q = false := by
  unfold Mach.steered
  rcases h with h | h
  · have e1 : decide (q < 0x800) = false := by rw [decide_eq_false_iff_not]; omega
    have e2 : decide (0x2000 ≤ q) = false := by rw [decide_eq_false_iff_not]; omega
    rw [e1, e2]; simp
  · have e1 : decide (q < 0x800) = false := by rw [decide_eq_false_iff_not]; omega
    have e2 : decide (q < 0x4000) = false := by rw [decide_eq_false_iff_not]; omega
    rw [e1, e2]; simp

theorem jump_step {e : Env} {s0 : Mach} {r0 : Nat} {σ : Sym} {s : Mach} {k : Nat}
    (hr : Rel e false s0 r0 σ s) (hj : jumpCheck σ k = true) :
    ∃ s', s.step e = some s' ∧ Rel e false s0 r0
      { σ with pc := 256 * (e.byte (r0 + k)).toNat + (e.byte (r0 + (k + 1))).toNat, cyc := σ.cyc + 3 } s' ∧
      s'.kbd = (s.env e).kbd := by
  have hr := rel_env hr
  unfold Mach.step
  dsimp only
  generalize s.env e = t at hr
  simp only [jumpCheck, Bool.and_eq_true] at hj
  obtain ⟨⟨⟨⟨⟨⟨⟨⟨h1, h2⟩, h3⟩, h4⟩, h5⟩, -⟩, -⟩, -⟩, -⟩ := hj
  cases hc : codeByte false σ.pc with
  | none => rw [hc] at h1; cases h1
  | some b =>
    rw [hc] at h1
    have hb := Nat.eq_of_beq_eq_true h1
    subst hb
    have hop : (t.ram t.pc).toNat = 0x4c := by
      unfold Mach.ram
      rw [steered_false_of_code (h := false) t (fun h => by cases h) (by rw [hr.pc]; exact hc)]
      simp only [Bool.false_eq_true, if_false]
      rw [hr.code t.pc _ (by rw [hr.pc]; exact hc)]
      rfl
    have opd : ∀ {q : Nat} {u : V} (hp : isPatch q = true) (hl : lookup q σ.wr = some u), t.ram q = u.val e s0 r0 := by
      intro q u hp hl
      have hrg := isPatch_range hp
      unfold Mach.ram
      rw [steered_code t (by omega)]
      simp only [Bool.false_eq_true, if_false]
      rw [hr.main]
      exact lookup_main e s0 r0 (by omega) (steered_code s0 (by omega)) _ hl
    cases hl1 : lookup (σ.pc + 1) σ.wr with
    | none => rw [hl1] at h4; cases h4
    | some v1 =>
      cases hl2 : lookup (σ.pc + 2) σ.wr with
      | none => rw [hl2] at h5; cases h5
      | some v2 =>
        rw [hl1] at h4
        rw [hl2] at h5
        have e1 := V.isStr_eq h4
        have e2 := V.isStr_eq h5
        subst e1
        subst e2
        have o1 := opd h2 hl1
        have o2 := opd h3 hl2
        rw [← hr.pc] at o1 o2 h3
        have hlt : t.pc + 3 ≤ 0xc000 := by
          have := isPatch_range h3; omega
        have hf : t.fetch = some (.jmp ((e.byte (r0 + (k + 1))).toNat + 256 * (e.byte (r0 + k)).toNat)) := by
          unfold Mach.fetch
          rw [hop, o1, o2]
          exact if_pos hlt
        rw [hf]
        refine ⟨_, rfl, ?_, rfl⟩
        have := rel_pc (rel_cycles hr 3) (256 * (e.byte (r0 + k)).toNat + (e.byte (r0 + (k + 1))).toNat)
        rw [Nat.add_comm (e.byte (r0 + (k + 1))).toNat]
        exact this

theorem base_of_playing {e : Env} {s : Mach} {r n : Nat} (h : Playing e s r) (hn : r + n ≤ s.w.arrived) :
    Base e false s r n :=
  ⟨h.auto, (fun h => by cases h), h.rd, h.freed, hn, fun _ => h.block⟩

theorem start_of_playing {e : Env} {s : Mach} {r : Nat} (h : Playing e s r) (ha : r ≤ s.w.arrived) :
    Rel e false s r (symStart s.pc) s :=
  rel_start (x := .lit 0) (ptr := .ring) h.ptr h.x h.ring (codeOk_of_intact h.intact) ha

/-- Playing goes on after a run that ends in a jump. -/
theorem playing_of_rel {e : Env} {s s' : Mach} {r n : Nat} (h : Playing e s r) {σ : Sym}
    (hr : Rel e false s r σ s') (h1 : σ.ptr = .ring) (h2 : σ.x = .lit 0) (h3 : σ.rdw = false) (h4 : σ.recv = false)
    (h5 : σ.reads = n) : Playing e s' (r + n) where
  intact := intact_of_codeOk hr.code
  auto := by rw [hr.mode]; exact h.auto
  ptr := by rw [hr.ptr, h1, h5]; rfl
  ring := hr.ring
  rd := by rw [hr.rd, hr.freed, h3, h4]; exact h.rd
  freed := by rw [hr.freed, h4]; have := h.freed; simp only [Bool.false_eq_true, if_false]; omega
  block := by rw [hr.freed, h4]; have := h.block; have := hr.arrived; simp only [Bool.false_eq_true, if_false]; omega
  x := by rw [hr.x, h2]; rfl

theorem range_seven (f : Nat → U8) : (List.range 7).map f = [f 0, f 1, f 2, f 3, f 4, f 5, f 6] := rfl

theorem tick_facts {i p : Nat} (hi : i < 32) (hp : 32 ≤ p) (hp' : p < 64) :
    ∃ σ, symRun false 7 (tickLen i) (symStart (sym (.opTick (4 + 2 * i) p))) = some σ ∧ jumpCheck σ 5 = true ∧
      σ.reads = 7 ∧ σ.cyc = 70 ∧ σ.clk = [4 + pulse i, 4] ∧
      σ.wr.filter isScr = [(256 * p, .str 4, .str 0), (256 * p, .str 3, .str 0), (256 * p, .str 2, .str 0),
        (256 * p, .str 1, .str 0)] := by
  have h := List.all_eq_true.mp ticks_ok (p - 32) (by simp; omega)
  rw [show 32 + (p - 32) = p by omega] at h
  have h := List.all_eq_true.mp h i (by simp; omega)
  unfold tickCheck at h
  split at h
  · cases h
  rename_i σ hσ
  refine ⟨σ, hσ, ?_⟩
  simp only [Bool.and_eq_true] at h
  obtain ⟨⟨⟨⟨h1, h2⟩, h3⟩, h4⟩, h5⟩ := h
  refine ⟨h1, Nat.eq_of_beq_eq_true h2, Nat.eq_of_beq_eq_true h3, ?_, ?_⟩
  · split at h4
    · rename_i c2 c1 hc
      rw [Bool.and_eq_true] at h4
      rw [hc, Nat.eq_of_beq_eq_true h4.1, Nat.eq_of_beq_eq_true h4.2]
    · cases h4
  · split at h5
    · rename_i w4 w3 w2 w1 hw
      simp only [Bool.and_eq_true, scrWrite] at h5
      obtain ⟨⟨⟨⟨⟨a1, b1⟩, c1⟩, ⟨a2, b2⟩, c2⟩, ⟨a3, b3⟩, c3⟩, ⟨a4, b4⟩, c4⟩ := h5
      obtain ⟨x1, y1, z1⟩ := w1
      obtain ⟨x2, y2, z2⟩ := w2
      obtain ⟨x3, y3, z3⟩ := w3
      obtain ⟨x4, y4, z4⟩ := w4
      rw [hw]
      dsimp only at a1 a2 a3 a4 b1 b2 b3 b4 c1 c2 c3 c4
      rw [Nat.eq_of_beq_eq_true a1, Nat.eq_of_beq_eq_true a2, Nat.eq_of_beq_eq_true a3, Nat.eq_of_beq_eq_true a4,
        V.isStr_eq b1, V.isStr_eq b2, V.isStr_eq b3, V.isStr_eq b4, V.isStr_eq c1, V.isStr_eq c2, V.isStr_eq c3,
        V.isStr_eq c4]
    · cases h5

/-- A tick opcode. -/
theorem tick_run {e : Env} {s : Mach} {r i p : Nat} (h : Playing e s r) (hn : r + 7 ≤ s.w.arrived)
    (hi : i < 32) (hp : 32 ≤ p) (hp' : p < 64) (hpc : s.pc = sym (.opTick (4 + 2 * i) p)) :
    ∃ s', s.run e (tickLen i + 1) = some s' ∧ Playing e s' (r + 7) ∧
      s'.pc = 256 * (e.byte (r + 5)).toNat + (e.byte (r + 6)).toNat ∧
      s'.cycles = s.cycles + 73 ∧ s'.clicks = s.clicks ++ [s.cycles + 4, s.cycles + 4 + pulse i] ∧
      s'.w.log = s.w.log ++ (List.range 7).map (fun k => e.byte (r + k)) ∧
      SameMemory s' (s.draw p (e.byte r) [e.byte (r + 1), e.byte (r + 2), e.byte (r + 3), e.byte (r + 4)]) ∧
      s'.sw = s.sw ∧ s'.w.freed = s.w.freed ∧ s.w.arrived ≤ s'.w.arrived ∧ s'.w.regs = s.w.regs := by
  obtain ⟨σ, h1, h2, h3, h4, h5, h6⟩ := tick_facts hi hp hp'
  rw [← hpc] at h1
  have hb := base_of_playing h hn
  obtain ⟨⟨t, ht, hrt⟩, -⟩ := rel_run hb _ (start_of_playing h (by omega)) h1
  obtain ⟨s', hs', hr, -⟩ := jump_step hrt h2
  simp only [jumpCheck, Bool.and_eq_true, Bool.not_eq_true'] at h2
  obtain ⟨⟨⟨⟨⟨⟨⟨⟨-, -⟩, -⟩, -⟩, -⟩, k2⟩, k3⟩, k4⟩, k5⟩ := h2
  have k2 : σ.ptr = .ring := by
    split at k2
    · assumption
    · cases k2
  refine ⟨s', ?_, ?_, hr.pc, ?_, ?_, ?_, ?_, hr.sw, ?_, hr.arrived, hr.regs⟩
  · rw [run_add _ ht, run_succ, hs']; rfl
  · exact playing_of_rel h hr k2 (V.isLit_eq k3) k4 k5 h3
  · rw [hr.cycles]
    show s.cycles + (σ.cyc + 3) = _
    rw [h4]
  · rw [hr.clicks]
    show _ ++ σ.clk.reverse.map _ = _
    rw [h5]
    simp [Nat.add_assoc]
  · rw [hr.log]
    show _ ++ (List.range σ.reads).map _ = _
    rw [h3]
  · intro q h8 hq
    have hq : isPatch q = false := by
      cases hc : isPatch q with
      | false => rfl
      | true => exact absurd ((isPatch_iff q).mp hc) hq
    have := other_main e s r σ.wr hr.wrok h8 hq
    rw [h6] at this
    rw [hr.main, hr.aux]
    exact this
  · rw [hr.freed]
    show (if σ.recv = true then _ else _) = _
    rw [k5]; rfl

end IIVision.Player
