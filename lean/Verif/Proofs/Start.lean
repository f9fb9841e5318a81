import Verif.Proofs.Live

/-! The player from the connection to the first block. -/

namespace IIVision.Player

open Spec

/-! ### Paths with the wider memory frame -/

theorem OnlyStartup.refl (s : Mach) : OnlyStartup s s := fun _ _ => ⟨rfl, fun _ _ _ _ => rfl⟩

theorem OnlyStartup.trans {s t u : Mach} (h1 : OnlyStartup s t) (h2 : OnlyStartup t u) : OnlyStartup s u := by
  intro q hq
  obtain ⟨a1, b1⟩ := h1 q hq
  obtain ⟨a2, b2⟩ := h2 q hq
  exact ⟨a2.trans a1, fun h3 h4 h5 h6 => (b2 h3 h4 h5 h6).trans (b1 h3 h4 h5 h6)⟩

theorem OnlyScreen.startup {s t : Mach} (h : OnlyScreen s t) : OnlyStartup s t :=
  fun q hq => ⟨(h q hq).1, fun h1 _ _ h2 => (h q hq).2 h1 h2⟩

structure WithinS (e : Env) (s : Mach) (r : Nat) (t : Mach) : Prop where
  only : OnlyStartup s t
  log : ∃ k, r + k ≤ t.w.arrived ∧ t.w.log = s.w.log ++ e.bytes r k

structure Path (e : Env) (s : Mach) (r n k : Nat) (s' : Mach) : Prop where
  run : s.run e n = some s'
  steps : ∀ j, j ≤ n → ∃ t, s.run e j = some t ∧ WithinS e s r t
  log : s'.w.log = s.w.log ++ e.bytes r k

theorem Hop.path {e : Env} {s s' : Mach} {r n k : Nat} (h : Hop e s r n k s') : Path e s r n k s' := by
  refine ⟨h.run, ?_, h.log⟩
  intro j hj
  obtain ⟨t, h1, h2⟩ := h.steps j hj
  exact ⟨t, h1, h2.only.startup, h2.log⟩

theorem Path.within {e : Env} {s s' : Mach} {r n k : Nat} (h : Path e s r n k s') : WithinS e s r s' := by
  obtain ⟨t, h1, h2⟩ := h.steps n (Nat.le_refl _)
  rw [h.run] at h1
  cases h1
  exact h2

theorem Path.trans {e : Env} {s s' s'' : Mach} {r n k n' k' : Nat} (h : Path e s r n k s') (h' : Path e s' (r + k) n' k' s'') :
    Path e s r (n + n') (k + k') s'' := by
  refine ⟨by rw [run_add n h.run]; exact h'.run, ?_, ?_⟩
  · intro j hj
    by_cases hlt : j ≤ n
    · exact h.steps j hlt
    · obtain ⟨t, h1, h2⟩ := h'.steps (j - n) (by omega)
      refine ⟨t, ?_, h.within.only.trans h2.only, ?_⟩
      · rw [← h1, ← run_add n h.run, show n + (j - n) = j by omega]
      · obtain ⟨l, h3, h4⟩ := h2.log
        exact ⟨k + l, by omega, by rw [h4, h.log, bytes_add, List.append_assoc]⟩
  · rw [h'.log, h.log, bytes_add, List.append_assoc]

theorem Path.trans0 {e : Env} {s s' s'' : Mach} {r n n' k' : Nat} (h : Path e s r n 0 s') (h' : Path e s' r n' k' s'') :
    Path e s r (n + n') k' s'' := by
  have := h.trans (by rw [Nat.add_zero]; exact h')
  rwa [Nat.zero_add] at this

theorem path_one {e : Env} {s s' : Mach} {r k : Nat} (hs : s.step e = some s') (ha : r ≤ s.w.arrived)
    (ho : OnlyStartup s s') (hl : s'.w.log = s.w.log ++ e.bytes r k) (h1 : r + k ≤ s'.w.arrived) :
    Path e s r 1 k s' := by
  have hrun : s.run e 1 = some s' := by rw [run_succ, hs]; rfl
  refine ⟨hrun, ?_, hl⟩
  intro j hj
  obtain rfl | rfl : j = 0 ∨ j = 1 := by omega
  · exact ⟨s, rfl, .refl _, 0, by omega, by rw [bytes_zero, List.append_nil]⟩
  · exact ⟨s', hrun, ho, ⟨k, by omega, hl⟩⟩

/-! ### Waiting for the header -/

/-- Waiting for the header, at the start of the loop. -/
structure Waiting (e : Env) (s : Mach) : Prop where
  pc : s.pc = 0x214a
  code : CodeOk true s.main
  intact : Intact s.main
  page2 : s.sw.page2 = false
  ptr : s.w.ptr / 256 = 4
  ring : RingW e s.w 0
  freed : s.w.freed = 0
  log : s.w.log = []

theorem not_steered {s : Mach} (h : s.sw.page2 = false) (q : Nat) : s.steered q = false := by
  unfold Mach.steered; rw [h]; simp

theorem intact_of_loaded {m : Nat → U8} (h : Loaded m) : Intact m := fun seg hs _ i b hb _ => h seg hs i b hb

theorem waiting_of_connected {e : Env} {s : Mach} (h : Connected e s) : Waiting e s :=
  ⟨h.pc, codeOk_of_loaded h.loaded, intact_of_loaded h.loaded, h.page2, h.ptr,
   ⟨h.auto, h.ring, by rw [h.rd, h.freed], by rw [h.freed]; exact Nat.zero_le _, Nat.zero_le _⟩, h.freed, h.log⟩

/-- The parts of a step that looks around without touching index registers or speaker. -/
theorem step_ldai {e : Env} {h : Bool} {s : Mach} {v : Nat} (hc : CodeOk h s.main) (hs : h = true → s.steered 0x2000 = false)
    (hf : symFetch h s.pc = some (.ldaI v)) :
    ∃ s', s.step e = some s' ∧ Soft e s s' ∧ s'.pc = s.pc + 2 ∧ s'.w.ptr = s.w.ptr ∧ s'.a = BitVec.ofNat 8 v := by
  have se := soft_env e s
  have w := traffic_same e.file (e.link s.time) (e.deliver s.time) s.w
  refine ⟨_, by rw [step_code hc hs hf]; rfl, ?_, rfl, w.ptr, rfl⟩
  exact se.trans ⟨rfl, rfl, rfl, rfl, rfl, rfl, rfl, rfl, rfl, Nat.le_refl _, fun r h => h⟩

theorem step_wadrl {e : Env} {h : Bool} {s : Mach} (hc : CodeOk h s.main) (hs : h = true → s.steered 0x2000 = false)
    (hf : symFetch h s.pc = some (.staA 0xc096)) :
    ∃ s', s.step e = some s' ∧ Soft e s s' ∧ s'.pc = s.pc + 3 ∧ s'.w.ptr = 256 * (s.w.ptr / 256) + s.a.toNat := by
  have se := soft_env e s
  have w := traffic_same e.file (e.link s.time) (e.deliver s.time) s.w
  refine ⟨_, by rw [step_code hc hs hf]; rfl, ?_, rfl, ?_⟩
  · exact se.trans ⟨rfl, rfl, rfl, rfl, rfl, rfl, rfl, rfl, rfl, Nat.le_refl _, fun r h => ringW_ptr h _⟩
  · show 256 * ((s.env e).w.ptr / 256) + _ = _
    rw [show (s.env e).w.ptr = s.w.ptr from w.ptr]
    rfl

theorem step_nop {e : Env} {h : Bool} {s : Mach} (hc : CodeOk h s.main) (hs : h = true → s.steered 0x2000 = false)
    (hf : symFetch h s.pc = some .nop) :
    ∃ s', s.step e = some s' ∧ Soft e s s' ∧ s'.pc = s.pc + 1 ∧ s'.w.ptr = s.w.ptr := by
  have se := soft_env e s
  have w := traffic_same e.file (e.link s.time) (e.deliver s.time) s.w
  refine ⟨_, by rw [step_code hc hs hf]; rfl, ?_, rfl, w.ptr⟩
  exact se.trans ⟨rfl, rfl, rfl, rfl, rfl, rfl, rfl, rfl, rfl, Nat.le_refl _, fun r h => h⟩

theorem step_jmp {e : Env} {h : Bool} {s : Mach} {q : Nat} (hc : CodeOk h s.main) (hs : h = true → s.steered 0x2000 = false)
    (hf : symFetch h s.pc = some (.jmp q)) :
    ∃ s', s.step e = some s' ∧ Soft e s s' ∧ s'.pc = q ∧ s'.w.ptr = s.w.ptr := by
  have se := soft_env e s
  have w := traffic_same e.file (e.link s.time) (e.deliver s.time) s.w
  refine ⟨_, by rw [step_code hc hs hf]; rfl, ?_, rfl, w.ptr⟩
  exact se.trans ⟨rfl, rfl, rfl, rfl, rfl, rfl, rfl, rfl, rfl, Nat.le_refl _, fun r h => h⟩

/-- Arrived at the reading of the header. -/
structure Heading (e : Env) (s : Mach) : Prop where
  pc : s.pc = 0x215b
  code : CodeOk true s.main
  intact : Intact s.main
  page2 : s.sw.page2 = false
  ptr : s.w.ptr = 0x427
  ring : RingW e s.w 0
  freed : s.w.freed = 0
  log : s.w.log = []
  avail : 256 ≤ s.w.arrived

theorem waiting_hop {e : Env} {s : Mach} (h : Waiting e s) :
    (∃ s', Hop e s 0 5 0 s' ∧ Heading e s' ∧ Soft e s s') ∨
    (∃ s', Hop e s 0 8 0 s' ∧ Waiting e s' ∧ Soft e s s' ∧ s.w.arrived < 256) := by
  have st := fun (_ : true = true) => not_steered h.page2 0x2000
  obtain ⟨t1, a1, a2, a3, a4, a5⟩ := step_ldai (e := e) h.code st (v := 0x26) (by rw [h.pc]; decide +kernel)
  rw [h.pc] at a3
  have c1 : CodeOk true t1.main := by rw [a2.main]; exact h.code
  have st1 : true = true → t1.steered 0x2000 = false := fun _ => not_steered (by rw [a2.sw]; exact h.page2) _
  obtain ⟨t2, b1, b2, b3, b4⟩ := step_wadrl (e := e) c1 st1 (by rw [a3]; decide +kernel)
  rw [a3] at b3
  have p2 : t2.w.ptr = 0x426 := by
    rw [b4, a4, h.ptr, a5]; rfl
  have c2 : CodeOk true t2.main := by rw [b2.main]; exact c1
  have st2 : true = true → t2.steered 0x2000 = false := fun _ => not_steered (by rw [b2.sw, a2.sw]; exact h.page2) _
  have r1 := a2.ring 0 h.ring
  have r2 := b2.ring 0 r1
  obtain ⟨t3, d1, d2, d3, -, d5, d6⟩ := step_rsr (e := e) c2 st2 (by rw [b3]; decide +kernel) p2 r2
  rw [b3] at d3
  have c3 : CodeOk true t3.main := by rw [d2.main]; exact c2
  have st3 : true = true → t3.steered 0x2000 = false := fun _ => not_steered (by rw [d2.sw, b2.sw, a2.sw]; exact h.page2) _
  have r3 := d2.ring 0 r2
  obtain ⟨t4, e1, e2, e3, -, e5, e6⟩ := step_cmp (e := e) (v := 1) c3 st3 (by rw [d3]; decide +kernel)
  rw [d3] at e3
  have c4 : CodeOk true t4.main := by rw [e2.main]; exact c3
  have s4 := (a2.trans b2).trans (d2.trans e2)
  have st4 : true = true → t4.steered 0x2000 = false := fun _ => not_steered (by rw [s4.sw]; exact h.page2) _
  have r4 := e2.ring 0 r3
  obtain ⟨t5, f1, f2, f3, -, f4, f5⟩ := step_bcs (e := e) (d := 5) c4 st4 (by rw [e3]; decide +kernel)
  rw [e3] at f4 f5
  have s5 := s4.trans f2
  have r5 := f2.ring 0 r4
  have hop5 : Hop e s 0 5 0 t5 :=
    ((((hop_soft a1 (Nat.zero_le _) a2 (.inl (kept_of_fetch h.code st (i := .ldaI 0x26) (by rw [h.pc]; decide +kernel) rfl a1))).trans0
      (hop_soft b1 (Nat.zero_le _) b2 (.inl (kept_of_fetch c1 st1 (i := .staA 0xc096) (by rw [a3]; decide +kernel) rfl b1)))).trans0
      (hop_soft d1 (Nat.zero_le _) d2 (.inl (kept_of_fetch c2 st2 (i := .ldaA 0xc097) (by rw [b3]; decide +kernel) rfl d1)))).trans0
      (hop_soft e1 (Nat.zero_le _) e2 (.inl (kept_of_fetch c3 st3 (i := .cmpI 1) (by rw [d3]; decide +kernel) rfl e1)))).trans0
      (hop_soft f1 (Nat.zero_le _) f2 (.inl (kept_of_fetch c4 st4 (i := .bcs 5) (by rw [e3]; decide +kernel) rfl f1)))
  have fr : t2.w.freed = 0 := by rw [b2.freed, a2.freed]; exact h.freed
  rw [fr, Nat.sub_zero] at d6
  have hw := ((soft_env e t2).ring 0 r2).ring.window
  rw [(soft_env e t2).freed, fr] at hw
  have hm : (t2.env e).w.arrived / 256 % 2 ^ 8 = (t2.env e).w.arrived / 256 := Nat.mod_eq_of_lt (by omega)
  have c5 : CodeOk true t5.main := by rw [s5.main]; exact h.code
  have i5 : Intact t5.main := by rw [s5.main]; exact h.intact
  have p5 : t5.sw.page2 = false := by rw [s5.sw]; exact h.page2
  have hptr : t5.w.ptr = 0x427 := by rw [f3, e5, d5]
  have fr5 : t5.w.freed = 0 := by rw [s5.freed]; exact h.freed
  have lg5 : t5.w.log = [] := by rw [s5.log]; exact h.log
  have arr3 : t3.w.arrived = (t2.env e).w.arrived := (step_still d1 (by rw [d2.regs])).arrived
  have arr5 : t3.w.arrived ≤ t5.w.arrived := Nat.le_trans e2.arrived f2.arrived
  by_cases hc : 256 ≤ (t2.env e).w.arrived
  · left
    have : t4.c = true := by
      rw [e6, d6, BitVec.toNat_ofNat, decide_eq_true_eq, hm]
      omega
    exact ⟨t5, hop5, ⟨(f4 this).1, c5, i5, p5, hptr, r5, fr5, lg5, by omega⟩, s5⟩
  · right
    have : t4.c = false := by
      rw [e6, d6, BitVec.toNat_ofNat, decide_eq_false_iff_not, hm]
      omega
    have q5 := (f5 this).1
    obtain ⟨t6, g1, g2, g3, g4⟩ := step_nop (e := e) c5 (fun _ => not_steered p5 _) (by rw [q5]; decide +kernel)
    rw [q5] at g3
    have c6 : CodeOk true t6.main := by rw [g2.main]; exact c5
    have p6 : t6.sw.page2 = false := by rw [g2.sw]; exact p5
    obtain ⟨t7, k1, k2, k3, k4⟩ := step_nop (e := e) c6 (fun _ => not_steered p6 _) (by rw [g3]; decide +kernel)
    rw [g3] at k3
    have c7 : CodeOk true t7.main := by rw [k2.main]; exact c6
    have p7 : t7.sw.page2 = false := by rw [k2.sw]; exact p6
    obtain ⟨t8, l1, l2, l3, l4⟩ := step_jmp (e := e) (q := 0x214a) c7 (fun _ => not_steered p7 _) (by rw [k3]; decide +kernel)
    have s8 := s5.trans (g2.trans (k2.trans l2))
    refine ⟨t8, (((hop5.trans0
      (hop_soft g1 (Nat.zero_le _) g2 (.inl (kept_of_fetch c5 (fun _ => not_steered p5 _) (i := .nop) (by rw [q5]; decide +kernel) rfl g1)))).trans0
      (hop_soft k1 (Nat.zero_le _) k2 (.inl (kept_of_fetch c6 (fun _ => not_steered p6 _) (i := .nop) (by rw [g3]; decide +kernel) rfl k1)))).trans0
      (hop_soft l1 (Nat.zero_le _) l2 (.inl (kept_of_fetch c7 (fun _ => not_steered p7 _) (i := .jmp 0x214a) (by rw [k3]; decide +kernel) rfl l1)))), ⟨l3, ?_, ?_, ?_, ?_, ?_, ?_, ?_⟩, s8, ?_⟩
    · rw [s8.main]; exact h.code
    · rw [s8.main]; exact h.intact
    · rw [s8.sw]; exact h.page2
    · rw [l4, k4, g4, hptr]
    · exact s8.ring 0 h.ring
    · rw [s8.freed]; exact h.freed
    · rw [s8.log]; exact h.log
    · have := a2.arrived
      have := b2.arrived
      have := (soft_env e t2).arrived
      omega

/-- Waiting for the header ends if the network delivers and the file is not too short. -/
theorem waiting_live {e : Env} (hD : e.Delivers) (hl : 256 ≤ e.file.length) (d : Nat) : ∀ {s : Mach}, Waiting e s →
    256 ≤ s.w.arrived + d → ∃ n s', Hop e s 0 n 0 s' ∧ Heading e s' ∧ Soft e s s' := by
  induction d with
  | zero =>
    intro s h hd
    rcases waiting_hop h with ⟨s', h1, h2, h3⟩ | ⟨s', h1, h2, h3, h4⟩
    · exact ⟨_, s', h1, h2, h3⟩
    · omega
  | succ d ih =>
    intro s0 h0 hd0
    obtain ⟨T, ht, hT⟩ := hD s0.time
    have inner : ∀ (g : Nat) {s : Mach}, Waiting e s → 256 ≤ s.w.arrived + (d + 1) → s.time ≤ T → T + 1 ≤ s.time + g →
        ∃ n s', Hop e s 0 n 0 s' ∧ Heading e s' ∧ Soft e s s' := by
      intro g
      induction g with
      | zero => intro s _ _ h1 h2; omega
      | succ g ihg =>
        intro s h hd h1 h2
        rcases waiting_hop h with ⟨s', a1, a2, a3⟩ | ⟨s', a1, a2, a3, a4⟩
        · exact ⟨_, s', a1, a2, a3⟩
        · have hm := run_mono 8 a1.run (by rw [a3.regs])
          have htm := run_time 8 a1.run
          by_cases hlt : s'.time ≤ T
          · obtain ⟨n, s'', b1, b2, b3⟩ := ihg a2 (by omega) hlt (by omega)
            exact ⟨_, s'', a1.trans0 b1, b2, a3.trans b3⟩
          · have := run_arrives hT 8 a1.run (by rw [a3.regs]) (h.ring.ring.up.resolve_right (by omega)) h1 (by omega) (by omega) (by omega)
            obtain ⟨n, s'', b1, b2, b3⟩ := ih a2 (by omega)
            exact ⟨_, s'', a1.trans0 b1, b2, a3.trans b3⟩
    exact inner (T + 1) h0 hd0 ht (by omega)

end IIVision.Player
