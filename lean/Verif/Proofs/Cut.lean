import Verif.Spec.Cut
import Verif.Proofs.Whole

/-! The player on a stream that has been cut off. -/

namespace IIVision.Player

open Spec

/-! ### Standing still -/

structure Rest (s t : Mach) : Prop where
  mem : SameMemory t s
  sw : t.sw = s.sw
  log : t.w.log = s.w.log

theorem Rest.refl (s : Mach) : Rest s s := ⟨.refl s, rfl, rfl⟩

theorem Rest.trans {s t u : Mach} (h1 : Rest s t) (h2 : Rest t u) : Rest s u :=
  ⟨h2.mem.trans h1.mem, h2.sw.trans h1.sw, h2.log.trans h1.log⟩

theorem rest_soft {e : Env} {s t : Mach} (h : Soft e s t) : Rest s t := ⟨same_soft h, h.sw, h.log⟩

structure Round (e : Env) (s : Mach) (n : Nat) (s' : Mach) : Prop where
  run : s.run e n = some s'
  steps : ∀ j, j ≤ n → ∃ t, s.run e j = some t ∧ Rest s t

theorem Round.rest {e : Env} {s s' : Mach} {n : Nat} (h : Round e s n s') : Rest s s' := by
  obtain ⟨t, h1, h2⟩ := h.steps n (Nat.le_refl _)
  rw [h.run] at h1
  cases h1
  exact h2

theorem Round.zero (e : Env) (s : Mach) : Round e s 0 s := by
  refine ⟨rfl, fun j hj => ?_⟩
  obtain rfl : j = 0 := by omega
  exact ⟨s, rfl, .refl s⟩

theorem Round.trans {e : Env} {s s' s'' : Mach} {n m : Nat} (h : Round e s n s') (h' : Round e s' m s'') : Round e s (n + m) s'' := by
  refine ⟨by rw [run_add n h.run]; exact h'.run, fun j hj => ?_⟩
  by_cases hlt : j ≤ n
  · exact h.steps j hlt
  · obtain ⟨t, h1, h2⟩ := h'.steps (j - n) (by omega)
    exact ⟨t, by rw [← h1, ← run_add n h.run, show n + (j - n) = j by omega], h.rest.trans h2⟩

theorem round_soft {e : Env} {s s' : Mach} (hs : s.step e = some s') (h : Soft e s s') : Round e s 1 s' := by
  have hrun : s.run e 1 = some s' := by rw [run_succ, hs]; rfl
  refine ⟨hrun, fun j hj => ?_⟩
  obtain rfl | rfl : j = 0 ∨ j = 1 := by omega
  · exact ⟨s, rfl, .refl s⟩
  · exact ⟨s', hrun, rest_soft h⟩

/-- Once round the waiting loop. -/
theorem ready_round {e : Env} {s : Mach} {r : Nat} (h : Ready e s r) (hn : ¬ s.w.freed + 2048 ≤ (s.env e).w.arrived) :
    ∃ s', Round e s 9 s' ∧ Ready e s' r ∧ s'.w.freed = s.w.freed ∧ s'.cycles = s.cycles + 25 ∧
      s'.clicks = s.clicks ++ [s.cycles + 19] := by
  have hc := codeOk_of_intact h.intact
  obtain ⟨t1, a1, a2, a3, a4, a5, a6⟩ := step_rsr (e := e) hc (fun h => by cases h) (by rw [h.pc]; decide +kernel) h.ptr h.ring
  rw [h.pc] at a3
  have hc1 : CodeOk false t1.main := by rw [a2.main]; exact hc
  obtain ⟨t2, b1, b2, b3, b4, b5, b6⟩ := step_cmp (e := e) (v := 8) hc1 (fun h => by cases h) (by rw [a3]; decide +kernel)
  rw [a3] at b3
  have hc2 : CodeOk false t2.main := by rw [b2.main]; exact hc1
  obtain ⟨t3, c1, c2, c3, c6, c4, c5⟩ := step_bcs (e := e) (d := 5) hc2 (fun h => by cases h) (by rw [b3]; decide +kernel)
  rw [b3] at c4 c5
  have hs := (a2.trans b2).trans c2
  have r3 : Round e s 3 t3 := ((round_soft a1 a2).trans (round_soft b1 b2)).trans (round_soft c1 c2)
  have e1 : t2.c = false := by
    have hw := ((soft_env e s).ring r h.ring).ring.window
    rw [(soft_env e s).freed] at hw
    rw [b6, a6, BitVec.toNat_ofNat, decide_eq_false_iff_not]
    have : ((s.env e).w.arrived - s.w.freed) / 256 % 2 ^ 8 = ((s.env e).w.arrived - s.w.freed) / 256 :=
      Nat.mod_eq_of_lt (by omega)
    rw [this]
    omega
  obtain ⟨d1, d2⟩ := c5 e1
  have hi : Intact t3.main := by rw [hs.main]; exact h.intact
  have hw := hs.ring r h.ring
  have hp : t3.w.ptr = 0x427 := by rw [c3, b5, a5]
  have pieces : ∀ j, j ≤ 6 → ∃ σ, symRun false 0 j { symStart 0x4046 with x := .ix, ptr := .reg (.lit 4) (.lit 0x27) } = some σ ∧
      σ.wr.filter isScr = [] ∧ σ.reads = 0 ∧ σ.recv = false := by
    intro j hj
    match j, hj with
    | 0, _ => exact ⟨_, rfl, rfl, rfl, rfl⟩
    | 1, _ => exact ⟨_, rfl, rfl, rfl, rfl⟩
    | 2, _ => exact ⟨_, rfl, rfl, rfl, rfl⟩
    | 3, _ => exact ⟨_, rfl, rfl, rfl, rfl⟩
    | 4, _ => exact ⟨_, rfl, rfl, rfl, rfl⟩
    | 5, _ => exact ⟨_, rfl, rfl, rfl, rfl⟩
    | 6, _ => exact ⟨_, rfl, rfl, rfl, rfl⟩
    | n + 7, h => omega
  have start := rel_start (e := e) (h := false) (s := t3) (r0 := r) (x := .ix) (ptr := .reg (.lit 4) (.lit 0x27)) (by rw [hp]; rfl) rfl hw.ring (codeOk_of_intact hi) hw.avail
  rw [show t3.pc = 0x4046 from d1] at start
  have hrun : symRun false 0 6 { symStart 0x4046 with x := .ix, ptr := .reg (.lit 4) (.lit 0x27) } =
      some { symStart 0x403f with a := .lit 0x26, x := .ix, ptr := .reg (.lit 4) (.lit 0x26), cyc := 17, clk := [11] } := by
    decide +kernel
  obtain ⟨s', h1, h2⟩ := hop_of_sym (base_of_ring hw) start hrun
  have r6 : Round e t3 6 s' := by
    refine ⟨h1.run, fun j hj => ?_⟩
    obtain ⟨σ, p1, p2, p3, p4⟩ := pieces j hj
    obtain ⟨t, q1, q2⟩ := hop_of_sym (base_of_ring hw) start p1
    have id := idle_of_rel q2 p2 p4
    refine ⟨t, q1.run, id.mem, id.sw, ?_⟩
    rw [q1.log, p3, bytes_zero, List.append_nil]
  have hid := idle_of_rel h2 rfl rfl
  have hcy : t3.cycles = s.cycles + 8 := by rw [d2, b4, a4]
  refine ⟨s', r3.trans r6, ⟨intact_of_codeOk h2.code, h2.pc, by rw [h2.ptr]; rfl, ring_of_rel hw h2 rfl rfl, ?_⟩, ?_, ?_, ?_⟩
  · rw [h2.y, h2.x]
    show 256 * t3.y.toNat + t3.x.toNat = _
    rw [hs.x, hs.y]; exact h.pos
  · rw [hid.freed, hs.freed]
  · rw [h2.cycles, hcy]; rfl
  · rw [h2.clicks, hs.clicks, hcy]; rfl

theorem ready_rounds {e : Env} {r : Nat} {s : Mach} (h : Ready e s r) (hl : e.file.length < s.w.freed + 2048) (i : Nat) :
    ∃ t, Round e s (9 * i) t ∧ Ready e t r ∧ t.w.freed = s.w.freed ∧ t.cycles = s.cycles + 25 * i ∧
      t.clicks = s.clicks ++ (List.range i).map fun j => s.cycles + 19 + 25 * j := by
  induction i with
  | zero => exact ⟨s, .zero e s, h, rfl, rfl, (List.append_nil _).symm⟩
  | succ i ih =>
    obtain ⟨t, a1, a2, a3, a4, a5⟩ := ih
    have ha := ((soft_env e t).ring r a2.ring).ring.file
    obtain ⟨u, b1, b2, b3, b4, b5⟩ := ready_round a2 (by omega)
    refine ⟨u, a1.trans b1, b2, by rw [b3, a3], by omega, ?_⟩
    rw [b5, a5, a4, List.append_assoc, List.range_succ, List.map_append]
    congr 2
    simp only [List.map_cons, List.map_nil]
    congr 1
    omega

/-- Once round the loop that waits for the header. -/
theorem waiting_round {e : Env} {s : Mach} (h : Waiting e s) (hl : e.file.length < 256) : ∃ s', Round e s 8 s' ∧ Waiting e s' := by
  have st := fun (_ : true = true) => not_steered h.page2 0x2000
  obtain ⟨t1, a1, a2, a3, a4, a5⟩ := step_ldai (e := e) h.code st (v := 0x26) (by rw [h.pc]; decide +kernel)
  rw [h.pc] at a3
  have c1 : CodeOk true t1.main := by rw [a2.main]; exact h.code
  have st1 : true = true → t1.steered 0x2000 = false := fun _ => not_steered (by rw [a2.sw]; exact h.page2) _
  obtain ⟨t2, b1, b2, b3, b4⟩ := step_wadrl (e := e) c1 st1 (by rw [a3]; decide +kernel)
  rw [a3] at b3
  have p2 : t2.w.ptr = 0x426 := by
    rw [b4, a4, h.ptr, a5]; rfl
  have c2 : CodeOk true t2.main := by rw [b2.main]; exact c1
  have st2 : true = true → t2.steered 0x2000 = false := fun _ => not_steered (by rw [b2.sw, a2.sw]; exact h.page2) _
  have r1 := a2.ring 0 h.ring
  have r2 := b2.ring 0 r1
  obtain ⟨t3, d1, d2, d3, -, d5, d6⟩ := step_rsr (e := e) c2 st2 (by rw [b3]; decide +kernel) p2 r2
  rw [b3] at d3
  have c3 : CodeOk true t3.main := by rw [d2.main]; exact c2
  have st3 : true = true → t3.steered 0x2000 = false := fun _ => not_steered (by rw [d2.sw, b2.sw, a2.sw]; exact h.page2) _
  obtain ⟨t4, e1, e2, e3, -, e5, e6⟩ := step_cmp (e := e) (v := 1) c3 st3 (by rw [d3]; decide +kernel)
  rw [d3] at e3
  have c4 : CodeOk true t4.main := by rw [e2.main]; exact c3
  have s4 := (a2.trans b2).trans (d2.trans e2)
  have st4 : true = true → t4.steered 0x2000 = false := fun _ => not_steered (by rw [s4.sw]; exact h.page2) _
  obtain ⟨t5, f1, f2, f3, -, f4, f5⟩ := step_bcs (e := e) (d := 5) c4 st4 (by rw [e3]; decide +kernel)
  rw [e3] at f4 f5
  have s5 := s4.trans f2
  have fr : t2.w.freed = 0 := by rw [b2.freed, a2.freed]; exact h.freed
  rw [fr, Nat.sub_zero] at d6
  have hfile := ((soft_env e t2).ring 0 r2).ring.file
  have hm : (t2.env e).w.arrived / 256 = 0 := by omega
  have c5 : CodeOk true t5.main := by rw [s5.main]; exact h.code
  have p5 : t5.sw.page2 = false := by rw [s5.sw]; exact h.page2
  have hptr : t5.w.ptr = 0x427 := by rw [f3, e5, d5]
  have : t4.c = false := by
    rw [e6, d6, BitVec.toNat_ofNat, decide_eq_false_iff_not, hm]
    decide
  have q5 := (f5 this).1
  obtain ⟨t6, g1, g2, g3, g4⟩ := step_nop (e := e) c5 (fun _ => not_steered p5 _) (by rw [q5]; decide +kernel)
  rw [q5] at g3
  have c6 : CodeOk true t6.main := by rw [g2.main]; exact c5
  have p6 : t6.sw.page2 = false := by rw [g2.sw]; exact p5
  obtain ⟨t7, k1, k2, k3, k4⟩ := step_nop (e := e) c6 (fun _ => not_steered p6 _) (by rw [g3]; decide +kernel)
  rw [g3] at k3
  have c7 : CodeOk true t7.main := by rw [k2.main]; exact c6
  have p7 : t7.sw.page2 = false := by rw [k2.sw]; exact p6
  obtain ⟨t8, l1, l2, l3, l4⟩ := step_jmp (e := e) (q := 0x214a) c7 (fun _ => not_steered p7 _) (by rw [k3]; decide +kernel)
  have s8 := s5.trans (g2.trans (k2.trans l2))
  refine ⟨t8, (((((((round_soft a1 a2).trans (round_soft b1 b2)).trans (round_soft d1 d2)).trans (round_soft e1 e2)).trans (round_soft f1 f2)).trans
    (round_soft g1 g2)).trans (round_soft k1 k2)).trans (round_soft l1 l2), ⟨l3, ?_, ?_, ?_, ?_, ?_, ?_, ?_⟩⟩
  · rw [s8.main]; exact h.code
  · rw [s8.main]; exact h.intact
  · rw [s8.sw]; exact h.page2
  · rw [l4, k4, g4, hptr]
  · exact s8.ring 0 h.ring
  · rw [s8.freed]; exact h.freed
  · rw [s8.log]; exact h.log

theorem waiting_rounds {e : Env} {s : Mach} (h : Waiting e s) (hl : e.file.length < 256) (i : Nat) :
    ∃ t, Round e s (8 * i) t ∧ Waiting e t := by
  induction i with
  | zero => exact ⟨s, .zero e s, h⟩
  | succ i ih =>
    obtain ⟨t, a1, a2⟩ := ih
    obtain ⟨u, b1, b2⟩ := waiting_round a2 hl
    exact ⟨u, a1.trans b1, b2⟩

/-! ### There is nothing after the exit -/

theorem code_range {seg : Nat × List Nat} (hs : seg ∈ program) (hne : seg.1 ≠ 0x2000) {i b : Nat} (hb : seg.2[i]? = some b) :
    ¬ (0x2000 ≤ seg.1 + i ∧ seg.1 + i < 0x4000) ∧ 0x800 ≤ seg.1 + i := by
  have hl := (List.getElem?_eq_some_iff.mp hb).1
  unfold program at hs
  simp only [List.mem_cons, List.not_mem_nil, or_false] at hs
  rcases hs with rfl | rfl | rfl
  · have := lowcode_good.1.1.1
    have := lowcode_good.2
    dsimp only at hl ⊢
    omega
  · exact absurd rfl hne
  · dsimp only at hl ⊢
    omega

theorem intact_startup {s t : Mach} (h : OnlyStartup s t) (hi : Intact s.main) : Intact t.main := by
  intro seg hs hne i b hb hp
  obtain ⟨g1, g2⟩ := code_range hs hne hb
  rw [(h _ g1).2 (by omega) (by omega) (by omega) hp]
  exact hi seg hs hne i b hb hp

theorem intact_same {s t : Mach} (h : SameMemory t s) (hi : Intact s.main) : Intact t.main := by
  intro seg hs hne i b hb hp
  obtain ⟨g1, g2⟩ := code_range hs hne hb
  rw [(h _ (by omega) hp).1]
  exact hi seg hs hne i b hb hp

/-- After the exit the machine is no longer the player's. -/
theorem exit_stops {e : Env} {t : Mach} (hi : Intact t.main) (hp : t.pc = 0xbaac) : t.run e 2 = none := by
  have hs := step_code (e := e) (codeOk_of_intact hi) (fun h => by cases h)
    (show symFetch false t.pc = some (.incA 0x3f4) by rw [hp]; decide +kernel)
  have hst : ∀ (t : Mach), t.steered 0x3f4 = false := fun t => by
    unfold Mach.steered
    rw [show (decide (0x400 ≤ 0x3f4) && decide (0x3f4 < 0x800)) = false by decide,
      show decide (0x2000 ≤ 0x3f4) = false by decide]
    simp
  have hx : ∀ (t : Mach), t.exec e (.incA 0x3f4) =
      some ({ t with main := fun q => if q = 0x3f4 then t.main 0x3f4 + 1#8 else t.main q }.setNZ (t.main 0x3f4 + 1#8)) := by
    intro t
    have h1 : t.read 0x3f4 = some (t.main 0x3f4, t) := by
      unfold Mach.read Mach.ram
      rw [if_pos (by decide), hst]
      rfl
    have h2 : ∀ v, t.write 0x3f4 v = some { t with main := fun q => if q = 0x3f4 then v else t.main q } := by
      intro v
      unfold Mach.write Mach.store
      rw [if_pos (by decide), hst]
      rfl
    have g : ∀ q, t.exec e (.incA q) = (t.read q).bind fun r => (r.2.write q (r.1 + 1#8)).map fun s => s.setNZ (r.1 + 1#8) := fun _ => rfl
    rw [g, h1, Option.bind_some, h2]
    rfl
  rw [hx] at hs
  rw [run_succ, hs, Option.bind_some, run_succ]
  generalize hu : Mach.setNZ _ _ = u
  have hpc : u.pc = 0xbaaf := by rw [← hu]; show t.pc + 3 = _; rw [hp]
  have hm : ∀ q, q ≠ 0x3f4 → u.main q = t.main q := by
    intro q hq
    rw [← hu]
    show (if q = 0x3f4 then _ else t.main q) = _
    rw [if_neg hq]
  have hiu : Intact u.main := by
    intro seg hs hne i b hb hp
    obtain ⟨g1, g2⟩ := code_range hs hne hb
    rw [hm _ (by omega)]
    exact hi seg hs hne i b hb hp
  rw [step_code (e := e) (codeOk_of_intact hiu) (fun h => by cases h)
    (show symFetch false u.pc = some (.jsr 0xbf00) by rw [hpc]; decide +kernel)]
  rfl

theorem never_exits {e : Env} {s t : Mach} {m : Nat} (h : s.run e m = some t) (hi : Intact t.main) (hall : ∀ n, ∃ u, s.run e n = some u) :
    t.pc ≠ sym .exit := by
  intro hp
  obtain ⟨u, hu⟩ := hall (m + 2)
  rw [run_add m h, exit_stops hi hp] at hu
  cases hu

theorem hung_of {e : Env} {s : Mach} (hi : Intact s.main) {c : Nat} (hc : 0 < c) (h : ∀ i, ∃ t, Round e s (c * i) t) : Hung e s := by
  have all : ∀ n, ∃ t, s.run e n = some t ∧ Rest s t := by
    intro n
    obtain ⟨t, ht⟩ := h n
    exact ht.steps n (Nat.le_mul_of_pos_left n hc)
  intro n
  obtain ⟨t, h1, h2⟩ := all n
  exact ⟨t, h1, h2.mem, h2.sw, h2.log, never_exits h1 (intact_same h2.mem hi) fun k => (all k).imp fun _ h => h.1⟩

theorem ready_hung {e : Env} {r : Nat} {s : Mach} (h : Ready e s r) (hl : e.file.length < s.w.freed + 2048) : Hung e s ∧ Buzzing e s := by
  refine ⟨hung_of h.intact (c := 9) (by decide) fun i => ?_, fun i => ?_⟩
  · obtain ⟨t, h1, -⟩ := ready_rounds h hl i
    exact ⟨t, h1⟩
  · obtain ⟨t, h1, h2, h3, h4, h5⟩ := ready_rounds h hl i
    exact ⟨t, h1.run, h2.pc.trans h.pc.symm, h4, h5⟩

theorem waiting_hung {e : Env} {s : Mach} (h : Waiting e s) (hl : e.file.length < 256) : Hung e s :=
  hung_of h.intact (c := 8) (by decide) fun i => (waiting_rounds h hl i).imp fun _ h => h.1

/-! ### The opcodes of the complete blocks -/

/-- Layout of opcodes from position `P` on. -/
def LayP : Nat → List Opcode → Prop
  | _, [] => True
  | P, op :: ops =>
    ((∀ a, op = .ack a → P % 2048 = 2044) ∧ ((∀ a, op ≠ .ack a) → P % 2048 + opLen op ≤ 2044)) ∧ LayP (P + opLen op) ops

theorem layP_of : ∀ {ops post : List Opcode} {P : Nat}, Lay P (ops ++ post) → LayP P ops
  | [], _, _, _ => trivial
  | _ :: _, _, _, h => ⟨h.1, layP_of h.2⟩

/-- The opcodes still to come begin at position `P`; after them there is no complete block any more. -/
structure Partly (e : Env) (P : Nat) (ops : List Opcode) : Prop where
  bytes : ∃ rest, e.file.drop P = (bytesOf playerAddr ops).map (BitVec.ofNat 8) ++ rest
  lay : LayP P ops
  body : ∀ op ∈ ops, BodyOp op
  ends : ops ≠ [] → (P + (bytesOf playerAddr ops).length) % 2048 = 0
  short : e.file.length < 2048 * ((P + (bytesOf playerAddr ops).length) / 2048) + 2048

theorem partly_tail {e : Env} {P : Nat} {op : Opcode} {ops : List Opcode} (h : Partly e P (op :: ops)) :
    (∃ rest, e.file.drop P = (op.emit playerAddr).map (BitVec.ofNat 8) ++ ((bytesOf playerAddr ops).map (BitVec.ofNat 8) ++ rest)) ∧
    (∀ rest, e.file.drop (P + opLen op) = (bytesOf playerAddr ops).map (BitVec.ofNat 8) ++ rest → Partly e (P + opLen op) ops) := by
  obtain ⟨rest, h1⟩ := h.bytes
  refine ⟨⟨rest, ?_⟩, fun rest hr => ⟨⟨rest, hr⟩, h.lay.2, fun o ho => h.body o (by simp [ho]), fun _ => ?_, ?_⟩⟩
  · rw [h1, bytesOf_cons, List.map_append, List.append_assoc]
  · have := h.ends (by simp)
    rw [bytesOf_cons, List.length_append] at this
    unfold opLen
    rw [Nat.add_assoc]; exact this
  · have := h.short
    rw [bytesOf_cons, List.length_append] at this
    unfold opLen
    rw [Nat.add_assoc]; exact this

theorem partly_nop {e : Env} {P : Nat} {ops : List Opcode} (h : Partly e P (.nop :: ops)) :
    wordAt e P = playerAddr .nop ∧ P % 2048 + 2 ≤ 2044 ∧ Partly e (P + 2) ops := by
  obtain ⟨⟨rest, h1⟩, hn⟩ := partly_tail h
  obtain ⟨h2, h4, h3⟩ := word_of (c := Cmd.nop) (rest := (bytesOf playerAddr ops).map (BitVec.ofNat 8) ++ rest) (by rw [h1]; rfl)
  exact ⟨h2, h.lay.1.2 (fun a => by simp), hn rest h4⟩

theorem partly_ack {e : Env} {P : Nat} {a : Bool} {ops : List Opcode} (h : Partly e P (.ack a :: ops)) :
    wordAt e P = playerAddr .ack ∧ P % 2048 = 2044 ∧ e.byte (P + 2) = (if a then 0x55#8 else 0x54#8) ∧ Partly e (P + 4) ops := by
  obtain ⟨⟨rest, h1⟩, hn⟩ := partly_tail h
  obtain ⟨h2, h4, h3⟩ := word_of (c := Cmd.ack) (rest := BitVec.ofNat 8 (if a then 0x55 else 0x54) :: BitVec.ofNat 8 0xff ::
    ((bytesOf playerAddr ops).map (BitVec.ofNat 8) ++ rest)) (by rw [h1]; rfl)
  obtain ⟨h5, h6, -⟩ := drop_cons h4
  obtain ⟨-, h7, -⟩ := drop_cons h6
  refine ⟨h2, h.lay.1.1 a rfl, ?_, hn rest h7⟩
  rw [h5]
  cases a <;> rfl

theorem partly_tick {e : Env} {P : Nat} {t p : Fin 32} {c : U8} {os : List (Fin 256)} {ops : List Opcode}
    (h : Partly e P (.tick t p c os :: ops)) :
    wordAt e P = playerAddr (.tick t p) ∧ P % 2048 + 7 ≤ 2044 ∧ e.byte (P + 2) = c ∧
    [e.byte (P + 3), e.byte (P + 4), e.byte (P + 5), e.byte (P + 6)] = os.map (fun o => BitVec.ofNat 8 o.val) ∧
    Partly e (P + 7) ops := by
  have ho : os.length = 4 := h.body (.tick t p c os) (by simp)
  match os, ho with
  | [o1, o2, o3, o4], _ =>
    obtain ⟨⟨rest, h1⟩, hn⟩ := partly_tail h
    obtain ⟨h2, h4, h3⟩ := word_of (c := Cmd.tick t p) (rest := [c.toNat, o1.val, o2.val, o3.val, o4.val].map (BitVec.ofNat 8) ++
      ((bytesOf playerAddr ops).map (BitVec.ofNat 8) ++ rest)) (by rw [h1]; rfl)
    obtain ⟨a1, b1, -⟩ := drop_cons h4
    obtain ⟨a2, b2, -⟩ := drop_cons b1
    obtain ⟨a3, b3, -⟩ := drop_cons b2
    obtain ⟨a4, b4, -⟩ := drop_cons b3
    obtain ⟨a5, b5, -⟩ := drop_cons b4
    refine ⟨h2, h.lay.1.2 (fun a => by simp), ?_, ?_, hn rest b5⟩
    · rw [a1]; exact BitVec.ofNat_toNat ..
    · show [e.byte (P + 2 + 1), e.byte (P + 2 + 1 + 1), e.byte (P + 2 + 1 + 1 + 1), e.byte (P + 2 + 1 + 1 + 1 + 1)] = _
      rw [a2, a3, a4, a5]; rfl

theorem partly_fits {e : Env} {P : Nat} {op : Opcode} {ops : List Opcode} (h : Partly e P (op :: ops)) : P % 2048 + 2 ≤ 2046 := by
  have hl := h.lay.1
  by_cases ha : ∃ a, op = .ack a
  · obtain ⟨a, rfl⟩ := ha
    have := hl.1 a rfl
    omega
  · have h2 := hl.2 (fun a hc => ha ⟨a, hc⟩)
    have h3 := h.body op (by simp)
    have : 2 ≤ opLen op := by
      unfold opLen
      cases op with
      | ack a => exact absurd ⟨a, rfl⟩ ha
      | header m => exact absurd h3 (by simp [BodyOp])
      | terminate => exact absurd h3 (by simp [BodyOp])
      | nop => exact Nat.le_refl 2
      | tick t p c os => exact Nat.le_add_left 2 _
    omega

theorem partly_block {e : Env} {P : Nat} {op : Opcode} {ops : List Opcode} (h : Partly e P (op :: ops)) :
    2048 * (P / 2048) + 2048 ≤ e.file.length := by
  obtain ⟨rest, h1⟩ := h.bytes
  have h2 := congrArg List.length h1
  rw [List.length_drop, List.length_append, List.length_map] at h2
  have h3 := h.ends (by simp)
  have h4 := partly_fits h
  have h5 : 0 < (bytesOf playerAddr (op :: ops)).length := by
    rw [bytesOf_cons, List.length_append]
    have : 0 < (op.emit playerAddr).length := by cases op <;> exact Nat.succ_pos _
    omega
  omega

/-- An opcode of a complete block has been dispatched. -/
structure AtPart (e : Env) (s : Mach) (P : Nat) (ops : List Opcode) : Prop where
  play : Playing e s (P + 2)
  pc : s.pc = wordAt e P
  freed : s.w.freed = 2048 * (P / 2048)
  part : Partly e P ops

theorem atpart_avail {e : Env} {s : Mach} {P : Nat} {ops : List Opcode} (h : AtPart e s P ops) {n : Nat}
    (hn : P % 2048 + n ≤ 2048) : P + n ≤ s.w.arrived := by
  have := h.play.block
  have := h.freed
  omega

/-- There is always an opcode to come. -/
theorem atpart_more {e : Env} {s : Mach} {P : Nat} (h : AtPart e s P []) : False := by
  have h1 := h.part.short
  have h2 := h.play.block
  have h3 := h.play.ring.file
  have h4 := h.freed
  simp only [bytesOf, List.flatMap_nil, List.length_nil, Nat.add_zero] at h1
  omega

theorem part_go {e : Env} {s : Mach} {P : Nat} {ops : List Opcode} (h : Lined e s P 0x4061)
    (hf : s.w.freed = 2048 * (P / 2048)) (hh : Partly e P ops) (ho : ops ≠ []) :
    ∃ s', Hop e s P 11 2 s' ∧ AtPart e s' P ops ∧ Idle s s' := by
  cases ops with
  | nil => exact absurd rfl ho
  | cons op ops =>
    have hb := h.block
    have hfit := partly_fits hh
    obtain ⟨s', h1, h2, h3, h4, -⟩ := lined_go h (by omega)
    exact ⟨s', h1, ⟨h2, h4, by rw [h3.freed]; exact hf, hh⟩, h3⟩

theorem part_nop {e : Env} {s : Mach} {P : Nat} {ops : List Opcode} (h : AtPart e s P (.nop :: ops)) :
    ∃ s', Hop e s (P + 2) 5 2 s' ∧ AtPart e s' (P + 2) ops ∧ s.pc = playerAddr .nop ∧ SameMemory s' s ∧ s'.sw = s.sw := by
  obtain ⟨a1, a2, a3⟩ := partly_nop h.part
  have hpc : s.pc = 0x4070 := h.pc.trans a1
  have ha : P + 2 + 2 ≤ s.w.arrived := atpart_avail h (n := 4) (by omega)
  obtain ⟨s', h1, h2, h3, h4, -⟩ := nop_hop h.play hpc ha
  refine ⟨s', h1, ⟨h2, h4, ?_, a3⟩, hpc, h3.mem, h3.sw⟩
  rw [h3.freed, h.freed]
  omega

theorem part_tick {e : Env} {s : Mach} {P : Nat} {t p : Fin 32} {c : U8} {os : List (Fin 256)} {ops : List Opcode}
    (h : AtPart e s P (.tick t p c os :: ops)) :
    ∃ n s', 18 ≤ n ∧ Hop e s (P + 2) n 7 s' ∧ AtPart e s' (P + 7) ops ∧ s.pc = playerAddr (.tick t p) ∧
      s'.cycles = s.cycles + 73 ∧ s'.clicks = s.clicks ++ [s.cycles + 4, s.cycles + 4 + pulseWidth (4 + 2 * t.val)] ∧
      SameMemory s' (s.draw (32 + p.val) c (os.map fun o => BitVec.ofNat 8 o.val)) ∧ s'.sw = s.sw := by
  obtain ⟨a1, a2, a3, a4, a5⟩ := partly_tick h.part
  have hpc := h.pc.trans a1
  have ha : P + 2 + 7 ≤ s.w.arrived := atpart_avail h (n := 9) (by omega)
  have hp := p.isLt
  obtain ⟨n, s', h0, h1, h2, h3, h4, h5, h6, h7, h8⟩ := tick_hop h.play ha t.isLt (p := 32 + p.val) (by omega) (by omega)
    (by rw [hpc]; exact tick_sym t p)
  rw [pulse_width t] at h5
  rw [a3] at h6
  rw [show [e.byte (P + 2 + 1), e.byte (P + 2 + 2), e.byte (P + 2 + 3), e.byte (P + 2 + 4)] = _ from a4] at h6
  refine ⟨n, s', h0, h1, ⟨?_, h3, ?_, a5⟩, hpc, h4, h5, h6, h7⟩
  · exact h2
  · rw [h8, h.freed]
    omega

theorem part_ack {e : Env} {s : Mach} {P : Nat} {a : Bool} {ops : List Opcode} (h : AtPart e s P (.ack a :: ops)) :
    ∃ s', Hop e s (P + 2) 25 2 s' ∧ Ready e s' (P + 4) ∧ s'.w.freed = 2048 * ((P + 4) / 2048) ∧ Partly e (P + 4) ops ∧
      s.pc = playerAddr .ack ∧ SameMemory s' s ∧ s'.sw = { s.sw with page2 := a } := by
  obtain ⟨a1, a2, a3, a4⟩ := partly_ack h.part
  have hpc := h.pc.trans a1
  have ha : P + 2 + 2 ≤ s.w.arrived := atpart_avail h (n := 4) (by omega)
  have hf := h.freed
  obtain ⟨s', h1, h2, h3, h4, h5, -⟩ := ack_hop h.play hpc (by omega) ha (by omega) a3
  exact ⟨s', h1, h2, by rw [h3]; omega, a4, hpc, h4, h5⟩

/-! ### Safety -/

/-- States of the player between opcodes and in the waiting loops; `r` is the next byte to read. -/
inductive PhaseP (e : Env) (s : Mach) : Nat → Prop
  | op {P : Nat} {ops : List Opcode} : AtPart e s P ops → PhaseP e s (P + 2)
  | ready {P : Nat} {ops : List Opcode} : Ready e s P → s.w.freed = 2048 * (P / 2048) → Partly e P ops → PhaseP e s P
  | lined {P pc : Nat} {ops : List Opcode} : pc = 0x4051 ∨ pc = 0x4059 ∨ pc = 0x4061 → Lined e s P pc →
      s.w.freed = 2048 * (P / 2048) → Partly e P ops → ops ≠ [] → PhaseP e s P

theorem partly_nil_short {e : Env} {P : Nat} (h : Partly e P []) : e.file.length < 2048 * (P / 2048) + 2048 := by
  have h1 := h.short
  simp only [bytesOf, List.flatMap_nil, List.length_nil, Nat.add_zero] at h1
  exact h1

theorem phaseP_hop {e : Env} {s : Mach} {r : Nat} (h : PhaseP e s r) : ∃ n k s', 0 < n ∧ Hop e s r n k s' ∧ PhaseP e s' (r + k) := by
  cases h with
  | @op P ops h =>
    cases ops with
    | nil => exact (atpart_more h).elim
    | cons op ops =>
      cases op with
      | header m => exact absurd (h.part.body _ List.mem_cons_self) (by simp [BodyOp])
      | terminate => exact absurd (h.part.body _ List.mem_cons_self) (by simp [BodyOp])
      | nop =>
        obtain ⟨s', h1, h2, -⟩ := part_nop h
        exact ⟨_, _, s', by decide, h1, .op h2⟩
      | ack a =>
        obtain ⟨s', h1, h2, h3, h4, -⟩ := part_ack h
        exact ⟨_, _, s', by decide, h1, .ready h2 h3 h4⟩
      | tick t p c os =>
        obtain ⟨n, s', h0, h1, h2, -⟩ := part_tick h
        refine ⟨n, 7, s', by omega, h1, ?_⟩
        rw [show P + 2 + 7 = P + 7 + 2 by omega]
        exact .op h2
  | @ready P ops h hf hh =>
    by_cases hc : s.w.freed + 2048 ≤ (s.env e).w.arrived
    · obtain ⟨s', h1, h2, h3, -⟩ := (ready_hop h).1 hc
      refine ⟨5, 0, s', by decide, h1, .lined (.inl rfl) h2 (by rw [h3.freed]; exact hf) hh ?_⟩
      rintro rfl
      have h4 := partly_nil_short hh
      have h5 := ((soft_env e s).ring _ h.ring).ring.file
      omega
    · obtain ⟨s', h1, h2, h3⟩ := (ready_hop h).2 hc
      exact ⟨9, 0, s', by decide, h1, .ready h2 (by rw [h3.freed]; exact hf) hh⟩
  | @lined P pc ops hp h hf hh ho =>
    rcases hp with rfl | rfl | rfl
    · cases hk : (s.env e).kbd.getLsbD 7 with
      | false =>
        obtain ⟨s', h1, h2, h3, -⟩ := (lined_kbd h).1 hk
        exact ⟨_, 0, s', by decide, h1, .lined (.inr (.inr rfl)) h3 (by rw [h2.freed]; exact hf) hh ho⟩
      | true =>
        obtain ⟨s', h1, h2, h3⟩ := (lined_kbd h).2 hk
        exact ⟨_, 0, s', by decide, h1, .lined (.inr (.inl rfl)) h3 (by rw [h2.freed]; exact hf) hh ho⟩
    · cases hk : (s.env e).kbd.getLsbD 7 with
      | true =>
        obtain ⟨s', h1, h2, h3⟩ := (lined_pause h).1 hk
        exact ⟨_, 0, s', by decide, h1, .lined (.inr (.inr rfl)) h3 (by rw [h2.freed]; exact hf) hh ho⟩
      | false =>
        obtain ⟨-, s', h1, h2, h3, -⟩ := (lined_pause h).2 hk
        exact ⟨_, 0, s', by decide, h1, .lined (.inr (.inl rfl)) h3 (by rw [h2.freed]; exact hf) hh ho⟩
    · obtain ⟨s', h1, h2, -⟩ := part_go h hf hh ho
      exact ⟨_, _, s', by decide, h1, .op h2⟩

/-- The player goes on for ever. -/
def SafeP (e : Env) (s : Mach) (r n : Nat) : Prop := ∃ t, s.run e n = some t ∧ WithinS e s r t

theorem safeP_trans {e : Env} {s s' : Mach} {r m k n : Nat} (h : Path e s r m k s') (h' : ∀ j, j + m = n → SafeP e s' (r + k) j) :
    SafeP e s r n := by
  by_cases hn : n ≤ m
  · exact h.steps n hn
  · obtain ⟨t, a1, a2⟩ := h' (n - m) (by omega)
    refine ⟨t, ?_, WithinS.trans h a2⟩
    rw [← a1, ← run_add m h.run, show m + (n - m) = n by omega]

theorem safeP_phase {e : Env} (n : Nat) : ∀ {s : Mach} {r : Nat}, PhaseP e s r → SafeP e s r n := by
  induction n using Nat.strongRecOn with
  | _ n ih =>
    intro s r h
    obtain ⟨m, k, s', h0, h1, h2⟩ := phaseP_hop h
    exact safeP_trans h1.path fun j hj => ih j (by omega) h2

/-! ### Progress -/

theorem partly_live {e : Env} (hD : e.Delivers) {s : Mach} {P : Nat} {ops : List Opcode} (h : Ready e s P)
    (hf : s.w.freed = 2048 * (P / 2048)) (hh : Partly e P ops) (ho : ops ≠ []) :
    (∃ n s', Hop e s P n 2 s' ∧ AtPart e s' P ops ∧ Idle s s') ∨ ∃ n s', Hop e s P n 0 s' ∧ Paused e s' ∧ ¬ NoKeys e s := by
  have hb : 2048 * (P / 2048) + 2048 ≤ e.file.length := by
    cases ops with
    | nil => exact absurd rfl ho
    | cons op ops => exact partly_block hh
  obtain ⟨n1, t1, a1, a2, a3⟩ := wait_live hD 2048 h (by omega) (by have := h.ring.ring.freed; omega)
  have fin : ∀ {t : Mach} {n : Nat}, Hop e s P n 0 t → Lined e t P 0x4061 → Idle s t →
      ∃ n s', Hop e s P n 2 s' ∧ AtPart e s' P ops ∧ Idle s s' := by
    intro t n b1 b2 b3
    obtain ⟨s', c1, c2, c3⟩ := part_go b2 (by rw [b3.freed]; exact hf) hh ho
    exact ⟨_, s', b1.trans0 c1, c2, b3.trans c3⟩
  cases hk : (t1.env e).kbd.getLsbD 7 with
  | false =>
    obtain ⟨t2, b1, b2, b3, -⟩ := (lined_kbd a2).1 hk
    exact .inl (fin (a1.trans0 b1) b3 (a3.trans (idle_soft b2)))
  | true =>
    obtain ⟨t2, b1, b2, b3⟩ := (lined_kbd a2).2 hk
    have hop := a1.trans0 b1
    have id := a3.trans (idle_soft b2)
    by_cases hkb : t2.kbd.getLsbD 7 = true
    · obtain ⟨t3, c1, c2, c3⟩ := (lined_pause b3).1 (env_kbd (.inl hkb))
      exact .inl (fin (hop.trans0 c1) c3 (id.trans (idle_soft c2)))
    · by_cases hex : ∃ T, t2.time ≤ T ∧ e.key T ≠ none
      · obtain ⟨T, h1, h2⟩ := hex
        obtain ⟨n3, t3, c1, c2, c3⟩ := pause_live h2 (T + 1) b3 (.inr h1) (by omega)
        exact .inl (fin (hop.trans0 c1) c2 (id.trans c3))
      · refine .inr ⟨_, t2, hop, ⟨b3.pc, by simpa using hkb, ?_⟩, ?_⟩
        · exact fun t ht => Classical.byContradiction fun hc => hex ⟨t, ht, hc⟩
        · intro hno
          have h1 := nokeys_run _ hno a1.run
          rw [nokeys_env h1, h1.1] at hk
          cases hk

/-- All opcodes of the complete blocks are executed, unless the player is paused for ever. -/
theorem partly_ops {e : Env} (hD : e.Delivers) (ops : List Opcode) : ∀ {s : Mach} {P : Nat}, AtPart e s P ops →
    (∃ n k s' P', Hop e s (P + 2) n k s' ∧ Executes e s ops s' ∧ Ready e s' P' ∧ s'.w.freed = 2048 * (P' / 2048) ∧ Partly e P' [] ∧ P' = P + 2 + k ∧
      P' = P + (bytesOf playerAddr ops).length) ∨
    ∃ n k s', Hop e s (P + 2) n k s' ∧ Paused e s' ∧ ¬ NoKeys e s := by
  induction ops with
  | nil => intro s P h; exact (atpart_more h).elim
  | cons op ops ih =>
    intro s P h
    have fin : ∀ {t : Mach} {P' n k : Nat}, Hop e s (P + 2) n k t → AtPart e t P' ops → P' = P + k → k = (op.emit playerAddr).length →
        (∀ s', Executes e t ops s' → Executes e s (op :: ops) s') →
        (∃ n k s' P', Hop e s (P + 2) n k s' ∧ Executes e s (op :: ops) s' ∧ Ready e s' P' ∧ s'.w.freed = 2048 * (P' / 2048) ∧ Partly e P' [] ∧ P' = P + 2 + k ∧
          P' = P + (bytesOf playerAddr (op :: ops)).length) ∨
        ∃ n k s', Hop e s (P + 2) n k s' ∧ Paused e s' ∧ ¬ NoKeys e s := by
      intro t P' n k a1 a2 a3 a5 a4
      rcases ih a2 with ⟨n', k', s', P'', b1, b2, b3, b4, b5, b6, b7⟩ | ⟨n', k', s', b1, b2, b5⟩
      · rw [a3, Nat.add_right_comm] at b1
        exact .inl ⟨_, _, s', P'', a1.trans b1, a4 s' b2, b3, b4, b5, by omega, by rw [bytesOf_cons, List.length_append]; omega⟩
      · rw [a3, Nat.add_right_comm] at b1
        exact .inr ⟨_, _, s', a1.trans b1, b2, fun hc => b5 (nokeys_run _ hc a1.run)⟩
    cases op with
    | header m => exact absurd (h.part.body _ List.mem_cons_self) (by simp [BodyOp])
    | terminate => exact absurd (h.part.body _ List.mem_cons_self) (by simp [BodyOp])
    | nop =>
      obtain ⟨t, a1, a2, a3, a4, a5⟩ := part_nop h
      exact fin a1 a2 rfl rfl fun s' h' => .nop a3 ⟨_, a1.run⟩ a4 a5 h'
    | tick x p c os =>
      obtain ⟨n, t, -, a1, a2, a3, a4, a5, a6, a7⟩ := part_tick h
      have ho : os.length = 4 := h.part.body (.tick x p c os) (by simp)
      refine fin a1 a2 rfl ?_ fun s' h' => .tick a3 ⟨_, a1.run⟩ a4 a5 a6 a7 h'
      simp [Opcode.emit, Opcode.emitCommand, Opcode.emitData, ho]
    | ack a =>
      obtain ⟨t, a1, a2, a3, a4, a5, a6, a7⟩ := part_ack h
      cases ops with
      | nil =>
        exact .inl ⟨_, _, t, P + 4, a1, .ack a5 ⟨_, a1.run⟩ a6 a7 (.nil t), a2, a3, a4, rfl, rfl⟩
      | cons op' ops =>
        rcases partly_live hD a2 a3 a4 (by simp) with ⟨n, u, b1, b2, b3⟩ | ⟨n, u, b1, b2, b5⟩
        · exact fin (a1.trans b1) b2 rfl rfl fun s' h' =>
            .ack a5 ⟨_, (a1.trans b1).run⟩ (b3.mem.trans a6) (by rw [b3.sw, a7]) h'
        · exact .inr ⟨_, _, u, a1.trans b1, b2, fun hc => b5 (nokeys_run _ hc a1.run)⟩

/-! ### Cutting off a stream -/

/-- Opcodes do not cross the boundaries of blocks. -/
theorem lay_cut {B : Nat} (hB : B % 2048 = 0) : ∀ (ops : List Opcode) (P : Nat), Lay P ops → (∀ op ∈ ops, BodyOp op) → P ≤ B →
    B ≤ P + (bytesOf playerAddr ops).length → ∃ pre post, ops = pre ++ post ∧ P + (bytesOf playerAddr pre).length = B := by
  intro ops
  induction ops with
  | nil => intro P _ _ h1 h2; exact ⟨[], [], rfl, by simp only [bytesOf, List.flatMap_nil, List.length_nil] at h2 ⊢; omega⟩
  | cons op ops ih =>
    intro P hl hb h1 h2
    by_cases h : P = B
    · exact ⟨[], op :: ops, rfl, by simp only [bytesOf, List.flatMap_nil, List.length_nil]; omega⟩
    · rw [bytesOf_cons, List.length_append] at h2
      have hfit : P % 2048 + opLen op ≤ 2048 := by
        by_cases ha : ∃ a, op = .ack a
        · obtain ⟨a, rfl⟩ := ha
          have := hl.1.1 a rfl
          have : opLen (.ack a) = 4 := rfl
          omega
        · have := hl.1.2 (fun a hc => ha ⟨a, hc⟩)
          omega
      obtain ⟨pre, post, rfl, h3⟩ := ih (P + opLen op) hl.2 (fun o ho => hb o (by simp [ho])) (by omega) (by unfold opLen; omega)
      refine ⟨op :: pre, post, rfl, ?_⟩
      rw [bytesOf_cons, List.length_append]
      unfold opLen at h3
      omega

theorem prefix_drop {α : Type} {l m : List α} (h : l <+: m) (P : Nat) : l.drop P <+: m.drop P := by
  obtain ⟨x, rfl⟩ := h
  by_cases hp : P ≤ l.length
  · exact ⟨x, by rw [List.drop_append_of_le_length hp]⟩
  · rw [List.drop_eq_nil_of_le (by omega)]; exact List.nil_prefix

/-- What is there of a stream that has been cut off. -/
theorem partly_of {e : Env} {full : List U8} {mode : VideoMode} {body : List Opcode} (hp : Playable full mode body) (hf : e.file <+: full)
    (hcut : e.file.length < 2048 * ((7 + (bytesOf playerAddr body).length) / 2048) + 2048) (hl : 256 ≤ e.file.length) :
    e.byte 6 = BitVec.ofNat 8 mode.value ∧ ∃ pre post, body = pre ++ post ∧ (e.file.length < 2048 → pre = []) ∧
      (2048 ≤ e.file.length → 7 + (bytesOf playerAddr pre).length = 2048 * (e.file.length / 2048)) ∧ Partly e 7 pre := by
  have hp' : Playable ({ e with file := full } : Env).file mode body := hp
  obtain ⟨hh, hm, -⟩ := here_of_playable hp'
  have hbyte : ∀ i, i < e.file.length → e.byte i = ({ e with file := full } : Env).byte i := by
    intro i hi
    obtain ⟨x, hx⟩ := hf
    show e.file.getD i 0#8 = full.getD i 0#8
    rw [← hx, List.getD_eq_getElem?_getD, List.getD_eq_getElem?_getD, List.getElem?_append_left hi]
  refine ⟨by rw [hbyte 6 (by omega)]; exact hm, ?_⟩
  obtain ⟨pad, hb⟩ := hh.bytes
  have key : ∀ pre post, body = pre ++ post → 7 + (bytesOf playerAddr pre).length ≤ e.file.length →
      ∃ rest, e.file.drop 7 = (bytesOf playerAddr pre).map (BitVec.ofNat 8) ++ rest := by
    intro pre post hpp hle
    have h1 := prefix_drop hf 7
    rw [show full.drop 7 = _ from hb, hpp] at h1
    have h2 : (bytesOf playerAddr pre).map (BitVec.ofNat 8) <+: (bytesOf playerAddr (pre ++ post ++ [.terminate]) ++ pad).map (BitVec.ofNat 8) := by
      refine ⟨(bytesOf playerAddr (post ++ [.terminate]) ++ pad).map (BitVec.ofNat 8), ?_⟩
      unfold bytesOf
      simp [List.flatMap_append]
    obtain ⟨r, hr⟩ := List.prefix_of_prefix_length_le h2 h1 (by rw [List.length_map, List.length_drop]; omega)
    exact ⟨r, hr.symm⟩
  by_cases h2 : e.file.length < 2048
  · refine ⟨[], body, rfl, fun _ => rfl, fun h => absurd h (by omega), key [] body rfl ?_, trivial, (fun op h => by cases h), fun h => absurd rfl h, ?_⟩
    · simp only [bytesOf, List.flatMap_nil, List.length_nil]; omega
    · simp only [bytesOf, List.flatMap_nil, List.length_nil]; omega
  · obtain ⟨pre, post, rfl, h3⟩ := lay_cut (B := 2048 * (e.file.length / 2048)) (by omega) body 7 hh.lay hh.body (by omega) (by omega)
    refine ⟨pre, post, rfl, fun h => absurd h h2, fun _ => h3, key pre post rfl (by omega), layP_of hh.lay, fun op ho => hh.body op (by simp [ho]), ?_, ?_⟩
    · intro _; omega
    · rw [h3]; omega

end IIVision.Player
