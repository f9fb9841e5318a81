import Verif.Proofs.SymRun

/-! Soundness of the symbolic executor. -/

namespace IIVision.Player

/-! ### Network -/

/-- What the arrival of bytes leaves alone. -/
structure WSame (w w' : W5100) : Prop where
  mode : w'.mode = w.mode
  ptr : w'.ptr = w.ptr
  rd : w'.rd = w.rd
  freed : w'.freed = w.freed
  regs : w'.regs = w.regs
  log : w'.log = w.log
  arrived : w.arrived ≤ w'.arrived

theorem deliver_same (f : List U8) (n : Nat) : ∀ w : W5100, WSame w (w.deliver f n) := by
  induction n with
  | zero => intro w; exact ⟨rfl, rfl, rfl, rfl, rfl, rfl, Nat.le_refl _⟩
  | succ n ih =>
    intro w
    show WSame w (if _ then _ else _)
    split
    · have := ih (w.arrive f)
      exact ⟨this.mode, this.ptr, this.rd, this.freed, this.regs, this.log, Nat.le_trans (Nat.le_succ _) this.arrived⟩
    · exact ⟨rfl, rfl, rfl, rfl, rfl, rfl, Nat.le_refl _⟩

theorem deliver_ring (e : Env) (n : Nat) : ∀ w : W5100, RingOk e w → RingOk e (w.deliver e.file n) := by
  induction n with
  | zero => intro w h; exact h
  | succ n ih =>
    intro w h
    show RingOk e (if _ then _ else _)
    split
    · rename_i hc
      apply ih
      refine ⟨?_, ?_, ?_, ?_, h.up.imp_right fun h => Nat.le_succ_of_le h⟩
      · intro i h1 h2
        show (if i % 8192 = w.arrived % 8192 then e.file.getD w.arrived 0#8 else w.rx (i % 8192)) = e.byte i
        have h1' : i < w.arrived + 1 := h1
        have h2' : w.arrived + 1 ≤ i + 8192 := h2
        split
        · rename_i he
          have : i = w.arrived := by omega
          rw [this]; rfl
        · rename_i he
          have : i ≠ w.arrived := fun h => he (by rw [h])
          exact h.content i (by omega) (by omega)
      · show w.arrived + 1 ≤ w.freed + 8192
        omega
      · show w.freed ≤ w.arrived + 1
        have := h.freed; omega
      · show w.arrived + 1 ≤ e.file.length
        omega
    · exact h

theorem link_same (f : List U8) (v : Option U8) (w : W5100) : WSame w (w.link f v) := by
  unfold W5100.link
  repeat' split
  all_goals exact ⟨rfl, rfl, rfl, rfl, rfl, rfl, Nat.le_refl _⟩

theorem WSame.trans {w w' w'' : W5100} (h1 : WSame w w') (h2 : WSame w' w'') : WSame w w'' :=
  ⟨h2.mode.trans h1.mode, h2.ptr.trans h1.ptr, h2.rd.trans h1.rd, h2.freed.trans h1.freed, h2.regs.trans h1.regs,
   h2.log.trans h1.log, Nat.le_trans h1.arrived h2.arrived⟩

theorem traffic_same (f : List U8) (v : Option U8) (n : Nat) (w : W5100) : WSame w (w.traffic f v n) := by
  unfold W5100.traffic
  dsimp only
  split
  · exact (link_same f v w).trans (deliver_same f n _)
  · exact link_same f v w

theorem deliver_sr (f : List U8) (n : Nat) : ∀ w : W5100, (w.deliver f n).sr = w.sr := by
  induction n with
  | zero => intro w; rfl
  | succ n ih =>
    intro w
    show W5100.sr (if _ then _ else _) = _
    split
    · rw [ih]; rfl
    · rfl

theorem link_ring (e : Env) (v : Option U8) (w : W5100) (h : RingOk e w) : RingOk e (w.link e.file v) := by
  unfold W5100.link
  split
  · exact h
  · split
    · rename_i hc
      refine ⟨h.content, h.window, h.freed, h.file, ?_⟩
      rcases h.up with hu | hu
      · rw [hu] at hc; exact absurd hc.1 (by decide)
      · exact .inr hu
    · split
      · rename_i hc
        exact ⟨h.content, h.window, h.freed, h.file, .inr hc.2.2⟩
      · exact h

theorem traffic_ring (e : Env) (v : Option U8) (n : Nat) (w : W5100) (h : RingOk e w) : RingOk e (w.traffic e.file v n) := by
  unfold W5100.traffic
  dsimp only
  split
  · exact deliver_ring e n _ (link_ring e v w h)
  · exact link_ring e v w h

/-! ### Meaning of symbolic states -/

/-- Value of a symbolic byte. -/
def V.val (e : Env) (s0 : Mach) (r0 : Nat) : V → U8
  | .lit n => BitVec.ofNat 8 n
  | .str k => e.byte (r0 + k)
  | .ringHi k => BitVec.ofNat 8 ((0x6000 + (r0 + k) % 8192) / 256)
  | .ringLo k => BitVec.ofNat 8 (0x6000 + (r0 + k) % 8192)
  | .rdHi => BitVec.ofNat 8 (s0.w.rd / 256)
  | .rdHi8 => BitVec.ofNat 8 (s0.w.rd / 256 + 8)
  | .ia => s0.a
  | .ix => s0.x
  | .iy => s0.y

/-- Memory after writes (newest first). -/
def afterWrites (e : Env) (s0 : Mach) (r0 : Nat) : List (Nat × V × V) → Mach
  | [] => s0
  | (base, off, v) :: ws =>
    (afterWrites e s0 r0 ws).store (base + (off.val e s0 r0).toNat) (v.val e s0 r0)

def Ptr.val (e : Env) (s0 : Mach) (r0 reads : Nat) : Ptr → Nat
  | .ring => 0x6000 + (r0 + reads) % 8192
  | .reg h l => 256 * (h.val e s0 r0).toNat + (l.val e s0 r0).toNat

/-- A machine state is as described. -/
structure Rel (e : Env) (h : Bool) (s0 : Mach) (r0 : Nat) (σ : Sym) (s : Mach) : Prop where
  pc : s.pc = σ.pc
  a : s.a = σ.a.val e s0 r0
  x : s.x = σ.x.val e s0 r0
  y : s.y = σ.y.val e s0 r0
  c : ∀ b, σ.c = some b → s.c = b
  main : s.main = (afterWrites e s0 r0 σ.wr).main
  aux : s.aux = (afterWrites e s0 r0 σ.wr).aux
  sw : s.sw = s0.sw
  cycles : s.cycles = s0.cycles + σ.cyc
  clicks : s.clicks = s0.clicks ++ σ.clk.reverse.map (s0.cycles + ·)
  mode : s.w.mode = s0.w.mode
  ptr : s.w.ptr = σ.ptr.val e s0 r0 σ.reads
  rd : s.w.rd = if σ.rdw then (s0.w.rd + 2048) % 65536 else s0.w.rd
  freed : s.w.freed = if σ.recv then s0.w.freed + 2048 else s0.w.freed
  regs : s.w.regs = s0.w.regs
  log : s.w.log = s0.w.log ++ (List.range σ.reads).map (fun k => e.byte (r0 + k))
  arrived : s0.w.arrived ≤ s.w.arrived
  ring : RingOk e s.w
  code : CodeOk h s.main
  norecv : σ.recv = true → ∃ a b, σ.ptr = .reg a b
  avail : r0 + σ.reads ≤ s0.w.arrived
  wrok : σ.wr.all otherOk = true

/-- What is assumed of the start state: `n` stream bytes are available. -/
structure Base (e : Env) (h : Bool) (s0 : Mach) (r0 n : Nat) : Prop where
  mode : s0.w.mode.getLsbD 1 = true
  steer : h = true → s0.steered 0x2000 = false
  rd : s0.w.rd = s0.w.freed % 65536
  freed : s0.w.freed ≤ r0
  avail : r0 + n ≤ s0.w.arrived
  /-- needed for RECV, which is only modelled for `n = 1` -/
  block : n = 1 → s0.w.freed + 2048 ≤ s0.w.arrived

theorem steered_congr {s s' : Mach} (h : s.sw = s'.sw) (q : Nat) : s.steered q = s'.steered q := by
  unfold Mach.steered; rw [h]

theorem afterWrites_sw (e : Env) (s0 : Mach) (r0 : Nat) (ws : List (Nat × V × V)) :
    (afterWrites e s0 r0 ws).sw = s0.sw := by
  induction ws with
  | nil => rfl
  | cons w ws ih =>
    obtain ⟨b, o, v⟩ := w
    show (Mach.store _ _ _).sw = _
    unfold Mach.store
    split <;> exact ih

theorem steered_false_of_code {h : Bool} {q b : Nat} (s : Mach) (hs : h = true → s.steered 0x2000 = false)
    (hc : codeByte h q = some b) : s.steered q = false := by
  have hq := codeByte_cases hc
  have e1 : (decide (0x400 ≤ q) && decide (q < 0x800)) = false := by
    rw [Bool.and_eq_false_iff, decide_eq_false_iff_not, decide_eq_false_iff_not]
    rcases hq with ⟨h1, h2, -⟩ | ⟨-, h1, h2, -⟩ | ⟨h1, h2, -⟩ <;> omega
  unfold Mach.steered
  rw [e1, Bool.false_or]
  rcases hq with ⟨h1, h2, -⟩ | ⟨h0, h1, h2, -⟩ | ⟨h1, h2, -⟩
  · have : decide (0x2000 ≤ q) = false := by rw [decide_eq_false_iff_not]; omega
    rw [this]; simp
  · have := hs h0
    unfold Mach.steered at this
    cases e1 : s.sw.store80 <;> cases e2 : s.sw.page2 <;> cases e3 : s.sw.hires <;> simp_all
  · have : decide (q < 0x4000) = false := by rw [decide_eq_false_iff_not]; omega
    rw [this]; simp

theorem decode_short {b lo hi hi' : Nat} {i : Instr} (h : decode b lo hi = some i) (hl : i.len = 2) :
    decode b lo hi' = some i := by
  unfold decode at h ⊢
  dsimp only at h ⊢
  have go : ∀ (t : Bool) (u u' : Option Instr) (v v' : Option Instr), (bif t then u else v) = some i →
      (u = some i → u' = some i) → (v = some i → v' = some i) → (bif t then u' else v') = some i := by
    intro t u u' v v' h1 h2 h3
    cases t
    · exact h3 h1
    · exact h2 h1
  iterate 32
    refine go _ _ _ _ _ h ?_ ?_
    · intro h
      first
        | exact h
        | (obtain rfl := Option.some.inj h; exact absurd hl (by simp [Instr.len]))
    clear h
    intro h
  exact h

theorem decode_one {b lo hi lo' hi' : Nat} {i : Instr} (h : decode b lo hi = some i) (hl : i.len = 1) :
    decode b lo' hi' = some i := by
  unfold decode at h ⊢
  dsimp only at h ⊢
  have go : ∀ (t : Bool) (u u' : Option Instr) (v v' : Option Instr), (bif t then u else v) = some i →
      (u = some i → u' = some i) → (v = some i → v' = some i) → (bif t then u' else v') = some i := by
    intro t u u' v v' h1 h2 h3
    cases t
    · exact h3 h1
    · exact h2 h1
  iterate 32
    refine go _ _ _ _ _ h ?_ ?_
    · intro h
      first
        | exact h
        | (obtain rfl := Option.some.inj h; exact absurd hl (by simp [Instr.len]))
    clear h
    intro h
  exact h

theorem len_cases (i : Instr) : i.len = 1 ∨ i.len = 2 ∨ i.len = 3 := by
  cases i <;> simp [Instr.len]

theorem codeByte_lt {h : Bool} {q b : Nat} (hc : codeByte h q = some b) : b < 256 ∧ q < 0xbacb := by
  have : ∀ img k, byteOf img k < 256 := fun img k => Nat.mod_lt _ (by decide)
  rcases codeByte_cases hc with ⟨h1, h2, -, he⟩ | ⟨-, h1, h2, he⟩ | ⟨h1, h2, -, he⟩
  all_goals exact ⟨he ▸ this _ _, by omega⟩

theorem symFetch_ok {h : Bool} {s : Mach} {i : Instr} (hc : CodeOk h s.main)
    (hs : h = true → s.steered 0x2000 = false) (hf : symFetch h s.pc = some i) : s.fetch = some i := by
  have ram : ∀ q b, codeByte h q = some b → (s.ram q).toNat = b := by
    intro q b hq
    unfold Mach.ram
    rw [steered_false_of_code s hs hq]
    simp only [Bool.false_eq_true, if_false]
    rw [hc q b hq, BitVec.toNat_ofNat, Nat.mod_eq_of_lt (codeByte_lt hq).1]
  unfold symFetch at hf
  cases h0 : codeByte h s.pc with
  | none => rw [h0] at hf; cases hf
  | some b0 =>
    rw [h0] at hf
    simp only at hf
    cases h3 : decode b0 ((codeByte h (s.pc + 1)).getD 0) ((codeByte h (s.pc + 2)).getD 0) with
    | none => rw [h3] at hf; cases hf
    | some j =>
      rw [h3] at hf
      simp only at hf
      have key : j = i ∧ decode (s.ram s.pc).toNat (s.ram (s.pc + 1)).toNat (s.ram (s.pc + 2)).toNat = some j ∧
          s.pc + j.len ≤ 0xc000 := by
        rw [ram _ _ h0]
        have hlt := (codeByte_lt h0).2
        rcases len_cases j with hl | hl | hl <;> rw [hl] at hf ⊢ <;> simp only at hf
        · exact ⟨Option.some.inj hf, decode_one h3 hl, by omega⟩
        · cases h1 : codeByte h (s.pc + 1) with
          | none => rw [h1] at hf; cases hf
          | some b1 =>
            rw [h1] at hf h3
            rw [ram _ _ h1]
            exact ⟨Option.some.inj hf, decode_short h3 hl, by omega⟩
        · cases h1 : codeByte h (s.pc + 1) with
          | none => rw [h1] at hf; cases hf
          | some b1 =>
            cases h2 : codeByte h (s.pc + 2) with
            | none => rw [h1, h2] at hf; cases hf
            | some b2 =>
              rw [h1, h2] at hf
              rw [h1, h2] at h3
              rw [ram _ _ h1, ram _ _ h2]
              exact ⟨Option.some.inj hf, h3, by omega⟩
      unfold Mach.fetch
      rw [key.2.1]
      simp only
      rw [if_pos key.2.2, key.1]

/-! ### Steps -/

theorem store_main (s : Mach) (q : Nat) (v : U8) :
    (s.store q v).main = fun p => if p = q ∧ s.steered q = false then v else s.main p := by
  unfold Mach.store
  funext p
  split
  · rename_i h; simp [h]
  · rename_i h; simp [h]

theorem store_aux (s : Mach) (q : Nat) (v : U8) :
    (s.store q v).aux = fun p => if p = q ∧ s.steered q = true then v else s.aux p := by
  unfold Mach.store
  funext p
  split
  · rename_i h; simp [h]
  · rename_i h; simp [h]

theorem store_sw (s : Mach) (q : Nat) (v : U8) : (s.store q v).sw = s.sw := by
  unfold Mach.store; split <;> rfl

theorem store_rest (s : Mach) (q : Nat) (v : U8) :
    s.store q v = { s with main := (s.store q v).main, aux := (s.store q v).aux } := by
  unfold Mach.store; split <;> rfl

theorem rel_env {e : Env} {h : Bool} {s0 : Mach} {r0 : Nat} {σ : Sym} {s : Mach} (hr : Rel e h s0 r0 σ s) :
    Rel e h s0 r0 σ (s.env e) := by
  have w := traffic_same e.file (e.link s.time) (e.deliver s.time) s.w
  exact { pc := hr.pc, a := hr.a, x := hr.x, y := hr.y, c := hr.c, main := hr.main, aux := hr.aux, sw := hr.sw
          cycles := hr.cycles, clicks := hr.clicks
          mode := w.mode.trans hr.mode, ptr := w.ptr.trans hr.ptr, rd := w.rd.trans hr.rd
          freed := w.freed.trans hr.freed, regs := w.regs.trans hr.regs, log := w.log.trans hr.log
          arrived := Nat.le_trans hr.arrived w.arrived
          ring := traffic_ring e _ _ _ hr.ring, code := hr.code, norecv := hr.norecv, avail := hr.avail, wrok := hr.wrok }

theorem rel_store {e : Env} {h : Bool} {s0 : Mach} {r0 : Nat} {σ : Sym} {s : Mach} (hr : Rel e h s0 r0 σ s)
    {base q : Nat} {off v : V} (hq : q = base + (off.val e s0 r0).toNat) (hc : codeByte h q = none)
    (ho : otherOk (base, off, v) = true) :
    Rel e h s0 r0 { σ with wr := (base, off, v) :: σ.wr } (s.store q (v.val e s0 r0)) := by
  subst hq
  rw [store_rest]
  have hst : s.steered (base + (off.val e s0 r0).toNat) =
      (afterWrites e s0 r0 σ.wr).steered (base + (off.val e s0 r0).toNat) :=
    steered_congr (hr.sw.trans (afterWrites_sw ..).symm) _
  refine { pc := hr.pc, a := hr.a, x := hr.x, y := hr.y, c := hr.c, main := ?_, aux := ?_, sw := hr.sw
           cycles := hr.cycles, clicks := hr.clicks
           mode := hr.mode, ptr := hr.ptr, rd := hr.rd
           freed := hr.freed, regs := hr.regs, log := hr.log
           arrived := hr.arrived
           ring := hr.ring, code := ?_, norecv := hr.norecv, avail := hr.avail
           wrok := by rw [List.all_cons, ho, hr.wrok]; rfl }
  · show (s.store _ _).main = (Mach.store _ _ _).main
    rw [store_main, store_main, hst, hr.main]
  · show (s.store _ _).aux = (Mach.store _ _ _).aux
    rw [store_aux, store_aux, hst, hr.aux]
  · intro q b hq
    show (s.store _ _).main q = _
    rw [store_main]
    show (if _ then _ else _) = _
    rw [if_neg, hr.code q b hq]
    rintro ⟨rfl, -⟩
    rw [hc] at hq
    exact absurd hq (by simp)

theorem advance_eq {w : W5100} (h : w.mode.getLsbD 1 = true) : w.advance = { w with ptr := W5100.inc w.ptr } := by
  unfold W5100.advance; rw [if_pos h]

theorem inc_ring (r : Nat) : W5100.inc (0x6000 + r % 8192) = 0x6000 + (r + 1) % 8192 := by
  unfold W5100.inc
  split
  · omega
  split
  · omega
  · omega

theorem rel_read {e : Env} {h : Bool} {s0 : Mach} {r0 n : Nat} (hb : Base e h s0 r0 n) {σ σ' : Sym} {s : Mach} {v : V}
    (hr : Rel e h s0 r0 σ s) {addr : Nat} (hs : symRead n σ addr = some (v, σ')) :
    ∃ s', s.read addr = some (v.val e s0 r0, s') ∧ Rel e h s0 r0 σ' s' := by
  have hm : s.w.mode.getLsbD 1 = true := by rw [hr.mode]; exact hb.mode
  unfold symRead at hs
  simp only [cond_eq_ite, Nat.beq_eq, Nat.blt_eq] at hs
  split at hs
  · rename_i ha
    subst ha
    split at hs
    · rename_i hp
      split at hs
      · rename_i hlt
        simp only [Option.some.injEq, Prod.mk.injEq] at hs
        obtain ⟨rfl, rfl⟩ := hs
        have hptr : s.w.ptr = 0x6000 + (r0 + σ.reads) % 8192 := by rw [hr.ptr, hp]; rfl
        have hnr : σ.recv = false := by
          cases hc : σ.recv with
          | false => rfl
          | true =>
            obtain ⟨a, b, hab⟩ := hr.norecv hc
            rw [hp] at hab
            cases hab
        have hfr : s.w.freed = s0.w.freed := by rw [hr.freed, hnr]; rfl
        have hv : s.w.rx (s.w.ptr - 0x6000) = e.byte (r0 + σ.reads) := by
          rw [hptr, Nat.add_sub_cancel_left]
          apply hr.ring.content
          · have := hr.arrived; have := hb.avail; omega
          · have := hr.ring.window; have := hb.freed; omega
        have hd : s.w.readData = (e.byte (r0 + σ.reads),
            { s.w with ptr := 0x6000 + (r0 + (σ.reads + 1)) % 8192, log := s.w.log ++ [e.byte (r0 + σ.reads)] }) := by
          unfold W5100.readData
          rw [if_pos (by omega), hv, advance_eq hm, hptr, inc_ring, Nat.add_assoc]
        refine ⟨{ s with w := s.w.readData.2 }, ?_, ?_⟩
        · show Mach.read s 0xc097 = _
          rw [show Mach.read s 0xc097 = some (s.w.readData.1, { s with w := s.w.readData.2 }) from rfl, hd]
          rfl
        · rw [hd]
          refine { pc := hr.pc, a := hr.a, x := hr.x, y := hr.y, c := hr.c, main := hr.main, aux := hr.aux
                   sw := hr.sw, cycles := hr.cycles, clicks := hr.clicks, mode := hr.mode, ptr := ?_, rd := hr.rd
                   freed := hr.freed, regs := hr.regs, log := ?_, arrived := hr.arrived
                   ring := ⟨hr.ring.content, hr.ring.window, hr.ring.freed, hr.ring.file, hr.ring.up⟩
                   code := hr.code, norecv := hr.norecv
                   avail := by show r0 + (σ.reads + 1) ≤ _; have := hb.avail; omega
                   wrok := hr.wrok }
          · show _ = Ptr.val e s0 r0 (σ.reads + 1) σ.ptr
            rw [hp]; rfl
          · show s.w.log ++ _ = _
            rw [hr.log, List.range_succ, List.map_append, List.append_assoc]; rfl
      · cases hs
    · rename_i hp
      split at hs
      · cases hs
      · rename_i hrd
        simp only [Option.some.injEq, Prod.mk.injEq] at hs
        obtain ⟨rfl, rfl⟩ := hs
        have hptr : s.w.ptr = 0x428 := by rw [hr.ptr, hp]; rfl
        have hrd' : s.w.rd = s0.w.rd := by rw [hr.rd, if_neg hrd]
        have hd : s.w.readData = (BitVec.ofNat 8 (s0.w.rd / 256), { s.w with ptr := 0x429 }) := by
          unfold W5100.readData
          simp only [hptr]
          rw [if_neg (by decide), if_neg (by decide), if_neg (by decide), if_pos trivial, advance_eq hm, hptr, hrd']
          rfl
        refine ⟨{ s with w := s.w.readData.2 }, ?_, ?_⟩
        · show Mach.read s 0xc097 = _
          rw [show Mach.read s 0xc097 = some (s.w.readData.1, { s with w := s.w.readData.2 }) from rfl, hd]
          rfl
        · rw [hd]
          exact { pc := hr.pc, a := hr.a, x := hr.x, y := hr.y, c := hr.c, main := hr.main, aux := hr.aux
                  sw := hr.sw, cycles := hr.cycles, clicks := hr.clicks, mode := hr.mode, ptr := rfl, rd := hr.rd
                  freed := hr.freed, regs := hr.regs, log := hr.log, arrived := hr.arrived
                  ring := ⟨hr.ring.content, hr.ring.window, hr.ring.freed, hr.ring.file, hr.ring.up⟩
                  code := hr.code, norecv := fun _ => ⟨_, _, rfl⟩, avail := hr.avail, wrok := hr.wrok }
    · cases hs
  split at hs
  · rename_i ha
    subst ha
    split at hs
    · rename_i hp
      simp only [Option.some.injEq, Prod.mk.injEq] at hs
      obtain ⟨rfl, rfl⟩ := hs
      refine ⟨s, ?_, hr⟩
      rw [show Mach.read s 0xc095 = some (BitVec.ofNat 8 (s.w.ptr / 256), s) from rfl, hr.ptr, hp]
      rfl
    · cases hs
  · cases hs

theorem rel_ptr {e : Env} {h : Bool} {s0 : Mach} {r0 : Nat} {σ : Sym} {s : Mach} (hr : Rel e h s0 r0 σ s)
    {g l : V} {p : Nat} (hp : p = Ptr.val e s0 r0 σ.reads (.reg g l)) :
    Rel e h s0 r0 { σ with ptr := .reg g l } { s with w := { s.w with ptr := p } } :=
  { pc := hr.pc, a := hr.a, x := hr.x, y := hr.y, c := hr.c, main := hr.main, aux := hr.aux
    sw := hr.sw, cycles := hr.cycles, clicks := hr.clicks, mode := hr.mode, ptr := hp, rd := hr.rd
    freed := hr.freed, regs := hr.regs, log := hr.log, arrived := hr.arrived
    ring := ⟨hr.ring.content, hr.ring.window, hr.ring.freed, hr.ring.file, hr.ring.up⟩
    code := hr.code, norecv := fun _ => ⟨_, _, rfl⟩, avail := hr.avail, wrok := hr.wrok }

theorem write_low (s : Mach) {addr : Nat} (h : addr < 0xc000) (v : U8) : s.write addr v = some (s.store addr v) := by
  unfold Mach.write; rw [if_pos h]

theorem write_rom (s : Mach) {addr : Nat} (h : 0xc100 ≤ addr) (v : U8) : s.write addr v = some s := by
  unfold Mach.write
  rw [if_neg (by omega), if_neg (by omega), if_neg (by omega), if_neg (by omega), if_neg (by omega),
    if_neg (by omega), if_neg (by omega), if_neg (by omega), if_neg (by omega), if_neg (by omega),
    if_neg (by omega), if_pos h]

theorem codeByte_other {h : Bool} {q : Nat} (hc : (Nat.beq q 8 || isPatch q) = true) : codeByte h q = none := by
  cases hb : codeByte h q with
  | none => rfl
  | some b =>
    exfalso
    rw [Bool.or_eq_true] at hc
    rcases hc with h8 | hp
    · have h8 := Nat.eq_of_beq_eq_true h8
      rcases codeByte_cases hb with ⟨h1, h2, -⟩ | ⟨-, h1, h2, -⟩ | ⟨h1, h2, -⟩ <;> omega
    · have := isPatch_range hp
      rcases codeByte_cases hb with ⟨h1, h2, h3, -⟩ | ⟨-, h1, h2, -⟩ | ⟨h1, h2, h3, -⟩
      · rw [hp] at h3; exact absurd h3 (by decide)
      · omega
      · rw [hp] at h3; exact absurd h3 (by decide)

theorem rel_write {e : Env} {h : Bool} {s0 : Mach} {r0 n : Nat} (hb : Base e h s0 r0 n) {σ σ' : Sym} {s : Mach} {v : V}
    (hr : Rel e h s0 r0 σ s) {addr : Nat} (hs : symWrite n σ addr v = some σ') :
    ∃ s', s.write addr (v.val e s0 r0) = some s' ∧ Rel e h s0 r0 σ' s' := by
  have hm : s.w.mode.getLsbD 1 = true := by rw [hr.mode]; exact hb.mode
  unfold symWrite at hs
  simp only [cond_eq_ite, Nat.beq_eq, Nat.blt_eq] at hs
  split at hs
  · rename_i ha
    split at hs
    · rename_i hc
      simp only [Option.some.injEq] at hs
      subst hs
      have ho : otherOk (addr, .lit 0, v) = true := by
        show (_ || (true && (Nat.beq addr 8 || isPatch addr))) = true
        rw [hc]; simp
      exact ⟨_, write_low s ha _, rel_store hr (by simp [V.val]) (codeByte_other hc) ho⟩
    · cases hs
  rename_i hlow
  split at hs
  · rename_i ha
    subst ha
    simp only [Option.some.injEq] at hs
    subst hs
    refine ⟨s.click, rfl, ?_⟩
    refine { pc := hr.pc, a := hr.a, x := hr.x, y := hr.y, c := hr.c, main := hr.main, aux := hr.aux
             sw := hr.sw, cycles := hr.cycles, clicks := ?_, mode := hr.mode, ptr := hr.ptr, rd := hr.rd
             freed := hr.freed, regs := hr.regs, log := hr.log, arrived := hr.arrived
             ring := hr.ring, code := hr.code, norecv := hr.norecv, avail := hr.avail, wrok := hr.wrok }
    show s.clicks ++ [s.cycles] = _
    rw [hr.clicks, hr.cycles]
    simp
  split at hs
  · rename_i ha
    subst ha
    have hw : s.write 0xc095 (v.val e s0 r0) =
        some { s with w := { s.w with ptr := 256 * (v.val e s0 r0).toNat + s.w.ptr % 256 } } := rfl
    refine ⟨_, hw, ?_⟩
    split at hs
    · rename_i hp
      simp only [Option.some.injEq] at hs
      subst hs
      apply rel_ptr hr
      rw [hr.ptr, hp]
      show _ = 256 * _ + (BitVec.ofNat 8 (0x6000 + (r0 + σ.reads) % 8192)).toNat
      rw [BitVec.toNat_ofNat]; rfl
    · rename_i g l hp
      simp only [Option.some.injEq] at hs
      subst hs
      apply rel_ptr hr
      rw [hr.ptr, hp]
      show _ + (256 * _ + (l.val e s0 r0).toNat) % 256 = 256 * _ + (l.val e s0 r0).toNat
      have := (l.val e s0 r0).isLt
      omega
  split at hs
  · rename_i ha
    subst ha
    have hw : s.write 0xc096 (v.val e s0 r0) =
        some { s with w := { s.w with ptr := 256 * (s.w.ptr / 256) + (v.val e s0 r0).toNat } } := rfl
    refine ⟨_, hw, ?_⟩
    split at hs
    · cases hs
    · rename_i g l hp
      simp only [Option.some.injEq] at hs
      subst hs
      apply rel_ptr hr
      rw [hr.ptr, hp]
      show 256 * ((256 * (g.val e s0 r0).toNat + (l.val e s0 r0).toNat) / 256) + _ = 256 * (g.val e s0 r0).toNat + _
      have := (l.val e s0 r0).isLt
      omega
  split at hs
  · rename_i ha
    subst ha
    have hw : s.write 0xc097 (v.val e s0 r0) = some { s with w := s.w.writeData (v.val e s0 r0) } := rfl
    refine ⟨_, hw, ?_⟩
    split at hs
    · rename_i hp
      split at hs
      · cases hs
      · rename_i hrd
        simp only [Option.some.injEq] at hs
        subst hs
        have hptr : s.w.ptr = 0x428 := by rw [hr.ptr, hp]; rfl
        have hrd' : s.w.rd = s0.w.rd := by rw [hr.rd, if_neg hrd]
        have hd : s.w.writeData (V.rdHi8.val e s0 r0) =
            { s.w with rd := (s0.w.rd + 2048) % 65536, ptr := 0x429 } := by
          unfold W5100.writeData
          simp only [hptr]
          rw [if_pos trivial, advance_eq (by exact hm)]
          dsimp only
          rw [hrd']
          have : 256 * (V.rdHi8.val e s0 r0).toNat + s0.w.rd % 256 = (s0.w.rd + 2048) % 65536 := by
            show 256 * (BitVec.ofNat 8 (s0.w.rd / 256 + 8)).toNat + _ = _
            rw [BitVec.toNat_ofNat]
            omega
          rw [this]
          rfl
        rw [hd]
        exact { pc := hr.pc, a := hr.a, x := hr.x, y := hr.y, c := hr.c, main := hr.main, aux := hr.aux
                sw := hr.sw, cycles := hr.cycles, clicks := hr.clicks, mode := hr.mode, ptr := rfl, rd := rfl
                freed := hr.freed, regs := hr.regs, log := hr.log, arrived := hr.arrived
                ring := ⟨hr.ring.content, hr.ring.window, hr.ring.freed, hr.ring.file, hr.ring.up⟩
                code := hr.code, norecv := fun _ => ⟨_, _, rfl⟩, avail := hr.avail, wrok := hr.wrok }
    · rename_i hp
      split at hs
      · rename_i hrd
        simp only [Bool.and_eq_true, Bool.not_eq_true', Nat.beq_eq] at hrd
        obtain ⟨hrd, hn⟩ := hrd
        simp only [Option.some.injEq] at hs
        subst hs
        have hptr : s.w.ptr = 0x401 := by rw [hr.ptr, hp]; rfl
        have hrd' : s.w.rd = (s0.w.rd + 2048) % 65536 := by rw [hr.rd, hrd.1]; rfl
        have hfr : s.w.freed = s0.w.freed := by rw [hr.freed, hrd.2]; rfl
        have hd : s.w.writeData ((V.lit 0x40).val e s0 r0) = { s.w with freed := s0.w.freed + 2048, ptr := 0x402 } := by
          unfold W5100.writeData
          simp only [hptr]
          rw [if_neg (by decide), if_neg (by decide), if_pos ⟨trivial, rfl⟩, advance_eq (by exact hm)]
          dsimp only
          rw [hrd', hfr, hb.rd]
          have : s0.w.freed + ((s0.w.freed % 65536 + 2048) % 65536 + 65536 - s0.w.freed % 65536) % 65536 =
              s0.w.freed + 2048 := by omega
          rw [this]
          rfl
        rw [hd]
        have := hr.arrived
        have := hb.block hn
        exact { pc := hr.pc, a := hr.a, x := hr.x, y := hr.y, c := hr.c, main := hr.main, aux := hr.aux
                sw := hr.sw, cycles := hr.cycles, clicks := hr.clicks, mode := hr.mode, ptr := rfl, rd := hr.rd
                freed := rfl, regs := hr.regs, log := hr.log, arrived := hr.arrived
                ring := ⟨hr.ring.content, by
                  show s.w.arrived ≤ s0.w.freed + 2048 + 8192
                  have := hr.ring.window; omega, by
                  show s0.w.freed + 2048 ≤ s.w.arrived
                  omega, hr.ring.file, hr.ring.up⟩
                code := hr.code, norecv := fun _ => ⟨_, _, rfl⟩, avail := hr.avail, wrok := hr.wrok }
      · cases hs
    · cases hs
  split at hs
  · rename_i ha
    simp only [Option.some.injEq] at hs
    subst hs
    exact ⟨s, write_rom s (Nat.le_of_ble_eq_true ha) _, hr⟩
  · cases hs

theorem codeByte_screen {q : Nat} (h1 : 0x2000 ≤ q) (h2 : q < 0x4000) : codeByte false q = none := by
  cases h : codeByte false q with
  | none => rfl
  | some b =>
    rcases codeByte_cases h with ⟨h3, h4, -⟩ | ⟨h0, -⟩ | ⟨h3, h4, -⟩
    · omega
    · cases h0
    · omega

theorem rel_indexed {e : Env} {h : Bool} {s0 : Mach} {r0 n : Nat} (hb : Base e h s0 r0 n) {σ σ' : Sym} {s : Mach}
    (hr : Rel e h s0 r0 σ s) {base : Nat} {off : V} (hs : symIndexed h n σ base off = some σ') :
    ∃ s', s.write ((base + (off.val e s0 r0).toNat) % 65536) s.a = some s' ∧ Rel e h s0 r0 σ' s' := by
  rw [hr.a]
  unfold symIndexed at hs
  split at hs
  · simp only [cond_eq_ite, Nat.blt_eq] at hs
    split at hs
    · rename_i hlt
      have e1 : (base + ((V.lit 0).val e s0 r0).toNat) % 65536 = base := by
        show (base + 0) % 65536 = base
        omega
      rw [e1]
      exact rel_write hb hr hs
    · cases hs
  · simp only [cond_eq_ite, Bool.and_eq_true, Bool.not_eq_true', Nat.beq_eq, Nat.blt_eq] at hs
    split at hs
    · rename_i hc
      obtain ⟨⟨⟨rfl, h1⟩, h2⟩, h3⟩ := hc
      have h2 := Nat.le_of_ble_eq_true h2
      simp only [Option.some.injEq] at hs
      subst hs
      have hlt := (off.val e s0 r0).isLt
      have e1 : (base + (off.val e s0 r0).toNat) % 65536 = base + (off.val e s0 r0).toNat := by omega
      rw [e1]
      exact ⟨_, write_low s (by omega) _, rel_store hr rfl (codeByte_screen (by omega) (by omega)) (by
        unfold otherOk
        rw [isScr_iff.mpr ⟨h2, h3, h1⟩, Bool.true_or])⟩
    · cases hs

theorem rel_nz {e : Env} {h : Bool} {s0 : Mach} {r0 : Nat} {σ : Sym} {s : Mach} (hr : Rel e h s0 r0 σ s) (v : U8) :
    Rel e h s0 r0 σ (s.setNZ v) :=
  { pc := hr.pc, a := hr.a, x := hr.x, y := hr.y, c := hr.c, main := hr.main, aux := hr.aux
    sw := hr.sw, cycles := hr.cycles, clicks := hr.clicks, mode := hr.mode, ptr := hr.ptr, rd := hr.rd
    freed := hr.freed, regs := hr.regs, log := hr.log, arrived := hr.arrived
    ring := hr.ring, code := hr.code, norecv := hr.norecv, avail := hr.avail, wrok := hr.wrok }

theorem rel_a {e : Env} {h : Bool} {s0 : Mach} {r0 : Nat} {σ : Sym} {s : Mach} (hr : Rel e h s0 r0 σ s) {v : V}
    {b : U8} (hv : b = v.val e s0 r0) : Rel e h s0 r0 { σ with a := v } { s with a := b } :=
  { pc := hr.pc, a := hv, x := hr.x, y := hr.y, c := hr.c, main := hr.main, aux := hr.aux
    sw := hr.sw, cycles := hr.cycles, clicks := hr.clicks, mode := hr.mode, ptr := hr.ptr, rd := hr.rd
    freed := hr.freed, regs := hr.regs, log := hr.log, arrived := hr.arrived
    ring := hr.ring, code := hr.code, norecv := hr.norecv, avail := hr.avail, wrok := hr.wrok }

theorem rel_x {e : Env} {h : Bool} {s0 : Mach} {r0 : Nat} {σ : Sym} {s : Mach} (hr : Rel e h s0 r0 σ s) {v : V}
    {b : U8} (hv : b = v.val e s0 r0) : Rel e h s0 r0 { σ with x := v } { s with x := b } :=
  { pc := hr.pc, a := hr.a, x := hv, y := hr.y, c := hr.c, main := hr.main, aux := hr.aux
    sw := hr.sw, cycles := hr.cycles, clicks := hr.clicks, mode := hr.mode, ptr := hr.ptr, rd := hr.rd
    freed := hr.freed, regs := hr.regs, log := hr.log, arrived := hr.arrived
    ring := hr.ring, code := hr.code, norecv := hr.norecv, avail := hr.avail, wrok := hr.wrok }

theorem rel_y {e : Env} {h : Bool} {s0 : Mach} {r0 : Nat} {σ : Sym} {s : Mach} (hr : Rel e h s0 r0 σ s) {v : V}
    {b : U8} (hv : b = v.val e s0 r0) : Rel e h s0 r0 { σ with y := v } { s with y := b } :=
  { pc := hr.pc, a := hr.a, x := hr.x, y := hv, c := hr.c, main := hr.main, aux := hr.aux
    sw := hr.sw, cycles := hr.cycles, clicks := hr.clicks, mode := hr.mode, ptr := hr.ptr, rd := hr.rd
    freed := hr.freed, regs := hr.regs, log := hr.log, arrived := hr.arrived
    ring := hr.ring, code := hr.code, norecv := hr.norecv, avail := hr.avail, wrok := hr.wrok }

theorem rel_c {e : Env} {h : Bool} {s0 : Mach} {r0 : Nat} {σ : Sym} {s : Mach} (hr : Rel e h s0 r0 σ s)
    {c : Option Bool} {b : Bool} (hv : ∀ d, c = some d → b = d) : Rel e h s0 r0 { σ with c := c } { s with c := b } :=
  { pc := hr.pc, a := hr.a, x := hr.x, y := hr.y, c := hv, main := hr.main, aux := hr.aux
    sw := hr.sw, cycles := hr.cycles, clicks := hr.clicks, mode := hr.mode, ptr := hr.ptr, rd := hr.rd
    freed := hr.freed, regs := hr.regs, log := hr.log, arrived := hr.arrived
    ring := hr.ring, code := hr.code, norecv := hr.norecv, avail := hr.avail, wrok := hr.wrok }

theorem rel_pc {e : Env} {h : Bool} {s0 : Mach} {r0 : Nat} {σ : Sym} {s : Mach} (hr : Rel e h s0 r0 σ s)
    (p : Nat) : Rel e h s0 r0 { σ with pc := p } { s with pc := p } :=
  { pc := rfl, a := hr.a, x := hr.x, y := hr.y, c := hr.c, main := hr.main, aux := hr.aux
    sw := hr.sw, cycles := hr.cycles, clicks := hr.clicks, mode := hr.mode, ptr := hr.ptr, rd := hr.rd
    freed := hr.freed, regs := hr.regs, log := hr.log, arrived := hr.arrived
    ring := hr.ring, code := hr.code, norecv := hr.norecv, avail := hr.avail, wrok := hr.wrok }

theorem rel_cycles {e : Env} {h : Bool} {s0 : Mach} {r0 : Nat} {σ : Sym} {s : Mach} (hr : Rel e h s0 r0 σ s)
    (k : Nat) : Rel e h s0 r0 { σ with cyc := σ.cyc + k } { s with cycles := s.cycles + k } :=
  { pc := hr.pc, a := hr.a, x := hr.x, y := hr.y, c := hr.c, main := hr.main, aux := hr.aux
    sw := hr.sw, cycles := by show s.cycles + k = s0.cycles + (σ.cyc + k); rw [hr.cycles]; omega
    clicks := hr.clicks, mode := hr.mode, ptr := hr.ptr, rd := hr.rd
    freed := hr.freed, regs := hr.regs, log := hr.log, arrived := hr.arrived
    ring := hr.ring, code := hr.code, norecv := hr.norecv, avail := hr.avail, wrok := hr.wrok }

theorem rel_exec {e : Env} {h : Bool} {s0 : Mach} {r0 n : Nat} (hb : Base e h s0 r0 n) {σ σ' : Sym} {s : Mach}
    (hr : Rel e h s0 r0 σ s) {i : Instr} (hs : symExec h n σ i = some σ') :
    ∃ s', s.exec e i = some s' ∧ Rel e h s0 r0 σ' s' := by
  have rd : ∀ {addr : Nat} {f : V × Sym → Sym} {g : U8 × Mach → Mach},
      (symRead n σ addr).map f = some σ' →
      (∀ v τ t, Rel e h s0 r0 τ t → Rel e h s0 r0 (f (v, τ)) (g (v.val e s0 r0, t))) →
      ∃ s', (s.read addr).map g = some s' ∧ Rel e h s0 r0 σ' s' := by
    intro addr f g h1 h2
    obtain ⟨⟨v, τ⟩, h3, rfl⟩ := Option.map_eq_some_iff.mp h1
    obtain ⟨t, h4, h5⟩ := rel_read hb hr h3
    exact ⟨_, by rw [h4]; rfl, h2 v τ t h5⟩
  cases i with
  | ldaI v => cases hs; exact ⟨_, rfl, rel_a (rel_nz hr _) rfl⟩
  | ldxI v => cases hs; exact ⟨_, rfl, rel_x (rel_nz hr _) rfl⟩
  | ldyI v => cases hs; exact ⟨_, rfl, rel_y (rel_nz hr _) rfl⟩
  | ldaA addr => exact rd hs fun v τ t ht => rel_a (rel_nz ht _) rfl
  | ldxA addr => exact rd hs fun v τ t ht => rel_x (rel_nz ht _) rfl
  | ldyA addr => exact rd hs fun v τ t ht => rel_y (rel_nz ht _) rfl
  | staZ addr =>
    obtain ⟨s', h1, h2⟩ := rel_write hb hr hs
    exact ⟨s', by rw [← hr.a] at h1; exact h1, h2⟩
  | staA addr =>
    obtain ⟨s', h1, h2⟩ := rel_write hb hr hs
    exact ⟨s', by rw [← hr.a] at h1; exact h1, h2⟩
  | stxA addr =>
    obtain ⟨s', h1, h2⟩ := rel_write hb hr hs
    exact ⟨s', by rw [← hr.x] at h1; exact h1, h2⟩
  | styA addr =>
    obtain ⟨s', h1, h2⟩ := rel_write hb hr hs
    exact ⟨s', by rw [← hr.y] at h1; exact h1, h2⟩
  | staX addr =>
    obtain ⟨s', h1, h2⟩ := rel_indexed hb hr hs
    exact ⟨s', by rw [← hr.x] at h1; exact h1, h2⟩
  | staY addr =>
    obtain ⟨s', h1, h2⟩ := rel_indexed hb hr hs
    exact ⟨s', by rw [← hr.y] at h1; exact h1, h2⟩
  | nop => cases hs; exact ⟨_, rfl, hr⟩
  | clc => cases hs; exact ⟨_, rfl, rel_c hr (by rintro _ ⟨⟩; rfl)⟩
  | adcI v =>
    dsimp only [symExec] at hs
    split at hs
    case h_2 => cases hs
    rename_i hv h1 h2
    obtain rfl := Nat.eq_of_beq_eq_true hv
    cases hs
    refine ⟨_, rfl, ?_⟩
    have ha := hr.a
    rw [h1] at ha
    have hc := hr.c _ h2
    refine { pc := hr.pc, a := ?_, x := hr.x, y := hr.y, c := (by rintro _ ⟨⟩), main := hr.main, aux := hr.aux
             sw := hr.sw, cycles := hr.cycles, clicks := hr.clicks, mode := hr.mode, ptr := hr.ptr, rd := hr.rd
             freed := hr.freed, regs := hr.regs, log := hr.log, arrived := hr.arrived
             ring := hr.ring, code := hr.code, norecv := hr.norecv, avail := hr.avail, wrok := hr.wrok }
    show BitVec.ofNat 8 (s.a.toNat + 8 + (if s.c = true then 1 else 0)) = BitVec.ofNat 8 (s0.w.rd / 256 + 8)
    rw [ha, hc]
    show BitVec.ofNat 8 ((BitVec.ofNat 8 (s0.w.rd / 256)).toNat + 8 + 0) = BitVec.ofNat 8 (s0.w.rd / 256 + 8)
    apply BitVec.eq_of_toNat_eq
    simp only [BitVec.toNat_ofNat]
    omega
  | jmp addr => cases hs; exact ⟨_, rfl, rel_pc hr _⟩
  | _ => cases hs

theorem rel_step {e : Env} {h : Bool} {s0 : Mach} {r0 n : Nat} (hb : Base e h s0 r0 n) {σ σ' : Sym} {s : Mach}
    (hr : Rel e h s0 r0 σ s) (hs : symStep h n σ = some σ') :
    ∃ s', s.step e = some s' ∧ Rel e h s0 r0 σ' s' := by
  have hr := rel_env hr
  unfold Mach.step
  dsimp only
  generalize s.env e = t at hr
  unfold symStep at hs
  split at hs
  · cases hs
  · rename_i i hi
    rw [← hr.pc] at hi
    rw [symFetch_ok hr.code (fun h0 => by rw [steered_congr hr.sw]; exact hb.steer h0) hi]
    dsimp only
    have h1 := rel_cycles (rel_pc hr (t.pc + i.len)) i.cycles
    apply rel_exec hb h1
    rw [← hr.pc] at hs
    exact hs

theorem run_zero (e : Env) (s : Mach) : s.run e 0 = some s := rfl
theorem run_succ (e : Env) (n : Nat) (s : Mach) : s.run e (n + 1) = (s.step e).bind (Mach.run e n) := rfl

theorem run_add {e : Env} (n : Nat) : ∀ {m : Nat} {s s' : Mach}, s.run e n = some s' → s.run e (n + m) = s'.run e m := by
  induction n with
  | zero => intro m s s' h; cases h; rw [Nat.zero_add]
  | succ n ih =>
    intro m s s' h
    rw [run_succ] at h
    obtain ⟨t, h1, h2⟩ := Option.bind_eq_some_iff.mp h
    rw [show n + 1 + m = n + m + 1 by omega, run_succ, h1]
    exact ih h2

/-- Along a symbolic run the machine does not stop, and is as described at every step. -/
theorem rel_run {e : Env} {h : Bool} {s0 : Mach} {r0 n : Nat} (hb : Base e h s0 r0 n) (k : Nat) : ∀ {σ σ' : Sym} {s : Mach},
    Rel e h s0 r0 σ s → symRun h n k σ = some σ' →
    (∃ s', s.run e k = some s' ∧ Rel e h s0 r0 σ' s') ∧
    ∀ j, j ≤ k → ∃ τ t, symRun h n j σ = some τ ∧ s.run e j = some t ∧ Rel e h s0 r0 τ t := by
  induction k with
  | zero =>
    intro σ σ' s hr hs
    cases hs
    refine ⟨⟨s, rfl, hr⟩, ?_⟩
    intro j hj
    obtain rfl : j = 0 := by omega
    exact ⟨σ, s, rfl, rfl, hr⟩
  | succ k ih =>
    intro σ σ' s hr hs
    unfold symRun at hs
    split at hs
    · cases hs
    · rename_i τ hτ
      obtain ⟨t, h1, h2⟩ := rel_step hb hr hτ
      obtain ⟨⟨s', h3, h4⟩, h5⟩ := ih h2 hs
      refine ⟨⟨s', by rw [run_succ, h1]; exact h3, h4⟩, ?_⟩
      intro j hj
      cases j with
      | zero => exact ⟨σ, s, rfl, rfl, hr⟩
      | succ j =>
        obtain ⟨τ', t', h6, h7, h8⟩ := h5 j (by omega)
        refine ⟨τ', t', ?_, by rw [run_succ, h1]; exact h7, h8⟩
        show (match symStep h n σ with | none => none | some σ => symRun h n j σ) = _
        rw [hτ]
        exact h6

/-- The start of a symbolic run. -/
theorem rel_start {e : Env} {h : Bool} {s : Mach} {r0 : Nat} {x : V} {ptr : Ptr} (hp : s.w.ptr = ptr.val e s r0 0)
    (hx : s.x = x.val e s r0) (hring : RingOk e s.w) (hc : CodeOk h s.main) (ha : r0 ≤ s.w.arrived) :
    Rel e h s r0 { symStart s.pc with x := x, ptr := ptr } s :=
  { pc := rfl, a := rfl, x := hx, y := rfl, c := fun _ h => by cases h
    main := rfl, aux := rfl, sw := rfl, cycles := rfl
    clicks := by simp [symStart], mode := rfl, ptr := hp, rd := rfl, freed := rfl, regs := rfl
    log := by simp [symStart], arrived := Nat.le_refl _, ring := hring, code := hc
    norecv := fun h => by cases h
    avail := ha, wrok := rfl }

end IIVision.Player
