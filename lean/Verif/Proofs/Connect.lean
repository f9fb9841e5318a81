import Verif.Proofs.BootExec
import Verif.Spec.Connect

/-! From the entry of the player to the connection. -/

namespace IIVision.Player

/-- The registers written by the start-up code, last first. -/
def cfg : List (Nat × Nat) :=
  [(1041, 185), (1040, 7), (1039, 1), (1038, 0), (1037, 0), (1036, 10), (1029, 0), (1028, 192), (1024, 33), (27, 3), (26, 3),
   (18, 2), (17, 65), (16, 0), (15, 10), (14, 3), (13, 2), (12, 1), (11, 220), (10, 8), (9, 0)]

def text1 : List Nat :=
  [213, 212, 200, 197, 210, 206, 197, 212, 160, 201, 201, 186, 160, 195, 207, 213, 204, 196, 160, 206, 207, 212,
   160, 207, 208, 197, 206, 160, 211, 207, 195, 203, 197, 212, 161, 141]

def text2 : List Nat :=
  [211, 207, 195, 203, 197, 212, 160, 195, 207, 213, 204, 196, 160, 206, 207, 212, 160, 195, 207, 206, 206, 197,
   195, 212, 160, 173, 160, 195, 200, 197, 195, 203, 160, 210, 197, 205, 207, 212, 197, 160, 200, 207, 211, 212, 141]

def bStart : BSt := ⟨0x800, none, none, none, none, none, none, none, none, none, []⟩

def bFailed (k : Nat) : BSt :=
  ⟨0x2102, some 0, none, none, some true, some ⟨3, 0x404, 0, cfg, true⟩, some k, none, none, none, []⟩

theorem bRun_open : bRun true 127 bStart =
    some ⟨0x20ef, some 4, some 4, none, some false, some ⟨3, 0x401, 0x13, cfg, true⟩, some 6, some 172, some 186, some 31, []⟩ := by
  decide +kernel

theorem bRun_dead : bRun false 307 bStart =
    some ⟨0x20c2, some 0, none, some 36, some true, some ⟨3, 0x404, 0, cfg, false⟩, some 6, some 172, some 186, some 31, text1⟩ := by
  decide +kernel

theorem bRun_retry : ∀ k : Fin 7, 2 ≤ k.val → bRun true 123 (bFailed k.val) =
    some ⟨0x20ef, some 4, some 4, none, some false, some ⟨3, 0x401, 0x13, cfg, true⟩, some (k.val - 1), none, none, none, [174]⟩ := by
  decide +kernel

theorem bRun_fail : bRun true 230 (bFailed 1) =
    some ⟨0x211b, some 0, none, some 45, some true, some ⟨3, 0x404, 0, cfg, true⟩, some 0, none, none, none, text2⟩ := by
  decide +kernel

/-! ### Changing the base -/

theorem brel_start {s : Mach} (h : Started s) : BRel s bStart s :=
  ⟨h.pc, fun _ h => (by cases h), fun _ h => (by cases h), fun _ h => (by cases h), fun _ h => (by cases h), fun _ h => (by cases h),
   fun _ h => (by cases h), ⟨fun _ h => (by cases h), fun _ => rfl⟩, ⟨fun _ h => (by cases h), fun _ => rfl⟩,
   ⟨fun _ h => (by cases h), fun _ => rfl⟩, (List.append_nil _).symm, fun _ _ => rfl, fun _ _ => rfl, rfl, rfl, rfl, rfl,
   codeOk_of_loaded h.loaded, h.page2⟩

theorem brel_rebase {s0 s : Mach} {b : BSt} (h : BRel s0 b s) : BRel s { b with v2 := none, v3 := none, v4 := none, out := [] } s :=
  ⟨h.pc, h.a, h.x, h.y, h.z, h.card, h.cnt, ⟨fun _ h => (by cases h), fun _ => rfl⟩, ⟨fun _ h => (by cases h), fun _ => rfl⟩,
   ⟨fun _ h => (by cases h), fun _ => rfl⟩, (List.append_nil _).symm, fun _ _ => rfl, fun _ _ => rfl, rfl, rfl, rfl, rfl, h.code, h.page2⟩

theorem brel_compose {s0 s1 s : Mach} {b b' : BSt} (h : BRel s0 b s1) (h' : BRel s1 b' s)
    (e2 : b'.v2 = none) (e3 : b'.v3 = none) (e4 : b'.v4 = none) :
    BRel s0 { b' with v2 := b.v2, v3 := b.v3, v4 := b.v4, out := b.out ++ b'.out } s := by
  refine ⟨h'.pc, h'.a, h'.x, h'.y, h'.z, h'.card, h'.cnt, ?_, ?_, ?_, ?_, fun q hq => (h'.main q hq).trans (h.main q hq),
    fun q hq => (h'.aux q hq).trans (h.aux q hq), h'.sw.trans h.sw, h'.clicks.trans h.clicks, h'.log.trans h.log,
    h'.works.trans h.works, h'.code, h'.page2⟩
  · rw [h'.v2.2 e2]; exact h.v2
  · rw [h'.v3.2 e3]; exact h.v3
  · rw [h'.v4.2 e4]; exact h.v4
  · rw [h'.out, h.out, List.map_append, List.append_assoc]

/-- What is known while waiting for the connection. -/
def bPoll (pc : Nat) (a : Option Nat) (z : Option Bool) (k : Nat) (out : List Nat) : BSt :=
  ⟨pc, a, none, none, z, none, some k, some 172, some 186, some 31, out⟩

theorem brel_poll {s0 s : Mach} {b : BSt} {k : Nat} {out : List Nat} (h : BRel s0 b s) (h1 : b.cnt = some k)
    (h2 : b.v2 = some 172) (h3 : b.v3 = some 186) (h4 : b.v4 = some 31) (h5 : b.out = out) :
    BRel s0 (bPoll b.pc b.a b.z k out) s :=
  ⟨h.pc, h.a, fun _ h => (by cases h), fun _ h => (by cases h), h.z, fun _ h => (by cases h), by have := h.cnt; rw [h1] at this; exact this,
   by have := h.v2; rw [h2] at this; exact this, by have := h.v3; rw [h3] at this; exact this,
   by have := h.v4; rw [h4] at this; exact this, by have := h.out; rw [h5] at this; exact this, h.main, h.aux, h.sw,
   h.clicks, h.log, h.works, h.code, h.page2⟩

theorem brel_forget {s0 s : Mach} {pc k : Nat} {a : Option Nat} {z : Option Bool} {out : List Nat}
    (h : BRel s0 (bPoll pc a z k out) s) : BRel s0 (bPoll pc none none k out) s :=
  ⟨h.pc, fun _ h => (by cases h), h.x, h.y, fun _ h => (by cases h), h.card, h.cnt, h.v2, h.v3, h.v4, h.out, h.main, h.aux, h.sw,
   h.clicks, h.log, h.works, h.code, h.page2⟩

theorem brel_w {s0 s : Mach} {b : BSt} (h : BRel s0 b s) (hb : b.card = none) {w : W5100} (h1 : w.log = s.w.log) (h2 : w.works = s.w.works) :
    BRel s0 b { s with w := w } :=
  ⟨h.pc, h.a, h.x, h.y, h.z, fun c hc => (by rw [hb] at hc; cases hc), h.cnt, h.v2, h.v3, h.v4, h.out, h.main, h.aux, h.sw,
   h.clicks, h1.trans h.log, h2.trans h.works, h.code, h.page2⟩

theorem poll_vector {s0 s : Mach} {pc k : Nat} {a : Option Nat} {z : Option Bool} {out : List Nat}
    (h : BRel s0 (bPoll pc a z k out) s) : ResetVector s := by
  have e2 : s.main 0x3f2 = 172#8 := BitVec.eq_of_toNat_eq (h.v2.1 172 rfl)
  have e3 : s.main 0x3f3 = 186#8 := BitVec.eq_of_toNat_eq (h.v3.1 186 rfl)
  have e4 : s.main 0x3f4 = 31#8 := BitVec.eq_of_toNat_eq (h.v4.1 31 rfl)
  unfold ResetVector
  rw [e2, e3, e4]
  exact ⟨rfl, rfl, rfl⟩

/-! ### The chip after CONNECT -/

structure Wire (e : Env) (w : W5100) : Prop where
  mode : w.mode = 3#8
  ptr : w.ptr / 256 = 4
  rd : w.rd = 0
  freed : w.freed = 0
  regs : ∀ q, (w.regs.at_ q).toNat = regVal cfg q
  works : w.works = true
  state : (w.sr = stSynSent ∧ w.arrived = 0) ∨
    (w.sr = stClosed ∧ w.arrived = 0 ∧ ∃ t, e.link t = some stClosed) ∨
    (RingOk e w ∧ (∃ t, e.link t = some stEstablished) ∧
      (w.sr = stEstablished ∨ (w.sr = stCloseWait ∧ e.file.length ≤ 8192 ∧ ∃ t, e.link t = some stCloseWait)))

theorem wire_ptr {e : Env} {w : W5100} (h : Wire e w) {p : Nat} (hp : p / 256 = 4) : Wire e { w with ptr := p } := by
  refine ⟨h.mode, hp, h.rd, h.freed, h.regs, h.works, ?_⟩
  rcases h.state with a | a | ⟨a, b⟩
  · exact .inl a
  · exact .inr (.inl a)
  · exact .inr (.inr ⟨⟨a.content, a.window, a.freed, a.file, a.up⟩, b⟩)

theorem wire_traffic {e : Env} {w : W5100} (h : Wire e w) (t n : Nat) : Wire e (w.traffic e.file (e.link t) n) := by
  have w1 := traffic_same e.file (e.link t) n w
  refine ⟨w1.mode.trans h.mode, by rw [w1.ptr]; exact h.ptr, w1.rd.trans h.rd, w1.freed.trans h.freed,
    by rw [w1.regs]; exact h.regs, (traffic_works ..).trans h.works, ?_⟩
  rcases h.state with ⟨a, b⟩ | ⟨a, b⟩ | ⟨a, b, c⟩
  · -- connecting
    cases hl : e.link t with
    | none =>
      have : w.traffic e.file none n = w := by
        unfold W5100.traffic W5100.link
        dsimp only
        rw [a, if_neg (by decide)]
      rw [this]
      exact .inl ⟨a, b⟩
    | some v =>
      by_cases h1 : v = stEstablished
      · subst h1
        have hk : w.link e.file (some stEstablished) = { w with sr := stEstablished } := by
          unfold W5100.link
          dsimp only
          rw [if_pos ⟨a, .inl rfl⟩]
        have hr : RingOk e { w with sr := stEstablished } := by
          have e1 : ({ w with sr := stEstablished } : W5100).arrived = 0 := b
          have e2 : ({ w with sr := stEstablished } : W5100).freed = 0 := h.freed
          refine ⟨fun i hi => ?_, by omega, by omega, by omega, .inl rfl⟩
          omega
        have ht : w.traffic e.file (some stEstablished) n = W5100.deliver e.file n { w with sr := stEstablished } := by
          unfold W5100.traffic
          rw [hk]
          rfl
        rw [ht]
        exact .inr (.inr ⟨deliver_ring e n _ hr, ⟨t, hl⟩, .inl ((deliver_sr ..).trans rfl)⟩)
      · by_cases h2 : v = stClosed
        · subst h2
          have hk : w.link e.file (some stClosed) = { w with sr := stClosed } := by
            unfold W5100.link
            dsimp only
            rw [if_pos ⟨a, .inr rfl⟩]
          have ht : w.traffic e.file (some stClosed) n = { w with sr := stClosed } := by
            unfold W5100.traffic
            rw [hk]
            rfl
          rw [ht]
          exact .inr (.inl ⟨rfl, b, t, hl⟩)
        · have hk : w.link e.file (some v) = w := by
            unfold W5100.link
            dsimp only
            rw [if_neg (fun h => h.2.elim h1 h2), a, if_neg (fun h => absurd h.1 (by decide))]
          have ht : w.traffic e.file (some v) n = w := by
            unfold W5100.traffic
            rw [hk]
            dsimp only
            rw [a, if_neg (by decide)]
          rw [ht]
          exact .inl ⟨a, b⟩
  · rw [traffic_idle]
    · exact .inr (.inl ⟨a, b⟩)
    · rw [a]; decide
    · rw [a]; decide
  · refine .inr (.inr ⟨traffic_ring e _ _ _ a, b, ?_⟩)
    rcases c with c | ⟨c, d⟩
    · -- established
      have key : (w.link e.file (e.link t)).sr = stEstablished ∨
          ((w.link e.file (e.link t)).sr = stCloseWait ∧ e.file.length ≤ 8192 ∧ ∃ t, e.link t = some stCloseWait) := by
        unfold W5100.link
        split
        · exact .inl c
        · rename_i v hv
          rw [if_neg (fun h => absurd (c.symm.trans h.1) (by decide))]
          split
          · rename_i h2
            obtain ⟨-, h3, h4⟩ := h2
            have := a.window
            have := h.freed
            exact .inr ⟨h3, by omega, t, by rw [hv, h3]⟩
          · exact .inl c
      unfold W5100.traffic
      dsimp only
      rcases key with k | ⟨k, k'⟩
      · rw [if_pos k]
        exact .inl ((deliver_sr ..).trans k)
      · rw [if_neg (by rw [k]; decide)]
        exact .inr ⟨k, k'⟩
    · rw [traffic_idle]
      · exact .inr ⟨c, d⟩
      · rw [c]; decide
      · rw [c]; decide

/-- Still connecting after the network had its turn: it did not answer. -/
theorem wire_silent {e : Env} {w : W5100} {t n : Nat} (hs : (w.traffic e.file (e.link t) n).sr = stSynSent) :
    w.sr = stSynSent ∧ e.link t ≠ some stEstablished ∧ e.link t ≠ some stClosed := by
  have hl : ∀ v, (w.link e.file v).sr = stSynSent → w.sr = stSynSent ∧ v ≠ some stEstablished ∧ v ≠ some stClosed := by
    intro v
    unfold W5100.link
    split
    · intro h; exact ⟨h, by decide, by decide⟩
    · rename_i v
      split
      · rename_i hc
        intro hv
        rcases hc.2 with h | h
        · exact absurd (h.symm.trans hv) (by decide)
        · exact absurd (h.symm.trans hv) (by decide)
      · rename_i hc
        split
        · rename_i hd
          intro hv
          exact absurd (hd.2.1.symm.trans hv) (by decide)
        · intro hv
          refine ⟨hv, fun h => hc ⟨hv, .inl (Option.some.inj h)⟩, fun h => hc ⟨hv, .inr (Option.some.inj h)⟩⟩
  apply hl
  unfold W5100.traffic at hs
  dsimp only at hs
  split at hs
  · rename_i hc
    rw [deliver_sr] at hs
    exact hs
  · exact hs

/-! ### Steps of the loop -/

def Instr.plain : Instr → Prop
  | .ldaI _ | .cmpI _ | .beq _ | .bne _ => True
  | _ => False

theorem branch_w (s : Mach) (b : Bool) (d : Nat) : (s.branch b d).w = s.w := by
  unfold Mach.branch; split <;> rfl

theorem exec_plain {e : Env} {s s' : Mach} {i : Instr} (hi : i.plain) (h : s.exec e i = some s') : s'.w = s.w := by
  cases i with
  | ldaI v => cases h; rfl
  | cmpI v => cases h; rfl
  | beq d => cases h; exact branch_w ..
  | bne d => cases h; exact branch_w ..
  | _ => exact hi.elim

theorem plain_step {s0 s : Mach} {b b' : BSt} {i : Instr} (e : Env) (h : BRel s0 b s) (hf : symFetch true b.pc = some i) (hi : i.plain)
    (hb : bExec s0.w.works { b with pc := b.pc + i.len } i = some b') :
    ∃ s', s.step e = some s' ∧ BRel s0 b' s' ∧ s'.w = s.w.traffic e.file (e.link s.time) (e.deliver s.time) := by
  have h1 := brel_next (brel_env e h) (b.pc + i.len) (s.cycles + i.cycles)
  obtain ⟨s', g1, g2⟩ := bexec_ok e h1 hb
  refine ⟨s', ?_, g2, exec_plain hi g1⟩
  rw [step_code h.code (fun _ => not_steered h.page2 _) (by rw [h.pc]; exact hf), h.pc]
  exact g1

theorem wadrl_step {s0 s : Mach} {b : BSt} {a : Nat} (e : Env) (h : BRel s0 b s) (hc : b.card = none) (ha : b.a = some a)
    (hf : symFetch true b.pc = some (.staA 0xc096)) :
    ∃ s' p, s.step e = some s' ∧ BRel s0 { b with pc := b.pc + 3 } s' ∧
      s'.w = { s.w.traffic e.file (e.link s.time) (e.deliver s.time) with ptr := p } ∧ p = 256 * (s.w.ptr / 256) + a := by
  have h1 := brel_next (brel_env e h) (b.pc + 3) (s.cycles + 4)
  have w := traffic_same e.file (e.link s.time) (e.deliver s.time) s.w
  refine ⟨_, _, ?_, brel_w h1 (by exact hc) (w := { (s.env e).w with ptr := 256 * (s.w.ptr / 256) + a }) rfl rfl, rfl, rfl⟩
  rw [step_code h.code (fun _ => not_steered h.page2 _) (by rw [h.pc]; exact hf), h.pc]
  have hw : ∀ (t : Mach) (v : U8), t.write 0xc096 v = some { t with w := { t.w with ptr := 256 * (t.w.ptr / 256) + v.toNat } } := fun _ _ => rfl
  refine (hw _ _).trans ?_
  show some ({ s.env e with pc := b.pc + 3, cycles := s.cycles + 4, w := { (s.env e).w with ptr := 256 * ((s.env e).w.ptr / 256) + s.a.toNat } } : Mach) = _
  rw [show (s.env e).w.ptr = s.w.ptr from w.ptr, h.a a ha]

theorem status_step {s0 s : Mach} {b : BSt} (e : Env) (h : BRel s0 b s) (hc : b.card = none) (hm : s.w.mode = 3#8) (hp : s.w.ptr = 0x403)
    (hf : symFetch true b.pc = some (.ldaA 0xc097)) :
    ∃ s' v, s.step e = some s' ∧ v = (s.w.traffic e.file (e.link s.time) (e.deliver s.time)).sr.toNat ∧
      BRel s0 { b with pc := b.pc + 3, a := some v, z := some (v == 0) } s' ∧
      s'.w = { s.w.traffic e.file (e.link s.time) (e.deliver s.time) with ptr := 0x404 } := by
  have h1 := brel_next (brel_env e h) (b.pc + 3) (s.cycles + 4)
  have w := traffic_same e.file (e.link s.time) (e.deliver s.time) s.w
  have e1 : (s.env e).w.mode.getLsbD 1 = true := by
    rw [show (s.env e).w.mode = s.w.mode from w.mode, hm]; decide
  have e2 : (s.env e).w.ptr = 0x403 := w.ptr.trans hp
  have hd : (s.env e).w.readData = ((s.env e).w.sr, { (s.env e).w with ptr := 0x404 }) := by
    unfold W5100.readData
    dsimp only
    rw [advance_eq e1, e2]
    rfl
  refine ⟨_, _, ?_, rfl, brel_setA (brel_w h1 (by exact hc) (w := { (s.env e).w with ptr := 0x404 }) rfl rfl) rfl, rfl⟩
  rw [step_code h.code (fun _ => not_steered h.page2 _) (by rw [h.pc]; exact hf), h.pc]
  have hl : ∀ (t : Mach) (q : Nat), t.exec e (.ldaA q) = (t.read q).map fun r => { r.2.setNZ r.1 with a := r.1 } := fun _ _ => rfl
  have hr : ∀ t : Mach, t.read 0xc097 = some (t.w.readData.1, { t with w := t.w.readData.2 }) := fun _ => rfl
  rw [hl, hr]
  show some ({ ({ s.env e with pc := b.pc + 3, cycles := s.cycles + 4, w := (s.env e).w.readData.2 } : Mach).setNZ (s.env e).w.readData.1 with
    a := (s.env e).w.readData.1 } : Mach) = _
  rw [hd]
  rfl

theorem connect_step {s0 s : Mach} {b : BSt} {c : BCard} (e : Env) (h : BRel s0 b s) (hb : b.card = some c) (h1 : c.mode = 3) (h2 : c.ptr = 0x401)
    (h3 : c.sr = 0x13) (h4 : c.regs = cfg) (h5 : c.works = true) (ha : b.a = some 4)
    (hf : symFetch true b.pc = some (.staA 0xc097)) :
    ∃ s', s.step e = some s' ∧ BRel s0 { b with pc := b.pc + 3, card := none } s' ∧ Wire e s'.w ∧ s'.w.sr = stSynSent := by
  have hc := h.card c hb
  have he : (s.env e).w = s.w := cardIs_traffic hc ..
  have hn := brel_next (brel_env e h) (b.pc + 3) (s.cycles + 4)
  have hp : s.w.ptr = 0x401 := hc.ptr.trans h2
  have hmode : s.w.mode = 3#8 := BitVec.eq_of_toNat_eq (hc.mode.trans h1)
  have hsr : s.w.sr = stInit := BitVec.eq_of_toNat_eq (hc.sr.trans h3)
  have ha4 : s.a = 4#8 := BitVec.eq_of_toNat_eq (h.a 4 ha)
  have hd : s.w.writeData s.a = { s.w with sr := stSynSent, ptr := 0x402 } := by
    unfold W5100.writeData
    dsimp only
    rw [if_neg (show ¬ s.w.ptr = 0x428 by omega), if_neg (show ¬ s.w.ptr = 0x429 by omega),
      if_neg (show ¬ (s.w.ptr = 0x401 ∧ s.a = 0x40#8) by rw [ha4]; exact fun h => absurd h.2 (by decide)),
      if_neg (show ¬ (s.w.ptr = 0x401 ∧ s.a = 0x01#8) by rw [ha4]; exact fun h => absurd h.2 (by decide)),
      if_pos (show s.w.ptr = 0x401 ∧ s.a = 0x04#8 from ⟨hp, ha4⟩), if_pos hsr,
      advance_eq (w := { s.w with sr := stSynSent }) (show s.w.mode.getLsbD 1 = true by rw [hmode]; decide)]
    show ({ s.w with sr := stSynSent, ptr := W5100.inc s.w.ptr } : W5100) = _
    rw [hp]
    rfl
  have hforget : BRel s0 { b with pc := b.pc + 3, card := none } { s.env e with pc := b.pc + 3, cycles := s.cycles + 4 } :=
    ⟨hn.pc, hn.a, hn.x, hn.y, hn.z, fun _ h => (by cases h), hn.cnt, hn.v2, hn.v3, hn.v4, hn.out, hn.main, hn.aux, hn.sw, hn.clicks, hn.log,
     hn.works, hn.code, hn.page2⟩
  refine ⟨_, ?_, brel_w hforget rfl (w := { s.w with sr := stSynSent, ptr := 0x402 }) (by rw [← he]) (by rw [← he]), ?_, rfl⟩
  · rw [step_code h.code (fun _ => not_steered h.page2 _) (by rw [h.pc]; exact hf), h.pc]
    have hw : ∀ (t : Mach) (v : U8), t.write 0xc097 v = some { t with w := t.w.writeData v } := fun _ _ => rfl
    refine (hw _ _).trans ?_
    show some ({ s.env e with pc := b.pc + 3, cycles := s.cycles + 4, w := (s.env e).w.writeData s.a } : Mach) = _
    rw [he, hd]
  · exact ⟨hmode, (by decide : 0x402 / 256 = 4), hc.rd, hc.freed, by rw [← h4]; exact hc.regs, hc.works.trans h5, .inl ⟨rfl, hc.arrived⟩⟩

/-! ### The loop -/

/-- An instruction of the loop: the network has its turn, the address pointer may change. -/
structure Turn (e : Env) (s s' : Mach) : Prop where
  step : s.step e = some s'
  w : ∃ p, s'.w = { s.w.traffic e.file (e.link s.time) (e.deliver s.time) with ptr := p }
  ptr : s'.w.ptr / 256 = 4

theorem Turn.wire {e : Env} {s s' : Mach} (h : Turn e s s') (hw : Wire e s.w) : Wire e s'.w := by
  obtain ⟨p, hp⟩ := h.w
  have h1 := h.ptr
  rw [hp] at h1 ⊢
  exact wire_ptr (wire_traffic hw _ _) h1

theorem Turn.silent {e : Env} {s s' : Mach} (h : Turn e s s') (hs : s'.w.sr = stSynSent) :
    s.w.sr = stSynSent ∧ e.link s.time ≠ some stEstablished ∧ e.link s.time ≠ some stClosed := by
  obtain ⟨p, hp⟩ := h.w
  rw [hp] at hs
  exact wire_silent hs

theorem Turn.time {e : Env} {s s' : Mach} (h : Turn e s s') : s'.time = s.time + 1 := (step_calm h.step).time

theorem turn_plain {e : Env} {s s' : Mach} (hw : Wire e s.w) (h1 : s.step e = some s')
    (h2 : s'.w = s.w.traffic e.file (e.link s.time) (e.deliver s.time)) : Turn e s s' := by
  refine ⟨h1, ⟨_, h2⟩, ?_⟩
  rw [h2, (traffic_same ..).ptr]
  exact hw.ptr

/-- In the loop. -/
def Looping (s0 : Mach) (k : Nat) (out : List Nat) (s : Mach) : Prop :=
  ∃ pc a z, BRel s0 (bPoll pc a z k out) s ∧ 0x20f2 ≤ pc ∧ pc < 0x2102

/-- What one pass of the loop may lead to. -/
inductive Pass (e : Env) (s0 : Mach) (k : Nat) (out : List Nat) (s : Mach) : Prop
  | failed (s' : Mach) : s.run e 4 = some s' → BRel s0 (bPoll 0x2102 (some 0) (some true) k out) s' → Wire e s'.w → s'.w.sr = stClosed →
      s'.w.ptr = 0x404 → Pass e s0 k out s
  | connected (s' : Mach) : s.run e 6 = some s' → BRel s0 (bPoll 0x214a none none k out) s' → Wire e s'.w →
      RingOk e s'.w → (∃ t, e.link t = some stEstablished) → Pass e s0 k out s
  | again (s' : Mach) : s.run e 7 = some s' → BRel s0 (bPoll 0x20f2 none none k out) s' → Wire e s'.w → s'.time = s.time + 7 →
      (∀ m, m < 7 → ∃ u, s.run e m = some u ∧ Looping s0 k out u) →
      (s'.w.sr = stSynSent → ∀ i, i < 7 → e.link (s.time + i) ≠ some stEstablished ∧ e.link (s.time + i) ≠ some stClosed) →
      (s.w.sr ≠ stSynSent → e.file.length ≤ 8192 ∧ (∃ t, e.link t = some stCloseWait) ∧ (∃ t, e.link t = some stEstablished)) →
      Pass e s0 k out s

theorem one {e : Env} {s t u : Mach} {n : Nat} (h : s.run e n = some t) (hs : t.step e = some u) : s.run e (n + 1) = some u := by
  rw [run_add n h, run_succ, hs]
  rfl

/-- The first three instructions of a pass read the status. -/
theorem poll_head {e : Env} {s0 s : Mach} {k : Nat} {out : List Nat} (h : BRel s0 (bPoll 0x20f2 none none k out) s) (hw : Wire e s.w) :
    ∃ s1 s2 s3 v, Turn e s s1 ∧ Turn e s1 s2 ∧ Turn e s2 s3 ∧ BRel s0 (bPoll 0x20f4 (some 3) (some false) k out) s1 ∧
      BRel s0 (bPoll 0x20f7 (some 3) (some false) k out) s2 ∧ BRel s0 (bPoll 0x20fa (some v) (some (v == 0)) k out) s3 ∧
      v = s3.w.sr.toNat ∧ s3.w.ptr = 0x404 := by
  obtain ⟨s1, a1, a2, a3⟩ := plain_step e (b' := bPoll 0x20f4 (some 3) (some false) k out) h
    (i := .ldaI 3) (show symFetch true 0x20f2 = _ by decide +kernel) trivial rfl
  have t1 := turn_plain hw a1 a3
  have w1 := t1.wire hw
  obtain ⟨s2, p, b1, b2, b3, b4⟩ := wadrl_step e (b := bPoll 0x20f4 (some 3) (some false) k out) a2 rfl rfl (show symFetch true 0x20f4 = _ by decide +kernel)
  have b2 : BRel s0 (bPoll 0x20f7 (some 3) (some false) k out) s2 := b2
  have t2 : Turn e s1 s2 := ⟨b1, ⟨_, b3⟩, by rw [b3]; show p / 256 = 4; have := w1.ptr; omega⟩
  have w2 := t2.wire w1
  have p2 : s2.w.ptr = 0x403 := by rw [b3]; show p = _; have := w1.ptr; omega
  obtain ⟨s3, v, c1, c2, c3, c4⟩ := status_step e (b := bPoll 0x20f7 (some 3) (some false) k out) b2 rfl w2.mode p2 (show symFetch true 0x20f7 = _ by decide +kernel)
  have c3 : BRel s0 (bPoll 0x20fa (some v) (some (v == 0)) k out) s3 := c3
  have t3 : Turn e s2 s3 := ⟨c1, ⟨_, c4⟩, by rw [c4]; exact (by decide : 0x404 / 256 = 4)⟩
  have v3 : v = s3.w.sr.toNat := by rw [c4]; exact c2
  have p3 : s3.w.ptr = 0x404 := by rw [c4]
  exact ⟨s1, s2, s3, v, t1, t2, t3, a2, b2, c3, v3, p3⟩

theorem pass {e : Env} {s0 s : Mach} {k : Nat} {out : List Nat} (h : BRel s0 (bPoll 0x20f2 none none k out) s) (hw : Wire e s.w) :
    Pass e s0 k out s := by
  obtain ⟨s1, s2, s3, v, t1, t2, t3, a2, b2, c3, v3, p3⟩ := poll_head h hw
  have w3 := t3.wire (t2.wire (t1.wire hw))
  have a1 := t1.step
  have b1 := t2.step
  have c1 := t3.step
  have r1 : s.run e 1 = some s1 := one rfl a1
  have r2 := one r1 b1
  have r3 := one r2 c1
  have hclosed : v = 0 → Pass e s0 k out s := by
    intro hv
    subst hv
    have hsr : s3.w.sr = stClosed := BitVec.eq_of_toNat_eq v3.symm
    obtain ⟨s4, d1, d2, d3⟩ := plain_step e (b := bPoll 0x20fa (some 0) (some true) k out) (b' := bPoll 0x2102 (some 0) (some true) k out) c3
      (i := .beq 6) (show symFetch true 0x20fa = _ by decide +kernel) trivial rfl
    rw [traffic_idle _ _ _ (by rw [hsr]; decide) (by rw [hsr]; decide)] at d3
    exact .failed s4 (one r3 d1) d2 (by rw [d3]; exact w3) (by rw [d3]; exact hsr) (by rw [d3]; exact p3)
  have next : v ≠ 0 → ∃ s4 s5, Turn e s3 s4 ∧ Turn e s4 s5 ∧ BRel s0 (bPoll 0x20fc (some v) (some false) k out) s4 ∧
      BRel s0 (bPoll 0x20fe (some v) (some (v == 0x17)) k out) s5 := by
    intro hv
    have hz : (v == 0) = false := beq_false_of_ne hv
    rw [hz] at c3
    obtain ⟨s4, d1, d2, d3⟩ := plain_step e (b := bPoll 0x20fa (some v) (some false) k out) (b' := bPoll 0x20fc (some v) (some false) k out) c3
      (i := .beq 6) (show symFetch true 0x20fa = _ by decide +kernel) trivial rfl
    have t4 := turn_plain w3 d1 d3
    obtain ⟨s5, f1, f2, f3⟩ := plain_step e (b' := bPoll 0x20fe (some v) (some (v == 0x17)) k out) d2
      (i := .cmpI 0x17) (show symFetch true 0x20fc = _ by decide +kernel) trivial rfl
    exact ⟨s4, s5, t4, turn_plain (t4.wire w3) f1 f3, d2, f2⟩
  have hest : v = 0x17 → Pass e s0 k out s := by
    intro hv
    obtain ⟨s4, s5, t4, t5, d2, f2⟩ := next (by omega)
    have w4 := t4.wire w3
    have w5 := t5.wire w4
    rw [show (v == 0x17) = true by rw [hv]; rfl] at f2
    obtain ⟨s6, g1, g2, g3⟩ := plain_step e (b' := bPoll 0x214a (some v) (some true) k out) f2
      (i := .beq 0x4a) (show symFetch true 0x20fe = _ by decide +kernel) trivial rfl
    have t6 := turn_plain w5 g1 g3
    have hsr : s3.w.sr = stEstablished := BitVec.eq_of_toNat_eq (v3.symm.trans hv)
    have hring : RingOk e s3.w ∧ ∃ t, e.link t = some stEstablished := by
      rcases w3.state with ⟨a, -⟩ | ⟨a, -⟩ | ⟨a, b, -⟩
      · rw [hsr] at a; exact absurd a (by decide)
      · rw [hsr] at a; exact absurd a (by decide)
      · exact ⟨a, b⟩
    have ring : ∀ {s s' : Mach}, Turn e s s' → RingOk e s.w → RingOk e s'.w := by
      intro s s' h hr
      obtain ⟨p, hp⟩ := h.w
      have := traffic_ring e (e.link s.time) (e.deliver s.time) s.w hr
      rw [hp]
      exact ⟨this.content, this.window, this.freed, this.file, this.up⟩
    exact .connected s6 (one (one (one r3 t4.step) t5.step) g1) (brel_forget g2) (t6.wire w5) (ring t6 (ring t5 (ring t4 hring.1))) hring.2
  by_cases h0 : v = 0
  · exact hclosed h0
  by_cases h17 : v = 0x17
  · exact hest h17
  obtain ⟨s4, s5, t4, t5, d2, f2⟩ := next h0
  have w4 := t4.wire w3
  have w5 := t5.wire w4
  rw [show (v == 0x17) = false from beq_false_of_ne h17] at f2
  obtain ⟨s6, g1, g2, g3⟩ := plain_step e (b' := bPoll 0x2100 (some v) (some false) k out) f2
    (i := .beq 0x4a) (show symFetch true 0x20fe = _ by decide +kernel) trivial rfl
  have t6 := turn_plain w5 g1 g3
  have w6 := t6.wire w5
  obtain ⟨s7, i1, i2, i3⟩ := plain_step e (b' := bPoll 0x20f2 (some v) (some false) k out) g2
    (i := .bne 0xf0) (show symFetch true 0x2100 = _ by decide +kernel) trivial
    (show some (bPoll (branchTarget 0x2102 0xf0) (some v) (some false) k out) = _ by rw [show branchTarget 0x2102 0xf0 = 0x20f2 by decide +kernel])
  have t7 := turn_plain w6 i1 i3
  have r4 := one r3 t4.step
  have r5 := one r4 t5.step
  have r6 := one r5 g1
  have r7 := one r6 i1
  have x1 := t1.time
  have x2 := t2.time
  have x3 := t3.time
  have x4 := t4.time
  have x5 := t5.time
  have x6 := t6.time
  have x7 := t7.time
  refine .again s7 r7 (brel_forget i2) (t7.wire w6) (by omega) ?_ ?_ ?_
  · intro m hm
    have : m = 0 ∨ m = 1 ∨ m = 2 ∨ m = 3 ∨ m = 4 ∨ m = 5 ∨ m = 6 := by omega
    rcases this with rfl | rfl | rfl | rfl | rfl | rfl | rfl
    · exact ⟨s, rfl, _, _, _, h, by decide, by decide⟩
    · exact ⟨s1, r1, _, _, _, a2, by decide, by decide⟩
    · exact ⟨s2, r2, _, _, _, b2, by decide, by decide⟩
    · exact ⟨s3, r3, _, _, _, c3, by decide, by decide⟩
    · exact ⟨s4, r4, _, _, _, d2, by decide, by decide⟩
    · exact ⟨s5, r5, _, _, _, f2, by decide, by decide⟩
    · exact ⟨s6, r6, _, _, _, g2, by decide, by decide⟩
  · intro hs i hi
    obtain ⟨y7, z7⟩ := t7.silent hs
    obtain ⟨y6, z6⟩ := t6.silent y7
    obtain ⟨y5, z5⟩ := t5.silent y6
    obtain ⟨y4, z4⟩ := t4.silent y5
    obtain ⟨y3, z3⟩ := t3.silent y4
    obtain ⟨y2, z2⟩ := t2.silent y3
    obtain ⟨y1, z1⟩ := t1.silent y2
    have : i = 0 ∨ i = 1 ∨ i = 2 ∨ i = 3 ∨ i = 4 ∨ i = 5 ∨ i = 6 := by omega
    rcases this with rfl | rfl | rfl | rfl | rfl | rfl | rfl
    · exact z1
    · rw [← x1]; exact z2
    · rw [show s.time + 2 = s2.time by omega]; exact z3
    · rw [show s.time + 3 = s3.time by omega]; exact z4
    · rw [show s.time + 4 = s4.time by omega]; exact z5
    · rw [show s.time + 5 = s5.time by omega]; exact z6
    · rw [show s.time + 6 = s6.time by omega]; exact z7
  · intro hs
    rcases w3.state with ⟨a, -⟩ | ⟨a, -⟩ | ⟨-, b, c | ⟨c, d, f⟩⟩
    · exact absurd (t1.silent (t2.silent (t3.silent a).1).1).1 hs
    · rw [a] at v3; exact absurd v3 h0
    · rw [c] at v3; exact absurd v3 h17
    · exact ⟨d, f, b⟩

/-- A pass that finds the connection closed by the server. -/
theorem poll_closed {e : Env} {s0 s s1 s2 s3 : Mach} {k v : Nat} {out : List Nat} (h : BRel s0 (bPoll 0x20f2 none none k out) s) (hw : Wire e s.w)
    (t1 : Turn e s s1) (t2 : Turn e s1 s2) (t3 : Turn e s2 s3) (a2 : BRel s0 (bPoll 0x20f4 (some 3) (some false) k out) s1)
    (b2 : BRel s0 (bPoll 0x20f7 (some 3) (some false) k out) s2) (c3 : BRel s0 (bPoll 0x20fa (some v) (some (v == 0)) k out) s3)
    (v3 : v = s3.w.sr.toNat) (hs : s3.w.sr = stCloseWait) :
    ∃ s7, s.run e 7 = some s7 ∧ BRel s0 (bPoll 0x20f2 none none k out) s7 ∧ Wire e s7.w ∧ s7.w.sr = stCloseWait ∧
      ∀ m, m < 7 → ∃ u, s.run e m = some u ∧ Looping s0 k out u := by
  have hv : v = 0x1c := by rw [v3, hs]; rfl
  subst hv
  have w3 := t3.wire (t2.wire (t1.wire hw))
  have still : ∀ {s s' : Mach}, s'.w = s.w.traffic e.file (e.link s.time) (e.deliver s.time) → s.w.sr = stCloseWait → s'.w.sr = stCloseWait := by
    intro s s' h1 h2
    rw [h1, traffic_idle _ _ _ (by rw [h2]; decide) (by rw [h2]; decide)]
    exact h2
  obtain ⟨s4, d1, d2, d3⟩ := plain_step e (b := bPoll 0x20fa (some 0x1c) (some false) k out) (b' := bPoll 0x20fc (some 0x1c) (some false) k out) c3
    (i := .beq 6) (show symFetch true 0x20fa = _ by decide +kernel) trivial rfl
  have t4 := turn_plain w3 d1 d3
  have w4 := t4.wire w3
  obtain ⟨s5, f1, f2, f3⟩ := plain_step e (b' := bPoll 0x20fe (some 0x1c) (some false) k out) d2
    (i := .cmpI 0x17) (show symFetch true 0x20fc = _ by decide +kernel) trivial rfl
  have t5 := turn_plain w4 f1 f3
  have w5 := t5.wire w4
  obtain ⟨s6, g1, g2, g3⟩ := plain_step e (b' := bPoll 0x2100 (some 0x1c) (some false) k out) f2
    (i := .beq 0x4a) (show symFetch true 0x20fe = _ by decide +kernel) trivial rfl
  have t6 := turn_plain w5 g1 g3
  have w6 := t6.wire w5
  obtain ⟨s7, i1, i2, i3⟩ := plain_step e (b' := bPoll 0x20f2 (some 0x1c) (some false) k out) g2
    (i := .bne 0xf0) (show symFetch true 0x2100 = _ by decide +kernel) trivial
    (show some (bPoll (branchTarget 0x2102 0xf0) (some 0x1c) (some false) k out) = _ by rw [show branchTarget 0x2102 0xf0 = 0x20f2 by decide +kernel])
  have t7 := turn_plain w6 i1 i3
  have r1 : s.run e 1 = some s1 := one rfl t1.step
  have r2 := one r1 t2.step
  have r3 := one r2 t3.step
  have r4 := one r3 d1
  have r5 := one r4 f1
  have r6 := one r5 g1
  refine ⟨s7, one r6 i1, brel_forget i2, t7.wire w6, still i3 (still g3 (still f3 (still d3 hs))), ?_⟩
  intro m hm
  have : m = 0 ∨ m = 1 ∨ m = 2 ∨ m = 3 ∨ m = 4 ∨ m = 5 ∨ m = 6 := by omega
  rcases this with rfl | rfl | rfl | rfl | rfl | rfl | rfl
  · exact ⟨s, rfl, _, _, _, h, by omega, by omega⟩
  · exact ⟨s1, r1, _, _, _, a2, by omega, by omega⟩
  · exact ⟨s2, r2, _, _, _, b2, by omega, by omega⟩
  · exact ⟨s3, r3, _, _, _, c3, by omega, by omega⟩
  · exact ⟨s4, r4, _, _, _, d2, by omega, by omega⟩
  · exact ⟨s5, r5, _, _, _, f2, by omega, by omega⟩
  · exact ⟨s6, r6, _, _, _, g2, by omega, by omega⟩

theorem turn_closed {e : Env} {s s' : Mach} (h : Turn e s s') (hs : s.w.sr = stCloseWait) : s'.w.sr = stCloseWait := by
  obtain ⟨p, hp⟩ := h.w
  rw [hp, traffic_idle _ _ _ (by rw [hs]; decide) (by rw [hs]; decide)]
  exact hs

/-- Once the server has closed the connection, the loop does not end. -/
theorem closed_forever {e : Env} {s0 : Mach} {k : Nat} {out : List Nat} (n : Nat) : ∀ {s : Mach}, BRel s0 (bPoll 0x20f2 none none k out) s →
    Wire e s.w → s.w.sr = stCloseWait → ∃ u, s.run e n = some u ∧ Looping s0 k out u := by
  induction n using Nat.strongRecOn with
  | _ n ih =>
    intro s h hw hs
    obtain ⟨s1, s2, s3, v, t1, t2, t3, a2, b2, c3, v3, -⟩ := poll_head h hw
    obtain ⟨s7, d1, d2, d3, d4, d5⟩ := poll_closed h hw t1 t2 t3 a2 b2 c3 v3 (turn_closed t3 (turn_closed t2 (turn_closed t1 hs)))
    by_cases hn : n < 7
    · exact d5 n hn
    · obtain ⟨u, e1, e2⟩ := ih (n - 7) (by omega) d2 d3 d4
      refine ⟨u, ?_, e2⟩
      have := run_add (m := n - 7) 7 d1
      rw [show 7 + (n - 7) = n by omega] at this
      rw [this]
      exact e1

theorem deliver_all (f : List U8) (n : Nat) : ∀ w : W5100, f.length ≤ w.freed + 8192 → f.length ≤ w.arrived + n → f.length ≤ (w.deliver f n).arrived := by
  induction n with
  | zero => intro w _ h; exact h
  | succ n ih =>
    intro w h1 h2
    unfold W5100.deliver
    split
    · exact ih _ h1 (by show f.length ≤ w.arrived + 1 + n; omega)
    · omega

/-- The whole file arrives and the server closes the connection between the CONNECT command and the
first look at the status. -/
theorem missed {e : Env} {s0 s : Mach} {k : Nat} {out : List Nat} (h : BRel s0 (bPoll 0x20f2 none none k out) s) (hw : Wire e s.w)
    (hs : s.w.sr = stSynSent) (hf : e.file.length ≤ 8192) (h0 : e.link s.time = some stEstablished) (h1 : e.file.length ≤ e.deliver s.time)
    (h2 : e.link (s.time + 1) = some stCloseWait) : ∀ n, ∃ u, s.run e n = some u ∧ Looping s0 k out u := by
  obtain ⟨s1, s2, s3, v, t1, t2, t3, a2, b2, c3, v3, -⟩ := poll_head h hw
  have w1 := t1.wire hw
  have e1 : s1.w.sr = stEstablished ∧ e.file.length ≤ s1.w.arrived := by
    obtain ⟨p, hp⟩ := t1.w
    have hk : s.w.link e.file (some stEstablished) = { s.w with sr := stEstablished } := by
      unfold W5100.link
      dsimp only
      rw [if_pos ⟨hs, .inl rfl⟩]
    have ht : s.w.traffic e.file (e.link s.time) (e.deliver s.time) = W5100.deliver e.file (e.deliver s.time) { s.w with sr := stEstablished } := by
      unfold W5100.traffic
      rw [h0, hk]
      rfl
    rw [ht] at hp
    rw [hp]
    refine ⟨(deliver_sr ..).trans rfl, deliver_all _ _ _ ?_ ?_⟩
    · show _ ≤ s.w.freed + 8192; omega
    · show _ ≤ s.w.arrived + _; omega
  have e2 : s2.w.sr = stCloseWait := by
    obtain ⟨p, hp⟩ := t2.w
    have hk : s1.w.link e.file (some stCloseWait) = { s1.w with sr := stCloseWait } := by
      unfold W5100.link
      dsimp only
      rw [if_neg (fun h => absurd (e1.1.symm.trans h.1) (by decide)), if_pos ⟨e1.1, rfl, e1.2⟩]
    have ht : s1.w.traffic e.file (e.link s1.time) (e.deliver s1.time) = { s1.w with sr := stCloseWait } := by
      unfold W5100.traffic
      rw [t1.time, h2, hk]
      dsimp only
      rw [if_neg (by decide : ¬ stCloseWait = stEstablished)]
    rw [hp, ht]
  obtain ⟨s7, d1, d2, d3, d4, d5⟩ := poll_closed h hw t1 t2 t3 a2 b2 c3 v3 (turn_closed t3 e2)
  intro n
  by_cases hn : n < 7
  · exact d5 n hn
  · obtain ⟨u, e1, e2⟩ := closed_forever (n - 7) d2 d3 d4
    refine ⟨u, ?_, e2⟩
    have := run_add (m := n - 7) 7 d1
    rw [show 7 + (n - 7) = n by omega] at this
    rw [this]
    exact e1

/-! ### An attempt to connect -/

/-- Why the player may wait forever: nobody answers, or the server has sent everything and closed
the connection before the player looked. -/
def Unanswered (e : Env) (T : Nat) : Prop := ∀ t, T ≤ t → e.link t ≠ some stEstablished ∧ e.link t ≠ some stClosed

def Missed (e : Env) : Prop :=
  e.file.length ≤ 8192 ∧ (∃ t, e.link t = some stCloseWait) ∧ (∃ t, e.link t = some stEstablished)

inductive Attempt (e : Env) (s0 : Mach) (k : Nat) (out : List Nat) (s : Mach) : Prop
  | failed (n : Nat) (s' : Mach) : s.run e n = some s' → BRel s0 (bPoll 0x2102 (some 0) (some true) k out) s' → Wire e s'.w →
      s'.w.sr = stClosed → s'.w.ptr = 0x404 → Attempt e s0 k out s
  | connected (n : Nat) (s' : Mach) : s.run e n = some s' → BRel s0 (bPoll 0x214a none none k out) s' → Wire e s'.w →
      RingOk e s'.w → (∃ t, e.link t = some stEstablished) → Attempt e s0 k out s
  | forever : (∀ n, ∃ u, s.run e n = some u ∧ Looping s0 k out u) → (Unanswered e s.time ∨ Missed e) → Attempt e s0 k out s

theorem attempt {e : Env} {s0 s : Mach} {k : Nat} {out : List Nat} (h : BRel s0 (bPoll 0x20f2 none none k out) s) (hw : Wire e s.w)
    (hs : s.w.sr = stSynSent) : Attempt e s0 k out s := by
  by_cases hX : Attempt e s0 k out s
  · exact hX
  have next : ∀ n u, s.run e n = some u → BRel s0 (bPoll 0x20f2 none none k out) u → Wire e u.w →
      ∃ u', u.run e 7 = some u' ∧ BRel s0 (bPoll 0x20f2 none none k out) u' ∧ Wire e u'.w ∧ u'.time = u.time + 7 ∧
      (∀ m, m < 7 → ∃ v, u.run e m = some v ∧ Looping s0 k out v) ∧
      (u'.w.sr = stSynSent → ∀ i, i < 7 → e.link (u.time + i) ≠ some stEstablished ∧ e.link (u.time + i) ≠ some stClosed) ∧
      (u.w.sr ≠ stSynSent → Missed e) := by
    intro n u hr hb hu
    cases pass hb hu with
    | failed s' a1 a2 a3 a4 a5 => exact absurd (.failed _ s' (by rw [run_add n hr]; exact a1) a2 a3 a4 a5) hX
    | connected s' a1 a2 a3 a4 a5 => exact absurd (.connected _ s' (by rw [run_add n hr]; exact a1) a2 a3 a4 a5) hX
    | again s' a1 a2 a3 a4 a5 a6 a7 => exact ⟨s', a1, a2, a3, a4, a5, a6, a7⟩
  have all : ∀ j, ∃ u, s.run e (7 * j) = some u ∧ BRel s0 (bPoll 0x20f2 none none k out) u ∧ Wire e u.w ∧ u.time = s.time + 7 * j ∧
      (∀ m, m < 7 * j → ∃ v, s.run e m = some v ∧ Looping s0 k out v) ∧
      (¬ Missed e → u.w.sr = stSynSent ∧ ∀ i, i < 7 * j → e.link (s.time + i) ≠ some stEstablished ∧ e.link (s.time + i) ≠ some stClosed) := by
    intro j
    induction j with
    | zero => exact ⟨s, rfl, h, hw, rfl, fun m hm => absurd hm (Nat.not_lt_zero _), fun _ => ⟨hs, fun i hi => absurd hi (Nat.not_lt_zero _)⟩⟩
    | succ j ih =>
      obtain ⟨u, a1, a2, a3, a4, a5, a6⟩ := ih
      obtain ⟨u', b1, b2, b3, b4, b5, b6, b7⟩ := next _ u a1 a2 a3
      have hr : s.run e (7 * j + 7) = some u' := by rw [run_add _ a1]; exact b1
      obtain ⟨_, -, -, -, -, -, -, c7⟩ := next _ u' hr b2 b3
      refine ⟨u', hr, b2, b3, by omega, ?_, ?_⟩
      · intro m hm
        by_cases hm' : m < 7 * j
        · exact a5 m hm'
        · obtain ⟨v, d1, d2⟩ := b5 (m - 7 * j) (by omega)
          refine ⟨v, ?_, d2⟩
          have := run_add (m := m - 7 * j) _ a1
          rw [show 7 * j + (m - 7 * j) = m by omega] at this
          rw [this]
          exact d1
      · intro hm
        have hsr : u'.w.sr = stSynSent := Classical.byContradiction fun h => hm (c7 h)
        refine ⟨hsr, fun i hi => ?_⟩
        by_cases hi' : i < 7 * j
        · exact (a6 hm).2 i hi'
        · have := b6 hsr (i - 7 * j) (by omega)
          rw [show u.time + (i - 7 * j) = s.time + i by omega] at this
          exact this
  refine .forever (fun n => ?_) ?_
  · obtain ⟨u, -, -, -, -, a5, -⟩ := all (n + 1)
    exact a5 n (by omega)
  · by_cases hm : Missed e
    · exact .inr hm
    · refine .inl fun t ht => ?_
      obtain ⟨u, -, -, -, -, -, a6⟩ := all (t + 1)
      have := (a6 hm).2 (t - s.time) (by omega)
      rw [show s.time + (t - s.time) = t by omega] at this
      exact this

/-! ### The attempts -/

def dots (k : Nat) : List Nat := List.replicate k 174

theorem dots_succ (k : Nat) : dots k ++ [174] = dots (k + 1) := by
  unfold dots
  rw [List.replicate_succ']

/-- The end of the start-up, after an OPEN that worked. -/
inductive Ending (e : Env) (s0 s : Mach) : Prop
  | connected (n k : Nat) (s' : Mach) : k ≤ 5 → s.run e n = some s' → BRel s0 (bPoll 0x214a none none (6 - k) (dots k)) s' → Wire e s'.w →
      RingOk e s'.w → (∃ t, e.link t = some stEstablished) → (0 < k → ∃ t, e.link t = some stClosed) → Ending e s0 s
  | failed (n : Nat) (s' : Mach) : s.run e n = some s' → BRel s0 (bPoll 0x211b (some 0) (some true) 0 (dots 5 ++ text2)) s' →
      (∃ t, e.link t = some stClosed) → Ending e s0 s
  | forever (n k : Nat) (s' : Mach) : k ≤ 5 → s.run e n = some s' → (∀ n, ∃ u, s'.run e n = some u ∧ Looping s0 (6 - k) (dots k) u) →
      (Unanswered e s'.time ∨ Missed e) → (0 < k → ∃ t, e.link t = some stClosed) → Ending e s0 s

theorem Ending.after {e : Env} {s0 s t : Mach} {n : Nat} (hr : s.run e n = some t) (h : Ending e s0 t) : Ending e s0 s := by
  cases h with
  | connected m k s' h0 h1 h2 h3 h4 h5 h6 => exact .connected (n + m) k s' h0 (by rw [run_add n hr]; exact h1) h2 h3 h4 h5 h6
  | failed m s' h1 h2 h3 => exact .failed (n + m) s' (by rw [run_add n hr]; exact h1) h2 h3
  | forever m k s' h0 h1 h2 h3 h4 => exact .forever (n + m) k s' h0 (by rw [run_add n hr]; exact h1) h2 h3 h4

theorem attempts {e : Env} {s0 : Mach} (d : Nat) : ∀ {s : Mach} {k : Nat}, k + d = 5 → BRel s0 (bPoll 0x20f2 none none (6 - k) (dots k)) s → Wire e s.w →
    s.w.sr = stSynSent → (0 < k → ∃ t, e.link t = some stClosed) → Ending e s0 s := by
  induction d with
  | zero =>
    intro s k hk h hw hs hev
    cases attempt h hw hs with
    | connected n s' a1 a2 a3 a4 a5 => exact .connected n k s' (by omega) a1 a2 a3 a4 a5 hev
    | forever a1 a2 => exact .forever 0 k s (by omega) rfl a1 a2 hev
    | failed n s' a1 a2 a3 a4 a5 =>
      have hk5 : k = 5 := by omega
      subst hk5
      have hb : BRel s' (bFailed 1) s' := by
        have hr := brel_rebase a2
        refine ⟨hr.pc, hr.a, hr.x, hr.y, hr.z, ?_, hr.cnt, hr.v2, hr.v3, hr.v4, hr.out, hr.main, hr.aux, hr.sw, hr.clicks, hr.log, hr.works,
          hr.code, hr.page2⟩
        intro c hc
        cases hc
        have har : s'.w.arrived = 0 ∧ ∃ t, e.link t = some stClosed := by
          rcases a3.state with ⟨a, -⟩ | ⟨-, b⟩ | ⟨-, -, c | ⟨c, -⟩⟩
          · rw [a4] at a; exact absurd a (by decide)
          · exact b
          · rw [a4] at c; exact absurd c (by decide)
          · rw [a4] at c; exact absurd c (by decide)
        exact ⟨by rw [a3.mode]; rfl, a5, a3.rd, har.1, a3.freed, by rw [a4]; rfl, .inl rfl, a3.regs, a3.works⟩
      have hev' : ∃ t, e.link t = some stClosed := hev (by decide)
      obtain ⟨u, b1, b2⟩ := brun_ok e 230 hb (by rw [a3.works]; exact bRun_fail)
      have b3 := brel_compose a2 b2 rfl rfl rfl
      exact .failed (n + 230) u (by rw [run_add n a1]; exact b1) (brel_poll b3 rfl rfl rfl rfl rfl) hev'
  | succ d ih =>
    intro s k hk h hw hs hev
    cases attempt h hw hs with
    | connected n s' a1 a2 a3 a4 a5 => exact .connected n k s' (by omega) a1 a2 a3 a4 a5 hev
    | forever a1 a2 => exact .forever 0 k s (by omega) rfl a1 a2 hev
    | failed n s' a1 a2 a3 a4 a5 =>
      have har : s'.w.arrived = 0 ∧ ∃ t, e.link t = some stClosed := by
        rcases a3.state with ⟨a, -⟩ | ⟨-, b⟩ | ⟨-, -, c | ⟨c, -⟩⟩
        · rw [a4] at a; exact absurd a (by decide)
        · exact b
        · rw [a4] at c; exact absurd c (by decide)
        · rw [a4] at c; exact absurd c (by decide)
      have hb : BRel s' (bFailed (6 - k)) s' := by
        have hr := brel_rebase a2
        refine ⟨hr.pc, hr.a, hr.x, hr.y, hr.z, ?_, hr.cnt, hr.v2, hr.v3, hr.v4, hr.out, hr.main, hr.aux, hr.sw, hr.clicks, hr.log, hr.works,
          hr.code, hr.page2⟩
        intro c hc
        cases hc
        exact ⟨by rw [a3.mode]; rfl, a5, a3.rd, har.1, a3.freed, by rw [a4]; rfl, .inl rfl, a3.regs, a3.works⟩
      have hrun := bRun_retry ⟨6 - k, by omega⟩ (by show 2 ≤ 6 - k; omega)
      obtain ⟨u, b1, b2⟩ := brun_ok e 123 hb (by rw [a3.works]; exact hrun)
      obtain ⟨v, c1, c2, c3, c4⟩ := connect_step e b2 rfl rfl rfl rfl rfl rfl rfl (show symFetch true 0x20ef = _ by decide +kernel)
      have c5 := brel_forget (brel_poll (brel_compose a2 c2 rfl rfl rfl) rfl rfl rfl rfl rfl)
      refine Ending.after (n := n + 123 + 1) (t := v) (one (by rw [run_add n a1]; exact b1) c1) (ih (k := k + 1) (by omega) ?_ c3 c4 (fun _ => har.2))
      have e1 : dots k ++ [174] = dots (k + 1) := dots_succ k
      have e2 : 6 - k - 1 = 6 - (k + 1) := by omega
      rw [← e1, ← e2]
      exact c5

/-- The whole start-up, if the card obeys OPEN. -/
theorem started_works {e : Env} {s : Mach} (h : Started s) (hw : s.w.works = true) : Ending e s s := by
  obtain ⟨u, b1, b2⟩ := brun_ok e 127 (brel_start h) (by rw [hw]; exact bRun_open)
  obtain ⟨v, c1, c2, c3, c4⟩ := connect_step e b2 rfl rfl rfl rfl rfl rfl rfl (show symFetch true 0x20ef = _ by decide +kernel)
  exact Ending.after (n := 127 + 1) (t := v) (one b1 c1) (attempts (k := 0) 5 rfl (brel_forget (brel_poll c2 rfl rfl rfl rfl rfl)) c3 c4
    (fun h => absurd h (by decide)))

theorem started_dead {e : Env} {s : Mach} (h : Started s) (hw : s.w.works = false) :
    ∃ u, s.run e 307 = some u ∧ BRel s (bPoll 0x20c2 (some 0) (some true) 6 text1) u := by
  obtain ⟨u, b1, b2⟩ := brun_ok e 307 (brel_start h) (by rw [hw]; exact bRun_dead)
  exact ⟨u, b1, brel_poll b2 rfl rfl rfl rfl rfl⟩

theorem brel_brk {s0 s : Mach} {b : BSt} {e : Env} (h : BRel s0 b s) (hf : symFetch true b.pc = some .brk) (hb : codeByte true b.pc = some 0) :
    s.AtBrk ∧ s.step e = none := by
  constructor
  · unfold Mach.AtBrk Mach.ram
    rw [not_steered h.page2, if_neg (by decide), h.pc, h.code _ _ hb]
  · rw [step_code h.code (fun _ => not_steered h.page2 _) (by rw [h.pc]; exact hf)]
    rfl

theorem wire_configured {e : Env} {w : W5100} (h : Wire e w) : Configured w := by
  have key : ∀ (n q : Nat) (l : List Nat), (List.range n).map (fun i => regVal cfg (q + i)) = l →
      w.regsAt q n = l.map (BitVec.ofNat 8) := by
    rintro n q l rfl
    unfold W5100.regsAt
    rw [List.map_map]
    refine List.map_congr_left fun i _ => ?_
    show _ = BitVec.ofNat 8 (regVal cfg (q + i))
    rw [← h.regs, BitVec.ofNat_toNat, BitVec.setWidth_eq]
  exact ⟨h.mode, key 4 1 [0, 0, 0, 0] (by decide), key 4 5 [0, 0, 0, 0] (by decide), key 6 9 [0, 8, 0xdc, 1, 2, 3] (by decide),
    key 4 0x0f [10, 0, 65, 2] (by decide), key 2 0x1a [3, 3] (by decide), key 1 0x400 [0x21] (by decide), key 2 0x404 [0xc0, 0] (by decide),
    key 4 0x40c [10, 0, 0, 1] (by decide), key 2 0x410 [1977 / 256, 1977 % 256] (by decide)⟩

end IIVision.Player
