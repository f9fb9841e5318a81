import Verif.Proofs.EndToEnd
import Verif.Proofs.Timing
import Verif.Props.Opcodes

/-! Properties of the player (player/main.s). -/

namespace IIVision.Player

open Spec

theorem run_unique {e : Env} {s t u : Mach} {n : Nat} (h1 : s.run e n = some t) (h2 : s.run e n = some u) : t = u := by
  rw [h1] at h2
  exact Option.some.inj h2

theorem bytes_eq {e : Env} {r k : Nat} (h : r + k ≤ e.file.length) : e.bytes r k = (e.file.drop r).take k := by
  have h1 := take_bytes e (r := r) (k := k) h
  rw [List.take_add] at h1
  exact List.append_cancel_left h1

/-! ### C36 -/

/-- C36: a tick opcode, entered at its symbol table address with at least seven more bytes
received, whatever they are: takes 73 cycles; toggles the speaker after 4 cycles and again after
the width of its pulse; reads seven bytes; stores the first at the four offsets given by the next
four, in that order, in its screen page of the bank selected by the switches, and changes no other
memory (but the scratch byte and its own operand bytes); leaves X = 0, and continues at the
address in the last two bytes. -/
theorem C36_tick {e : Env} {s : Mach} {r : Nat} {t p : Fin 32} (h : Playing e s r) (hn : r + 7 ≤ s.w.arrived)
    (hpc : s.pc = playerAddr (.tick t p)) :
    ∃ s', s.Reaches e s' ∧ s'.cycles = s.cycles + 73 ∧
      s'.clicks = s.clicks ++ [s.cycles + 4, s.cycles + 4 + pulseWidth (4 + 2 * t.val)] ∧
      s'.w.log = s.w.log ++ (e.file.drop r).take 7 ∧
      SameMemory s' (s.draw (32 + p.val) (e.byte r) [e.byte (r + 1), e.byte (r + 2), e.byte (r + 3), e.byte (r + 4)]) ∧
      s'.sw = s.sw ∧ s'.x = 0#8 ∧ s'.pc = 256 * (e.byte (r + 5)).toNat + (e.byte (r + 6)).toNat ∧
      Playing e s' (r + 7) := by
  have hp := p.isLt
  obtain ⟨n, s', -, h1, h2, h3, h4, h5, h6, h7, -⟩ := tick_hop h hn t.isLt (p := 32 + p.val) (by omega) (by omega)
    (by rw [hpc]; exact tick_sym t p)
  rw [pulse_width t] at h5
  have hl := h.ring.file
  refine ⟨s', ⟨n, h1.run⟩, h4, h5, ?_, h6, h7, h2.x, h3, h2⟩
  rw [h1.log, bytes_eq (by omega)]

/-- C36: the width is the duty the transcoder asked for, except that 22 and 40 are one cycle
short.  (The comment at main.s:837 announces 41 cycles for the latter.) -/
theorem C36_widths : ∀ d, pulseWidth d = if d = 22 then 21 else if d = 40 then 39 else d := by
  intro d
  unfold pulseWidth
  split <;> (repeat' split) <;> omega

/-! ### C37 -/

/-- C37: the ACK opcode, entered at its address at the end of a block, with the next block
already received and no key pressed: accesses the soft switch named in the stream, reads the last
two bytes of the block and the first two of the next, releases the block (RECV) having advanced the
read pointer by 2048 modulo 65536; takes exactly 2 * 73 cycles with two pulses of 34 cycles, at the
same phase as the ticks; leaves X = 0 and continues at the address in the first two bytes of the
next block. -/
theorem C37_slow_path {e : Env} {s : Mach} {r : Nat} {a : Bool} (h : Playing e s r) (hpc : s.pc = playerAddr .ack)
    (hr : r % 2048 = 2046) (hf : s.w.freed + 2048 = r + 2) (hn : r + 2 + 2048 ≤ s.w.arrived) (hk : NoKeys e s)
    (hb : e.byte r = if a then 0x55#8 else 0x54#8) :
    ∃ s', s.Reaches e s' ∧ s'.cycles = s.cycles + 2 * 73 ∧
      s'.clicks = s.clicks ++ [s.cycles + 4, s.cycles + 4 + 34, s.cycles + 73 + 4, s.cycles + 73 + 4 + 34] ∧
      s'.sw = { s.sw with page2 := a } ∧ s'.w.log = s.w.log ++ (e.file.drop r).take 4 ∧
      s'.w.freed = s.w.freed + 2048 ∧ s'.w.rd = (s.w.rd + 2048) % 65536 ∧
      SameMemory s' s ∧ s'.x = 0#8 ∧ s'.pc = 256 * (e.byte (r + 2)).toNat + (e.byte (r + 3)).toNat ∧
      Playing e s' (r + 4) := by
  obtain ⟨t0, a1, a2, a3, a4, a5, a6, a7, a8, a9⟩ := ack_hop h hpc hr (by omega) hf hb
  have m0 := a1.within.arrived
  have g0 := (soft_env e t0).arrived
  obtain ⟨t1, b1, b2, b3, b4, b5⟩ := (ready_hop a2).1 (by omega)
  have k1 := nokeys_run _ (nokeys_run _ hk a1.run) b1.run
  obtain ⟨t2, c1, c2, c3, c4⟩ := (lined_kbd b2).1 (by rw [nokeys_env k1]; exact k1.1)
  have hb3 := c3.block
  have hfr : t2.w.freed = r + 2 := by rw [c2.freed, b3.freed, a3]
  obtain ⟨t3, d1, d2, d3, d4, d5, d6⟩ := lined_go c3 (by omega)
  have hop : Hop e s r _ 4 t3 := a1.trans ((b1.trans0 c1).trans0 d1)
  have hl := hop.within.log
  have hring := d2.ring.file
  have h5 : r + 4 ≤ e.file.length := by have := h.ring.file; omega
  have f3 : t3.w.freed = s.w.freed + 2048 := by rw [d3.freed, hfr]; omega
  refine ⟨t3, ⟨_, hop.run⟩, by omega, ?_, ?_, ?_, f3, ?_, ?_, d2.x, d4, d2⟩
  · rw [d6, c2.clicks, b5, a7, c4, b4, a6, List.append_assoc]
    rfl
  · rw [d3.sw, c2.sw, b3.sw, a5]
  · rw [hop.log, bytes_eq h5]
  · rw [d2.rd, f3, h.rd]
    omega
  · exact d3.mem.trans ((idle_soft c2).mem.trans (b3.mem.trans a4))

/-! ### C38, C39 -/

theorem deliver_file (f : List U8) (n : Nat) : ∀ w : W5100, w.arrived ≤ f.length → (w.deliver f n).arrived ≤ f.length := by
  induction n with
  | zero => intro w h; exact h
  | succ n ih =>
    intro w h
    unfold W5100.deliver
    split
    · rename_i hc
      exact ih _ hc.1
    · exact h

theorem traffic_file (f : List U8) (v : Option U8) (n : Nat) (w : W5100) (h : w.arrived ≤ f.length) :
    (w.traffic f v n).arrived ≤ f.length := by
  have hl : (w.link f v).arrived = w.arrived := by
    unfold W5100.link
    repeat' split
    all_goals rfl
  unfold W5100.traffic
  dsimp only
  split
  · exact deliver_file f n _ (by rw [hl]; exact h)
  · rw [hl]; exact h

theorem run_file {e : Env} (n : Nat) : ∀ {s t : Mach}, s.w.arrived ≤ e.file.length → s.run e n = some t →
    t.w.arrived ≤ e.file.length := by
  induction n with
  | zero => intro s t h1 h2; cases h2; exact h1
  | succ n ih =>
    intro s t h1 h2
    rw [run_succ] at h2
    obtain ⟨v, hv, hv'⟩ := Option.bind_eq_some_iff.mp h2
    refine ih ?_ hv'
    refine Nat.le_trans (step_calm hv).fewer ?_
    exact traffic_file e.file _ _ s.w h1

theorem before_safe {e : Env} {s t : Mach} {mode : VideoMode} {body : List Opcode} (hc : Connected e s)
    (hp : Playable e.file mode body) (ht : Before e s t) : WithinS e s 0 t := by
  obtain ⟨n, h1, h2⟩ := ht
  rcases whole_safe hc hp n with ⟨u, a1, a2⟩ | ⟨m, u, a0, a1, a2, a3⟩
  · rw [run_unique h1 a1]; exact a2
  · rcases Nat.lt_or_eq_of_le a0 with hlt | rfl
    · exact absurd a3 (h2 m u hlt a1)
    · rw [run_unique h1 a1]; exact a2

/-- The bytes the player changes are operands in its own code. -/
theorem segment_range {seg : Nat × List Nat} (hs : seg ∈ program) {i b : Nat} (hi : seg.2[i]? = some b) :
    (seg.1 = 0x800 ∧ seg.1 + i < 0x2000) ∨ (seg.1 = 0x2000 ∧ seg.1 + i < 0x4000) ∨ (seg.1 = 0x4000 ∧ seg.1 + i < 0xc000) := by
  have hl := (List.getElem?_eq_some_iff.mp hi).1
  unfold program at hs
  simp only [List.mem_cons, List.not_mem_nil, or_false] at hs
  rcases hs with rfl | rfl | rfl
  · left
    refine ⟨rfl, ?_⟩
    have := lowcode_good.1.1.1
    have := lowcode_good.2
    dsimp only at hl ⊢
    omega
  · right; left
    refine ⟨rfl, ?_⟩
    have := hgrcode_good.1.1.1
    have := hgrcode_good.2
    dsimp only at hl ⊢
    omega
  · right; right
    refine ⟨rfl, ?_⟩
    have := code_good.1.1.1
    have := code_good.2
    dsimp only at hl ⊢
    omega

/-- C38: from the connection until the player exits, whatever the network and the keyboard do, on
any stream of valid opcodes: the only memory that changes is screen page 1 of both banks, the
scratch byte $08, the bytes used for clearing the screen, and operand bytes of the player's own
dispatch jumps and switch store; all the other bytes of its code (outside the start-up code in
screen memory) stay as assembled. -/
theorem C38_own_code {e : Env} {s t : Mach} {mode : VideoMode} {body : List Opcode} (hc : Connected e s)
    (hp : Playable e.file mode body) (ht : Before e s t) : OnlyStartup s t ∧ Intact t.main := by
  have h := before_safe hc hp ht
  refine ⟨h.only, ?_⟩
  intro seg hs hne i b hb hpatch
  have hr := segment_range hs hb
  rw [(h.only (seg.1 + i) (by omega)).2 (by omega) (by omega) (by omega) hpatch]
  exact hc.loaded seg hs i b hb

/-- C38: once the first opcode has been dispatched, not even the bytes used for clearing the screen
change. -/
theorem C38_playing {e : Env} (hD : e.Delivers) {s : Mach} {mode : VideoMode} {body : List Opcode} (hc : Connected e s)
    (hp : Playable e.file mode body) (hk : PausesEnd e s) :
    ∃ s1, s.Reaches e s1 ∧ s1.pc = 256 * (e.byte 7).toNat + (e.byte 8).toNat ∧ ∀ t, Before e s1 t → OnlyScreen s1 t := by
  rcases start_live hD hc hp with ⟨n1, s1, a1, a2, -⟩ | ⟨n, s', a1, a2, a3⟩
  · refine ⟨s1, ⟨_, a1.run⟩, a2.pc, ?_⟩
    rintro t ⟨n, h1, h2⟩
    rcases phase_safe n (.op a2) with ⟨u, a1, a2⟩ | ⟨m, u, a0, a1, a2, a3⟩
    · rw [run_unique h1 a1]; exact a2.only
    · rcases Nat.lt_or_eq_of_le a0 with hlt | rfl
      · exact absurd a3 (h2 m u hlt a1)
      · rw [run_unique h1 a1]; exact a2.only
  · exact hk.elim (fun hk => absurd hk a3) fun hk => absurd a2 (hk s' ⟨_, a1.run⟩)

/-- C39: at every moment until the player exits, whatever the network and the keyboard do, the
bytes read from the receive buffer so far are exactly the first bytes of the file, and all of them
had arrived. -/
theorem C39_reads_file {e : Env} {s t : Mach} {mode : VideoMode} {body : List Opcode} (hc : Connected e s)
    (hp : Playable e.file mode body) (ht : Before e s t) :
    ∃ k, t.w.log = e.file.take k ∧ k ≤ t.w.arrived ∧ k ≤ e.file.length := by
  have h := before_safe hc hp ht
  obtain ⟨n, h1, -⟩ := ht
  obtain ⟨k, h2, h3⟩ := h.log
  rw [Nat.zero_add] at h2
  have hl := run_file n hc.ring.file h1
  refine ⟨k, ?_, h2, by omega⟩
  rw [h3, hc.log, List.nil_append, bytes_eq (by omega), List.drop_zero]

/-! ### C40 -/

/-- C40: the machine never stops (unimplemented instruction, unmodelled I/O) before the player has
exited. -/
theorem C40_never_stuck {e : Env} {s t : Mach} {mode : VideoMode} {body : List Opcode} (hc : Connected e s)
    (hp : Playable e.file mode body) (ht : Before e s t) : t.pc = sym .exit ∨ ∃ u, t.step e = some u := by
  obtain ⟨n, h1, h2⟩ := ht
  rcases whole_safe hc hp (n + 1) with ⟨u, a1, -⟩ | ⟨m, u, a0, a1, -, a3⟩
  · rw [run_add n h1, run_succ] at a1
    obtain ⟨v, hv, -⟩ := Option.bind_eq_some_iff.mp a1
    exact .inr ⟨v, hv⟩
  · by_cases hm : m ≤ n
    · rcases Nat.lt_or_eq_of_le hm with hlt | rfl
      · exact absurd a3 (h2 m u hlt a1)
      · rw [run_unique h1 a1]; exact .inl a3
    · obtain rfl : m = n + 1 := by omega
      rw [run_add n h1, run_succ] at a1
      obtain ⟨v, hv, -⟩ := Option.bind_eq_some_iff.mp a1
      exact .inr ⟨v, hv⟩

/-- C40: if the network goes on delivering what the receive window has room for, the player comes
to TERMINATE, having executed all opcodes in order - unless a key was pressed and it waits for
another one for ever. -/
theorem C40_progress {e : Env} (hD : e.Delivers) {s : Mach} {mode : VideoMode} {body : List Opcode} (hc : Connected e s)
    (hp : Playable e.file mode body) :
    (∃ s1 s2, s.Reaches e s1 ∧ Executes e s1 body s2 ∧ s1.Reaches e s2 ∧ s2.pc = playerAddr .terminate) ∨
    (¬ NoKeys e s ∧ ∃ s', s.Reaches e s' ∧ Paused e s') := by
  rcases whole_live hD hc hp with ⟨s1, s2, n1, n2, k, a1, a2, a3, a4, a5, a6, a7⟩ | ⟨n, k, s', a1, a2, a3⟩
  · exact .inl ⟨s1, s2, ⟨_, a1.run⟩, a6, ⟨_, a2.run⟩, (op_terminate a7).1⟩
  · exact .inr ⟨a3, s', ⟨_, a1.run⟩, a2⟩

/-- C40: every stream produced by the transcoder for the shipped player is such a stream. -/
theorem C40_transcoder {M : Movie} {A : List Int} {F : List Frame} (hin : MovieInput M A F) (ha : M.addr = playerAddr)
    {tape : Nat → Nat} {ops : List Opcode} {bytes : List Nat} (h : M.stream tape A F = .ok (ops, bytes)) :
    ∃ body, ops = .header M.mode :: body ++ [.terminate] ∧ Playable (bytes.map (BitVec.ofNat 8)) M.mode body := by
  obtain ⟨body, h1, h2, -⟩ := playable_of_stream hin ha h
  exact ⟨body, h1, h2⟩

/-! ### C41 -/

theorem take_get {α : Type} {l : List α} {n i : Nat} {x : α} (h : (l.take n)[i]? = some x) : l[i]? = some x := by
  rw [List.getElem?_take] at h
  split at h
  · exact h
  · cases h

/-- The execution of the opcodes of a stream up to a tick. -/
theorem executes_upto {e : Env} {s s' : Mach} {ops : List Opcode} (h : Executes e s ops s') :
    ∀ (i : Nat) (b : Bool) (x : Played), (ticksOf b ops)[i]? = some x → ∃ u u' ops1 ops2, s.Reaches e u ∧ u.Reaches e u' ∧
      u'.Reaches e s' ∧ u'.cycles = u.cycles + 73 ∧
      u'.clicks = u.clicks ++ [u.cycles + 4, u.cycles + 4 + pulseWidth x.duty] ∧
      ops = ops1 ++ ops2 ∧ Executes e s ops1 u' ∧ ticksOf b ops1 = (ticksOf b ops).take (i + 1) := by
  have refl : ∀ s : Mach, s.Reaches e s := fun s => ⟨0, rfl⟩
  have trans : ∀ {s t u : Mach}, s.Reaches e t → t.Reaches e u → s.Reaches e u := by
    rintro s t u ⟨n, h1⟩ ⟨m, h2⟩
    exact ⟨n + m, by rw [run_add n h1]; exact h2⟩
  have all : ∀ {s s' : Mach} {ops : List Opcode}, Executes e s ops s' → s.Reaches e s' := by
    intro s s' ops h
    induction h with
    | nil s => exact refl s
    | tick _ h _ _ _ _ _ ih => exact trans h ih
    | ack _ h _ _ _ ih => exact trans h ih
    | nop _ h _ _ _ ih => exact trans h ih
  induction h with
  | nil s => intro i b x hx; cases hx
  | @tick s s' s'' t p c os ops h1 h2 h3 h4 h5 h6 h7 ih =>
    intro i b x hx
    cases i with
    | zero =>
      cases hx
      exact ⟨s, s', [.tick t p c os], ops, refl s, h2, all h7, h3, h4, rfl, .tick h1 h2 h3 h4 h5 h6 (.nil _), rfl⟩
    | succ i =>
      obtain ⟨u, u', o1, o2, a1, a2, a3, a4, a5, rfl, a7, a8⟩ := ih i b x hx
      exact ⟨u, u', .tick t p c os :: o1, o2, trans h2 a1, a2, a3, a4, a5, rfl, .tick h1 h2 h3 h4 h5 h6 a7, congrArg (_ :: ·) a8⟩
  | @ack s s' s'' a ops h1 h h2 h3 _ ih =>
    intro i b x hx
    obtain ⟨u, u', o1, o2, a1, a2, a3, a4, a5, rfl, a7, a8⟩ := ih i _ x hx
    exact ⟨u, u', .ack a :: o1, o2, trans h a1, a2, a3, a4, a5, rfl, .ack h1 h h2 h3 a7, a8⟩
  | nop h1 h h2 h3 _ ih =>
    intro i b x hx
    obtain ⟨u, u', o1, o2, a1, a2, a3, a4, a5, rfl, a7, a8⟩ := ih i _ x hx
    exact ⟨u, u', .nop :: o1, o2, trans h a1, a2, a3, a4, a5, rfl, .nop h1 h h2 h3 a7, a8⟩

/-- C41: the bytes the transcoder writes for a movie, for the addresses of the shipped player,
served to the shipped player over any network that goes on delivering, no key being pressed, or
every pause being ended by another key: the player selects the display mode of the movie, executes exactly the opcodes of the stream in order,
and comes to TERMINATE.

Audio: the `i`-th tick of the stream takes 73 cycles, in which the speaker is toggled twice,
`pulseWidth (2 a + 34)` cycles apart, for the `i`-th sample `a`.

Video: there is a legal history of the frame encoder whose operations are the ticks in order
(the one of C27), each computed for the frame due at its time, and after every tick, and at the end, the screen memory of the machine
is what a player executing it from a blank screen has; at the end so is the encoder's own memory, except possibly (page 0, offset 0); in DHGR
with a diagonal-only table there is no exception. In HGR this concerns main memory, in DHGR both
banks. -/
theorem C41_end_to_end {M : Movie} {A : List Int} {F : List Frame} (hin : MovieInput M A F) (ha : M.addr = playerAddr)
    {tape : Nat → Nat} {ops : List Opcode} {bytes : List Nat} (h : M.stream tape A F = .ok (ops, bytes))
    {e : Env} (hfile : e.file = bytes.map (BitVec.ofNat 8)) (hD : e.Delivers) {s : Mach} (hc : Connected e s) (hk : PausesEnd e s) :
    ∃ body s1 s2 calls enc steps, ops = .header M.mode :: body ++ [.terminate] ∧
      s.Reaches e s1 ∧ s1.sw = Switches.For M.mode s.sw ∧ Executes e s1 body s2 ∧ s2.pc = playerAddr .terminate ∧
      Legal M.mode calls ∧ runNew M.mode M.table tape calls = .ok (enc, steps) ∧
      steps.length = (ticksOf false body).length ∧
      (∀ (i : Nat) (x : Played) (st : Step), (ticksOf false body)[i]? = some x → steps[i]? = some st →
        x.bank = st.isAux ∧ x.page = st.op.page ∧ x.content = st.op.content ∧ x.offsets = st.op.offsets ∧
        ∃ f, F[shown M.everyN (fetched M.thr (i + 1))]? = some f ∧ M.bitmapOf f = .ok st.target) ∧
      (∀ i, i < steps.length → ∃ a u u' done todo, A[i]? = some a ∧ s1.Reaches e u ∧ u.Reaches e u' ∧ u'.Reaches e s2 ∧
        body = done ++ todo ∧ (ticksOf false done).length = i + 1 ∧ Executes e s1 done u' ∧
        u'.cycles = u.cycles + 73 ∧ u'.clicks = u.clicks ++ [u.cycles + 4, u.cycles + 4 + pulseWidth (2 * a + 34).toNat] ∧
        ∀ b, (M.mode = .HGR → b = false) → u'.screen b = bankOf (play blank (steps.take (i + 1))) b) ∧
      (∀ b, (M.mode = .HGR → b = false) →
        s2.screen b = bankOf (play blank steps) b ∧
        (∀ p o, (p, o) ≠ (0, 0) → s2.screen b p o = enc.v.pixelmap.bank b p o) ∧
        (M.mode = .DHGR → DiagOnly dhgr M.table → s2.screen b = enc.v.pixelmap.bank b)) := by
  obtain ⟨body, hb, hp, hacks⟩ := playable_of_stream hin ha h
  rw [← hfile] at hp
  obtain ⟨body', bytes', calls, enc, steps, m1, m2, m3, m4, m5, m6, m7, m8⟩ := movie_facts M A F hin tape
  have hbody : body' = body := by
    rw [h] at m1
    have := congrArg Prod.fst (Except.ok.inj m1)
    dsimp only at this
    rw [hb] at this
    simpa using this.symm
  subst hbody
  rcases whole_live hD hc hp with ⟨s1, s2, n1, n2, k, a1, a2, a3, a4, a5, a6, a7⟩ | ⟨n, k, s', a1, a2, a3⟩
  · have hpage : s1.sw.page2 = false := by
      rw [a3]; cases M.mode <;> rfl
    have hscr : ∀ (n : Nat) (u : Mach) (ops1 ops2 : List Opcode), body' = ops1 ++ ops2 → Executes e s1 ops1 u →
        ticksOf false ops1 = (ticksOf false body').take n → u.screens = play s1.screens (steps.take n) := by
      intro n u ops1 ops2 hops hex htk
      rw [executes_screens hex, hpage, htk]
      · refine foldl_rel _ _ _ (by simp [m4]) ?_
        intro i x y hx hy m
        obtain ⟨-, -, -, -, q1, q2, q3, q4, -⟩ := m8 i x y (take_get hx) (take_get hy)
        unfold playTick playOp VideoOp.pageIx
        rw [q1, q2, q3, q4]
      · cases hm : M.mode with
        | DHGR => left; rw [a3, hm]; exact ⟨rfl, rfl⟩
        | HGR => right; exact ⟨hpage, fun a ha => hacks hm a (by rw [hops]; exact List.mem_append_left _ ha)⟩
    have key : ∀ (n : Nat) (u : Mach), u.screens = play s1.screens (steps.take n) → ∀ b, (M.mode = .HGR → b = false) →
        u.screen b = bankOf (play blank (steps.take n)) b := by
      intro n u hu b hmb
      have e1 : u.screen b = bankOf u.screens b := by cases b <;> rfl
      rw [e1, hu]
      refine bankOf_play_congr b _ _ _ (screens_cleared b ?_)
      cases b with
      | false => exact a4
      | true =>
        apply a5
        cases hm : M.mode with
        | DHGR => rfl
        | HGR => exact absurd (hmb hm) (by decide)
    have kend : ∀ b, (M.mode = .HGR → b = false) → s2.screen b = bankOf (play blank steps) b := by
      have := key steps.length s2 (hscr _ s2 body' [] (List.append_nil _).symm a6 (by rw [← m4, List.take_length]))
      rwa [List.take_length] at this
    obtain ⟨w1, -, w3⟩ := C17_player_agrees M.mode M.table tape calls m2 enc steps m3
    refine ⟨body', s1, s2, calls, enc, steps, hb, ⟨_, a1.run⟩, a3, a6, (op_terminate a7).1, m2, m3, m4.symm, ?_, ?_, ?_⟩
    · intro i x st hx hs
      obtain ⟨-, -, q0, -, q1, q2, q3, q4, -⟩ := m8 i x st hx hs
      exact ⟨q1, q2, q3, q4, q0⟩
    · intro i hi
      obtain ⟨x, hx⟩ : ∃ x, (ticksOf false body')[i]? = some x := ⟨_, List.getElem?_eq_getElem (by omega)⟩
      obtain ⟨-, -, -, -, -, -, -, -, au, q1, q2⟩ := m8 i x _ hx (List.getElem?_eq_getElem hi)
      obtain ⟨u, u', o1, o2, b1, b2, b3, b4, b5, b6, b7, b8⟩ := executes_upto a6 i false x hx
      refine ⟨au, u, u', o1, o2, q1, b1, b2, b3, b6, ?_, b7, b4, ?_, key _ _ (hscr _ u' o1 o2 b6 b7 b8)⟩
      · rw [b8, List.length_take]; omega
      rw [b5, ← q2]
      rfl
    · intro b hmb
      refine ⟨kend b hmb, fun p o hpo => by rw [kend b hmb]; exact w1 b p o hpo, fun hm hd => ?_⟩
      rw [kend b hmb, w3 hm hd, bankOf_banks]
  · exact hk.elim (fun hk => absurd hk a3) fun hk => absurd a2 (hk s' ⟨_, a1.run⟩)

/-! ### C53 -/

/-- C53: with a network that keeps up and no key pressed, playing a stream takes exactly 73
cycles per tick and 2 * 73 per ACK (19 per NOP) from the first opcode to TERMINATE, and the speaker
is toggled exactly at the times given by the opcodes: every opcode starts a whole number of 73-cycle
periods after the first (without NOPs). -/
theorem C53_timing {e : Env} (hK : e.KeepsUp) {s : Mach} {mode : VideoMode} {body : List Opcode} (hc : Connected e s)
    (hp : Playable e.file mode body) (hk : NoKeys e s) :
    ∃ s1 s2, s.Reaches e s1 ∧ Executes e s1 body s2 ∧ s1.Reaches e s2 ∧ s2.pc = playerAddr .terminate ∧
      s2.cycles = s1.cycles + duration body ∧ s2.clicks = s1.clicks ++ clickTimes s1.cycles body := by
  have hD := keepsUp_delivers hK
  rcases start_live hD hc hp with ⟨n1, s1, a1, a2, -⟩ | ⟨n, s', -, -, a3⟩
  · obtain ⟨n2, k, s2, b1, b2, b3, b4, b5⟩ := timed hK body a2 (paced_start a2 (by decide)) (nokeys_run _ hk a1.run)
    exact ⟨s1, s2, ⟨_, a1.run⟩, b2, ⟨_, b1.run⟩, (op_terminate b3).1, b4, b5⟩
  · exact absurd hk a3

/-- C53: without NOPs (the transcoder emits none) the duration is 73 cycles per tick and 146 per
ACK. -/
theorem C53_duration (body : List Opcode) (h : ∀ op ∈ body, BodyOp op ∧ op ≠ .nop) :
    duration body = 73 * ((ticksOf false body).length + 2 * (acks body).length) := by
  have key : ∀ b, duration body = 73 * ((ticksOf b body).length + 2 * (acks body).length) := by
    induction body with
    | nil => intro b; rfl
    | cons op l ih =>
      intro b
      have ih := ih fun op hm => h op (List.mem_cons_of_mem _ hm)
      obtain ⟨h1, h2⟩ := h op List.mem_cons_self
      cases op with
      | header m => exact absurd h1 (by simp [BodyOp])
      | terminate => exact absurd h1 (by simp [BodyOp])
      | nop => exact absurd rfl h2
      | tick t p c os =>
        show 73 + duration l = 73 * ((ticksOf b l).length + 1 + 2 * (acks l).length)
        have := ih b
        omega
      | ack a =>
        show 2 * 73 + duration l = 73 * ((ticksOf a l).length + 2 * ((acks l).length + 1))
        have := ih a
        omega
  exact key false

/-! ### The hypotheses can be met -/

/-- Memory with the program loaded. -/
def loadedMem (q : Nat) : U8 :=
  if q < 0x2000 then BitVec.ofNat 8 (byteOf lowcodeImage (q - 0x800))
  else if q < 0x4000 then BitVec.ofNat 8 (byteOf hgrImage (q - 0x2000))
  else BitVec.ofNat 8 (byteOf codeImage (q - 0x4000))

theorem loadedMem_loaded : Loaded loadedMem := by
  intro seg hs i b hb
  have hr := segment_range hs hb
  unfold program at hs
  simp only [List.mem_cons, List.not_mem_nil, or_false] at hs
  unfold loadedMem
  rcases hs with rfl | rfl | rfl
  · dsimp only at hb hr ⊢
    have h := lowcode_good.1.1.2 i b hb
    rw [show 0x800 - 0x800 + i = 0x800 + i - 0x800 by omega] at h
    rw [if_pos (by omega), h]
  · dsimp only at hb hr ⊢
    have h := hgrcode_good.1.1.2 i b hb
    rw [show 0x2000 - 0x2000 + i = 0x2000 + i - 0x2000 by omega] at h
    rw [if_neg (by omega), if_pos (by omega), h]
  · dsimp only at hb hr ⊢
    have h := code_good.1.1.2 i b hb
    rw [show 0x4000 - 0x4000 + i = 0x4000 + i - 0x4000 by omega] at h
    rw [if_neg (by omega), if_neg (by omega), h]

/-- A chip that has received the first `n` bytes of the file. -/
def sampleChip (file : List U8) (n ptr : Nat) : W5100 :=
  { mode := 3#8, ptr, rd := 0, rx := fun j => file.getD j 0#8, arrived := n, freed := 0, sr := stEstablished, works := true,
    regs := ⟨fun _ => 0#8, 0⟩, log := [] }

theorem sampleChip_ring {e : Env} {n ptr : Nat} (h1 : n ≤ 8192) (h2 : n ≤ e.file.length) : RingOk e (sampleChip e.file n ptr) := by
  have e1 : (sampleChip e.file n ptr).arrived = n := rfl
  have e2 : (sampleChip e.file n ptr).freed = 0 := rfl
  refine ⟨?_, by rw [e1, e2]; omega, Nat.zero_le _, h2, .inl rfl⟩
  intro i hi _
  rw [e1] at hi
  rw [Nat.mod_eq_of_lt (by omega)]
  rfl

/-- The machine as the player has just connected. -/
def sampleMach (pc : Nat) (w : W5100) : Mach :=
  { pc, a := 0#8, x := 0#8, y := 0#8, n := false, z := false, c := false, main := loadedMem, aux := fun _ => 0#8,
    sw := { text := true, mixed := false, page2 := false, hires := false, store80 := false, col80 := false, dhires := false },
    kbd := 0#8, w, cycles := 0, clicks := [], time := 0 }

theorem sample_connected (e : Env) : Connected e (sampleMach (sym .waitReadHeader) (sampleChip e.file 0 0x403)) :=
  ⟨rfl, loadedMem_loaded, rfl, (by decide : (3#8).getLsbD 1 = true), (by decide : 0x403 / 256 = 4), sampleChip_ring (by decide) (Nat.zero_le _), rfl, rfl, rfl⟩

theorem sample_playing (e : Env) (r n pc : Nat) (h0 : r ≤ 8191) (h1 : 2048 ≤ n) (h2 : n ≤ 8192) (h3 : n ≤ e.file.length) :
    Playing e (sampleMach pc (sampleChip e.file n (0x6000 + r))) r := by
  refine ⟨fun seg hs _ i b hb _ => loadedMem_loaded seg hs i b hb, (by decide : (3#8).getLsbD 1 = true), ?_, sampleChip_ring h2 h3, rfl, Nat.zero_le _, ?_, rfl⟩
  · show 0x6000 + r = 0x6000 + r % 8192
    rw [Nat.mod_eq_of_lt (by omega)]
  · show 0 + 2048 ≤ n
    omega

/-- A network that delivers a byte before every hundredth instruction. -/
def sampleEnv (file : List U8) (d : Nat → Nat) : Env := 
  ⟨file, d, fun _ => none, fun _ => none, fun _ => ⟨0#8, 0#8, 0#8, false, false, false, 0, fun _ => 0#8, fun _ => 0#8⟩⟩

example (file : List U8) : (sampleEnv file fun t => if t % 100 = 0 then 1 else 0).Delivers := by
  intro t
  refine ⟨100 * (t + 1), by omega, ?_⟩
  show 0 < if 100 * (t + 1) % 100 = 0 then 1 else 0
  rw [if_pos (by omega)]
  decide

/-- A network that delivers one byte before every other instruction keeps up. -/
theorem every_other (e : Env) (h : ∀ t, e.deliver (2 * t) = 1 ∧ e.deliver (2 * t + 1) = 0) : e.KeepsUp := by
  have key : ∀ n t, n ≤ 2 * e.offered t n + 1 ∧ (t % 2 = 0 → n ≤ 2 * e.offered t n) := by
    intro n
    induction n using Nat.strongRecOn with
    | _ n ih =>
      intro t
      match n with
      | 0 => exact ⟨Nat.zero_le _, fun _ => Nat.zero_le _⟩
      | 1 =>
        refine ⟨by omega, fun ht => ?_⟩
        have := (h (t / 2)).1
        rw [show 2 * (t / 2) = t by omega] at this
        show 1 ≤ 2 * (0 + e.deliver (t + 0))
        rw [Nat.add_zero t, this]
        decide
      | n + 2 =>
        have h1 := ih n (by omega) t
        have h2 : e.offered t (n + 2) = e.offered t n + e.deliver (t + n) + e.deliver (t + n + 1) := rfl
        have h3 : e.deliver (t + n) + e.deliver (t + n + 1) = 1 := by
          rcases Nat.mod_two_eq_zero_or_one (t + n) with hp | hp
          · have := h ((t + n) / 2)
            rw [show 2 * ((t + n) / 2) = t + n by omega] at this
            omega
          · have a := (h ((t + n) / 2)).2
            have b := (h ((t + n) / 2 + 1)).1
            rw [show 2 * ((t + n) / 2) + 1 = t + n by omega] at a
            rw [show 2 * ((t + n) / 2 + 1) = t + n + 1 by omega] at b
            omega
        exact ⟨by omega, fun ht => by have := h1.2 ht; omega⟩
  intro t
  have := (key 5000 t).1
  omega

example (file : List U8) : (sampleEnv file fun t => if t % 2 = 0 then 1 else 0).KeepsUp := by
  refine every_other _ fun t => ⟨?_, ?_⟩
  · show (if 2 * t % 2 = 0 then 1 else 0) = 1
    rw [if_pos (by omega)]
  · show (if (2 * t + 1) % 2 = 0 then 1 else 0) = 0
    rw [if_neg (by omega)]

example (file : List U8) (d : Nat → Nat) (pc : Nat) (w : W5100) : NoKeys (sampleEnv file d) (sampleMach pc w) :=
  ⟨(by decide : (0#8).getLsbD 7 = false), fun _ _ => rfl⟩

/-- A movie for the shipped player: C40 and C41 apply to its stream (which exists by C27). -/
example : ∃ ops bytes body, ({ sampleMovie with addr := playerAddr } : Movie).stream (fun _ => 0) [0, -15, 16, 3, 3, 3]
      (List.replicate 10 ⟨stripesFrame.main, stripesFrame.aux⟩) = .ok (ops, bytes) ∧
    Playable (bytes.map (BitVec.ofNat 8)) .DHGR body ∧ ops = .header .DHGR :: body ++ [.terminate] := by
  have hin : MovieInput { sampleMovie with addr := playerAddr } [0, -15, 16, 3, 3, 3]
      (List.replicate 10 ⟨stripesFrame.main, stripesFrame.aux⟩) := by
    refine ⟨by decide, by norm_num [sampleMovie], rfl, by decide, ?_⟩
    intro f hf
    rw [List.eq_of_mem_replicate hf]
    exact ⟨rfl, fun _ => ⟨_, rfl, rfl, fun _ _ => (by decide : (0x2a#8).toNat < 0x80)⟩,
      fun _ _ _ => (by decide : (0x2a#8).toNat < 0x80)⟩
  obtain ⟨body, bytes, -, -, -, h1, -⟩ := movie_facts _ _ _ hin (fun _ => 0)
  obtain ⟨body', h2, h3⟩ := C40_transcoder hin rfl h1
  exact ⟨_, _, body', h1, h3, h2⟩

/-- C36 applies to a tick at the start of a block, C37 to an ACK at the end of one. -/
example (file : List U8) (d : Nat → Nat) (h : file.length = 8192) (h54 : file[2046]? = some 0x54#8) :
    ∃ s', (sampleMach (playerAddr (.tick 3 5)) (sampleChip file 8192 0x6009)).Reaches (sampleEnv file d) s' ∧ s'.cycles = 73 ∧
      s'.clicks = [4, 14] ∧
    ∃ s', (sampleMach (playerAddr .ack) (sampleChip file 8192 (0x6000 + 2046))).Reaches (sampleEnv file d) s' ∧ s'.cycles = 146 ∧
      s'.clicks = [4, 38, 77, 111] := by
  have hp := sample_playing (sampleEnv file d) 9 8192 (playerAddr (.tick 3 5)) (by decide) (by decide) (by decide) (Nat.le_of_eq h.symm)
  obtain ⟨s', a1, a2, a3, -⟩ := C36_tick hp (by show 9 + 7 ≤ 8192; omega) rfl
  have hq := sample_playing (sampleEnv file d) 2046 8192 (playerAddr .ack) (by decide) (by decide) (by decide) (Nat.le_of_eq h.symm)
  obtain ⟨t', b1, b2, b3, -⟩ := C37_slow_path (a := false) hq rfl rfl rfl (by show 2046 + 2 + 2048 ≤ 8192; omega)
    ⟨(by decide : (0#8).getLsbD 7 = false), fun _ _ => rfl⟩ (by
    show file.getD 2046 0#8 = _
    rw [List.getD_eq_getElem?_getD, h54]; rfl)
  exact ⟨s', a1, a2, a3, t', b1, b2, b3⟩

end IIVision.Player
