import Verif.Props.Lateness
import Verif.Props.Serving

/-! Claim C99: how fast the network must be. -/

namespace IIVision
open Spec

/-- **C99.** A movie is played over any network that delivers, with any pauses that end.  If the network delivers at least 2048 bytes in 21462 cycles (97.4 kB/s at 1.0205 MHz) whenever less than three blocks are waiting, then,
apart from pauses, less than 21619 cycles (21 ms) are lost, however long the movie is.  If it delivers at most `b + p / q * t` bytes in time `t`, then after `m + 1` blocks at least so much has been lost that they can have arrived: more and more if `p / q` is less than that. -/
theorem C99_throughput {M : Movie} {A : List Int} {F : List Frame} (hin : MovieInput M A F) (ha : M.addr = playerAddr)
    {tape : Nat → Nat} {ops : List Opcode} {bytes : List Nat} (h : M.stream tape A F = .ok (ops, bytes))
    {e : Player.Env} (hfile : e.file = bytes.map (BitVec.ofNat 8)) (hD : e.Delivers) (hA : e.Answers) (hR : e.NeverRefuses)
    (hO : e.StaysOpen ∨ 8192 < e.file.length)
    {s : Player.Mach} (hs : Player.Started s) (hw : s.w.works = true) (hk : Player.PausesEnd e s) :
    ∃ body s1 s2 w, ops = .header M.mode :: body ++ [.terminate] ∧ s.Reaches e s1 ∧ Player.Executes e s1 body s2 ∧ s2.pc = playerAddr .terminate ∧
      (Player.NoKeys e s → ∀ m, Player.pausesOf w m = 0) ∧
      s2.cycles = s1.cycles + Player.tickStart (ticksOf false body).length + Player.lost w (((ticksOf false body).length + 1) / 292) ∧
      s2.clicks = s1.clicks ++ Player.stayClicks w s1.cycles body ∧
      (∀ p q, 0 < q → 2048 * q ≤ 21462 * p → Player.Supplies e s1 s2 p q →
        ∀ n, n ≤ ((ticksOf false body).length + 1) / 292 → Player.lost w n < 21619 + Player.pausesOf w n) ∧
      ∀ b p q, Player.Throttled e s1 s2 b p q → ∀ m, m < ((ticksOf false body).length + 1) / 292 →
        q * (2048 * (m + 2)) ≤ q * b + p * (73 * (294 * m + 291) + 87 + Player.lost w (m + 1)) := by
  obtain ⟨body, s1, s2, w, a1, a2, a3, a4, ak, a5, a6, a7⟩ := C97_movie hin ha h hfile hD hA hR hO hs hw hk
  refine ⟨body, s1, s2, w, a1, a2, a3, a4, fun hk m => ?_, a5, a6, fun p q hq hpq hsup n hn => ?_, fun b p q hth m hm => ?_⟩
  · induction m with
    | zero => rfl
    | succ m ih => rw [Player.pausesOf_step, ih, ak hk m]
  · induction n with
    | zero => exact Nat.lt_of_lt_of_le (by norm_num [Player.lost]) (Nat.le_add_right _ _)
    | succ n ih =>
      have ih := ih (by omega)
      rw [Player.lost_step, Player.pausesOf_step]
      by_cases h0 : (w n).polls = 0
      · omega
      · obtain ⟨x, x1, x2, x3, x4, x5, x6⟩ := (a7 n (by omega)).1 ((w n).polls - 1) (by omega)
        have hx : x.w.arrived < 2048 * (n + 2) := Nat.lt_of_not_le fun hc => by have := x4.1 hc; omega
        rcases hsup x x1 x2 with hc | hc | hc
        · omega
        · omega
        · have hp : 0 < p := by omega
          have h1 : q * x.w.arrived < q * (2048 * (n + 2)) := Nat.mul_lt_mul_of_pos_left hx hq
          have h2 : q * (2048 * (n + 2)) ≤ p * (21462 * (n + 2)) := by nlinarith
          have h3 : x.cycles - s1.cycles < 21462 * (n + 2) := Nat.lt_of_mul_lt_mul_left (Nat.lt_of_le_of_lt hc (Nat.lt_of_lt_of_le h1 h2))
          unfold Player.lookTime Player.dueTime at x3
          omega
  · obtain ⟨x, x1, x2, x3, x4, -⟩ := (a7 m hm).1 _ (Nat.le_refl _)
    have h1 := hth x x1 x2
    have h2 := Nat.mul_le_mul_left q (x4.2 rfl)
    refine h2.trans (h1.trans (Nat.add_le_add_left (Nat.mul_le_mul_left p ?_) _))
    have hst := Player.lost_step w m
    unfold Player.lookTime Player.dueTime at x3
    omega

/-- Bytes and time of opcodes. -/
theorem Player.bytes_duration (addr : AddrTable) (l : List Opcode) (h : ∀ op ∈ l, BodyOp op) : ∀ b,
    ∃ n, (bytesOf addr l).length = 7 * (ticksOf b l).length + 4 * (acks l).length + 2 * n ∧
      Player.duration l = 73 * (ticksOf b l).length + 146 * (acks l).length + 19 * n := by
  induction l with
  | nil => intro b; exact ⟨0, rfl, rfl⟩
  | cons op l ih =>
    intro b
    have ih := ih fun o ho => h o (List.mem_cons_of_mem _ ho)
    have h0 := h op List.mem_cons_self
    have e1 : (bytesOf addr (op :: l)).length = (op.emit addr).length + (bytesOf addr l).length := by
      unfold bytesOf
      rw [List.flatMap_cons, List.length_append]
    rw [e1]
    cases op with
    | tick t p c os =>
      obtain ⟨n, h1, h2⟩ := ih b
      have h7 : (Opcode.emit addr (.tick t p c os)).length = 7 := by
        have h0 : os.length = 4 := h0
        simp [Opcode.emit, Opcode.emitCommand, Opcode.emitData, h0]
      refine ⟨n, ?_, ?_⟩
      · show _ = 7 * ((ticksOf b l).length + 1) + 4 * (acks l).length + 2 * n
        omega
      · show 73 + Player.duration l = 73 * ((ticksOf b l).length + 1) + 146 * (acks l).length + 19 * n
        omega
    | ack a =>
      obtain ⟨n, h1, h2⟩ := ih a
      refine ⟨n, ?_, ?_⟩
      · show 4 + _ = 7 * (ticksOf a l).length + 4 * ((acks l).length + 1) + 2 * n
        omega
      · show 2 * 73 + Player.duration l = 73 * (ticksOf a l).length + 146 * ((acks l).length + 1) + 19 * n
        omega
    | nop =>
      obtain ⟨n, h1, h2⟩ := ih b
      refine ⟨n + 1, ?_, ?_⟩
      · show 2 + _ = 7 * (ticksOf b l).length + 4 * (acks l).length + 2 * (n + 1)
        omega
      · show 19 + Player.duration l = 73 * (ticksOf b l).length + 146 * (acks l).length + 19 * (n + 1)
        omega
    | header m => exact absurd h0 (by simp [BodyOp])
    | terminate => exact absurd h0 (by simp [BodyOp])

theorem Player.supplies_small {e : Player.Env} {s1 s2 : Player.Mach} {P : Nat} {body : List Opcode} (h : Player.AtOp e s1 P body) (hr : s2.w.regs.resets = s1.w.regs.resets)
    (hl : e.file.length ≤ 8192) (hd : ∀ t, 8192 ≤ e.deliver t) (p q : Nat) : Player.Supplies e s1 s2 p q := by
  rintro y ⟨n, h1⟩ ⟨m, h2⟩
  cases n with
  | zero =>
    cases h1
    refine .inr (.inr ?_)
    rw [Nat.sub_self, Nat.mul_zero]
    exact Nat.zero_le _
  | succ n =>
    rw [Player.run_succ] at h1
    obtain ⟨v, hv, hv'⟩ := Option.bind_eq_some_iff.mp h1
    have r1 := Player.step_resets hv
    have r2 := Player.run_resets _ hv'
    have r3 := Player.run_resets _ h2
    have f := Player.env_fill (s := s1) h.play.ring.up
    have hdt := hd s1.time
    have a1 := (Player.step_still hv (by omega)).arrived
    have a2 := (Player.run_mono n hv' (by omega)).1
    exact .inl (by omega)

theorem Player.deliver_most (f : List U8) (n : Nat) : ∀ w : Player.W5100, (w.deliver f n).arrived ≤ w.arrived + n := by
  induction n with
  | zero => intro w; exact Nat.le_refl _
  | succ n ih =>
    intro w
    unfold Player.W5100.deliver
    split
    · have := ih (w.arrive f)
      have e1 : (w.arrive f).arrived = w.arrived + 1 := rfl
      omega
    · omega

theorem Player.env_most (e : Player.Env) (s : Player.Mach) : (s.env e).w.arrived ≤ s.w.arrived + e.deliver s.time := by
  have hl : ∀ (f : List U8) (v : Option U8) (w : Player.W5100), (w.link f v).arrived = w.arrived := by
    intro f v w
    unfold Player.W5100.link
    repeat' split
    all_goals rfl
  show (s.w.traffic e.file (e.link s.time) (e.deliver s.time)).arrived ≤ _
  unfold Player.W5100.traffic
  dsimp only
  split
  · refine (Player.deliver_most _ _ _).trans ?_
    rw [hl]
  · rw [hl]
    exact Nat.le_add_right _ _

/-- No more arrives than the network offers. -/
theorem Player.run_most {e : Player.Env} (n : Nat) : ∀ {s s' : Player.Mach}, s.run e n = some s' → s'.w.arrived ≤ s.w.arrived + e.offered s.time n := by
  induction n with
  | zero => intro s s' h; cases h; exact Nat.le_add_right _ _
  | succ n ih =>
    intro s s' h
    rw [Player.run_succ] at h
    obtain ⟨v, hv, hv'⟩ := Option.bind_eq_some_iff.mp h
    have c := Player.step_calm hv
    have ht : v.time = s.time + 1 := c.time
    have h1 := ih hv'
    have h2 := c.fewer
    have h3 := Player.env_most e s
    rw [Player.offered_succ, ht.symm]
    omega

/-- **C99.** A network that offers, in any `n` instructions, at most `b` bytes and `p / q` bytes for each of the `2 * n` cycles they take at least, is throttled in the sense of C99_throughput. -/
theorem C99_slow {e : Player.Env} {s1 s2 : Player.Mach} {b p q : Nat} (h : ∀ t n, q * e.offered t n ≤ q * b + p * (2 * n)) :
    Player.Throttled e s1 s2 (s1.w.arrived + b) p q := by
  rintro y ⟨n, h1⟩ -
  have h2 := Nat.mul_le_mul_left q (Player.run_most n h1)
  have h3 := h s1.time n
  have h4 := Player.run_cycles n h1
  have h5 : p * (2 * n) ≤ p * (y.cycles - s1.cycles) := Nat.mul_le_mul_left p (by omega)
  rw [Nat.mul_add] at h2 ⊢
  omega

/-- C99_slow: a byte every 10000 instructions. -/
example (file : List U8) (link : Nat → Option U8) (t n : Nat) : 20000 * (Player.linkEnv file slowly link).offered t n ≤ 20000 * 1 + 1 * (2 * n) := by
  have exact : 10000 * (Player.linkEnv file slowly link).offered t n + (t + n) % 10000 = t % 10000 + n := by
    induction n with
    | zero => show 10000 * 0 + _ = _; omega
    | succ n ih =>
      have e1 : (Player.linkEnv file slowly link).offered t (n + 1) = (Player.linkEnv file slowly link).offered t n + slowly (t + n) := rfl
      have e2 : slowly (t + n) = if (t + n) % 10000 = 9999 then 1 else 0 := rfl
      split at e2 <;> omega
  omega

/-- C99_throughput: all hypotheses together, for a movie of 1000 ticks, so three ACKs, and a fast network, which supplies what its first part asks for. -/
example : ∃ (ops : List Opcode) (bytes : List Nat) (e : Player.Env) (s s1 s2 : Player.Mach) (body : List Opcode),
    MovieInput { sampleMovie with limit := 0, addr := playerAddr } (List.replicate 1000 0) (List.replicate 1000 ⟨stripesFrame.main, stripesFrame.aux⟩) ∧
    ({ sampleMovie with limit := 0, addr := playerAddr } : Movie).stream (fun _ => 0) (List.replicate 1000 0)
      (List.replicate 1000 ⟨stripesFrame.main, stripesFrame.aux⟩) = .ok (ops, bytes) ∧ (ticksOf false body).length = 1000 ∧ (1000 + 1) / 292 = 3 ∧
    e.file = bytes.map (BitVec.ofNat 8) ∧ e.Delivers ∧ e.Answers ∧ e.NeverRefuses ∧ e.StaysOpen ∧ Player.Started s ∧ s.w.works = true ∧ Player.PausesEnd e s ∧
    ops = .header .DHGR :: body ++ [.terminate] ∧ s.Reaches e s1 ∧ Player.Executes e s1 body s2 ∧ s2.pc = playerAddr .terminate ∧
    (∀ p q, Player.Supplies e s1 s2 p q) := by
  obtain ⟨ops, bytes, -, -, hin, h1, ht, -⟩ := reserve_sample
  obtain ⟨body, hb, hp, -⟩ := Player.playable_of_stream hin rfl h1
  have hticks : (ticksOf false body).length = 1000 := by
    rw [← ht, hb]
    have : ∀ b (l : List Opcode), (ticksOf b (l ++ [.terminate])).length = (ticksOf b l).length := by
      intro b l
      induction l generalizing b with
      | nil => rfl
      | cons op l ih => cases op <;> first | exact ih _ | exact congrArg (· + 1) (ih _)
    exact (this false body).symm
  have htot := Player.movie_total hin (by rw [h1, hb])
  obtain ⟨n, l1, l2⟩ := Player.bytes_duration playerAddr body hp.ops false
  rw [hticks] at l1 l2 htot
  have hlen : bytes.length ≤ 8192 := by
    rw [stream_length h1 hb]
    have hd := htot.1
    have hacks := htot.2
    unfold Player.tickStart at hd
    have : (bytesOf playerAddr body).length = 7012 := by omega
    show 2048 * ((7 + (bytesOf playerAddr body).length) / 2048) + 2048 ≤ 8192
    omega
  obtain ⟨e, he⟩ : ∃ e, e = Player.linkEnv (bytes.map (BitVec.ofNat 8)) (fun _ => 8192) fun _ => some Player.stEstablished := ⟨_, rfl⟩
  have hD : e.Delivers := fun t => ⟨t, Nat.le_refl _, by rw [he]; show 0 < 8192; norm_num⟩
  have hA : e.Answers := fun t => ⟨t, Nat.le_refl _, .inl (by rw [he]; rfl)⟩
  have hR : e.NeverRefuses := fun t => by rw [he]; show some Player.stEstablished ≠ some Player.stClosed; decide
  have hO : e.StaysOpen := fun t => by rw [he]; show some Player.stEstablished ≠ some Player.stCloseWait; decide
  have hk : Player.NoKeys e (Player.sampleMach 0x800 (Player.coldChip true)) :=
    ⟨(by decide : (0#8).getLsbD 7 = false), fun _ _ => by rw [he]; rfl⟩
  have hfile : e.file = bytes.map (BitVec.ofNat 8) := by rw [he]; rfl
  obtain ⟨t0, ⟨n0, g1⟩, hc, -⟩ := Player.C58_connects (Player.sample_started true) rfl hA hR (.inl hO)
  have hk0 := Player.nokeys_run n0 hk g1
  rcases Player.start_live hD hc (by rw [hfile]; exact hp) with ⟨n1, s1, a1, a2, -⟩ | ⟨n, s', a1, a2, a3⟩
  swap
  · exact absurd hk0 a3
  rcases Player.stays hD body a2 with ⟨w, P', s2, b1, b2, -⟩ | ⟨s', r1, r2, r3⟩
  swap
  · exact absurd (Player.nokeys_run _ hk0 a1.run) r3
  refine ⟨ops, bytes, e, _, s1, s2, body, hin, h1, hticks, by norm_num, hfile, hD, hA, hR, hO, Player.sample_started true, rfl, .inl hk, hb,
    Player.reaches_trans ⟨n0, g1⟩ ⟨_, a1.run⟩, b1.executes, (Player.op_terminate b2).1, Player.supplies_small a2 b1.kin.resets ?_ fun t => ?_⟩
  · rw [hfile, List.length_map]
    exact hlen
  · rw [he]
    exact Nat.le_refl 8192

end IIVision
