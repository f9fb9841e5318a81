import Verif.Proofs.Reserve
import Verif.Props.Waits
import Verif.Props.Cut

/-! Claim C97: the player waits no longer than the network makes it. -/

namespace IIVision
open Spec

attribute [local irreducible] slowly

/-- **C97.** Any stream, any network that delivers, any pauses that end: as in `C95_stream`, and the player waits exactly for what is not there.  After the `m`-th ACK it looks every 25 cycles; at each look in vain less than `m + 2` blocks
have arrived (and `m + 1` have been released), and at the last look they have.  So if `m + 2` blocks have arrived by its look number `k`, it looks in vain at most `k` times; if they have not, more than `k` times. -/
theorem C97_stream {e : Player.Env} (hD : e.Delivers) {s : Player.Mach} {mode : VideoMode} {body : List Opcode} (hc : Player.Connected e s)
    (hp : Player.Playable e.file mode body) (hk : Player.PausesEnd e s) :
    ∃ s1 s2 w, s.Reaches e s1 ∧ Player.Executes e s1 body s2 ∧ s2.pc = playerAddr .terminate ∧ (Player.NoKeys e s → ∀ m, (w m).pause = 0) ∧
      s2.cycles = s1.cycles + Player.duration body + Player.lost w (acks body).length ∧
      s2.clicks = s1.clicks ++ Player.stayClicks w s1.cycles body ∧
      ∀ done a rest m c, body = done ++ .ack a :: rest → (acks done).length = m →
        c = s1.cycles + Player.duration done + Player.lost w m + 87 →
        (∀ j, j ≤ (w m).polls → ∃ x, s1.Reaches e x ∧ x.Reaches e s2 ∧ x.cycles = c + 25 * j ∧ (2048 * (m + 2) ≤ x.w.arrived ↔ j = (w m).polls) ∧ x.w.freed = 2048 * (m + 1) ∧ 2048 * (m + 2) ≤ e.file.length) ∧
        (∀ k y, s1.Reaches e y → 2048 * (m + 2) ≤ y.w.arrived → y.cycles ≤ c + 25 * k → (w m).polls ≤ k) ∧
        ∀ k y, s1.Reaches e y → y.Reaches e s2 → y.w.arrived < 2048 * (m + 2) → c + 25 * k ≤ y.cycles → k < (w m).polls := by
  rcases Player.start_live hD hc hp with ⟨n1, s1, a1, a2, -⟩ | ⟨n, s', a1, a2, a3⟩
  · rcases Player.stays hD body a2 with ⟨w, P', s2, b1, b2, bk⟩ | ⟨s', r1, r2, r3⟩
    · refine ⟨s1, s2, w, ⟨_, a1.run⟩, b1.executes, (Player.op_terminate b2).1, fun hk => bk (Player.nokeys_run _ hk a1.run), b1.cycles, b1.clicks, ?_⟩
      intro done a rest m c hb hm hc
      subst hm hc
      have hf : s1.w.freed = 0 := a2.freed
      have hl : Player.Lacking e s1 s2 _ _ _ := Player.Stays.lacking (hb ▸ b1)
      rw [hf, Nat.zero_add] at hl
      refine ⟨fun j hj => ?_, fun k y h1 h2 h3 => Nat.le_of_not_lt fun hlt => ?_, fun k y h1 h2 h3 h4 => Nat.lt_of_not_le fun hle => ?_⟩
      · obtain ⟨x, x1, x2, x3, x4, x5, x6⟩ := hl j hj
        exact ⟨x, x1, x2, x3, x4, by omega, x6⟩
      · obtain ⟨x, x1, x2, x3, x4, -⟩ := hl k hlt.le
        have := Player.later_more b1.kin.resets x1 x2 h1 (by omega)
        have := x4.1 (by omega)
        omega
      · obtain ⟨x, x1, x2, x3, x4, -⟩ := hl _ (Nat.le_refl _)
        have := Player.later_more b1.kin.resets h1 h2 x1 (by omega)
        have := x4.2 rfl
        omega
    · exact hk.elim (fun hk => absurd (Player.nokeys_run _ hk a1.run) r3) fun hk => absurd r2 (hk s' (Player.reaches_trans ⟨_, a1.run⟩ r1))
  · exact hk.elim (fun hk => absurd hk a3) fun hk => absurd a2 (hk s' ⟨_, a1.run⟩)

/-- **C97.** The stream of a movie, from the start of the player: the looks for a block come at the times given by `lookTime` (25 cycles apart if in vain), and are in vain exactly while the block is not there. -/
theorem C97_movie {M : Movie} {A : List Int} {F : List Frame} (hin : MovieInput M A F) (ha : M.addr = playerAddr)
    {tape : Nat → Nat} {ops : List Opcode} {bytes : List Nat} (h : M.stream tape A F = .ok (ops, bytes))
    {e : Player.Env} (hfile : e.file = bytes.map (BitVec.ofNat 8)) (hD : e.Delivers) (hA : e.Answers) (hR : e.NeverRefuses)
    (hO : e.StaysOpen ∨ 8192 < e.file.length)
    {s : Player.Mach} (hs : Player.Started s) (hw : s.w.works = true) (hk : Player.PausesEnd e s) :
    ∃ body s1 s2 w, ops = .header M.mode :: body ++ [.terminate] ∧ s.Reaches e s1 ∧ Player.Executes e s1 body s2 ∧ s2.pc = playerAddr .terminate ∧ (Player.NoKeys e s → ∀ m, (w m).pause = 0) ∧
      s2.cycles = s1.cycles + Player.tickStart (ticksOf false body).length + Player.lost w (((ticksOf false body).length + 1) / 292) ∧
      s2.clicks = s1.clicks ++ Player.stayClicks w s1.cycles body ∧
      ∀ m, m < ((ticksOf false body).length + 1) / 292 →
        (∀ j, j ≤ (w m).polls → ∃ x, s1.Reaches e x ∧ x.Reaches e s2 ∧ x.cycles = s1.cycles + Player.lookTime w m + 25 * j ∧ (2048 * (m + 2) ≤ x.w.arrived ↔ j = (w m).polls) ∧ x.w.freed = 2048 * (m + 1) ∧ 2048 * (m + 2) ≤ e.file.length) ∧
        (∀ k y, s1.Reaches e y → 2048 * (m + 2) ≤ y.w.arrived → y.cycles ≤ s1.cycles + Player.lookTime w m + 25 * k → (w m).polls ≤ k) ∧
        ∀ k y, s1.Reaches e y → y.Reaches e s2 → y.w.arrived < 2048 * (m + 2) → s1.cycles + Player.lookTime w m + 25 * k ≤ y.cycles → k < (w m).polls := by
  obtain ⟨t0, ⟨n0, g1⟩, hc, -⟩ := Player.C58_connects hs hw hA hR hO
  have hk0 : Player.PausesEnd e t0 := hk.imp (fun hk => Player.nokeys_run n0 hk g1) fun hk s' h => hk s' (Player.reaches_trans ⟨n0, g1⟩ h)
  obtain ⟨body, hb, hp, -⟩ := Player.playable_of_stream hin ha h
  rw [← hfile] at hp
  subst hb
  obtain ⟨s1, s2, w, b1, b2, b3, bk, b4, b5, b6⟩ := C97_stream hD hc hp hk0
  have htot := Player.movie_total hin h
  refine ⟨body, s1, s2, w, rfl, Player.reaches_trans ⟨n0, g1⟩ b1, b2, b3, fun hk => bk (Player.nokeys_run n0 hk g1), by rw [b4, htot.1, htot.2], b5, fun m hm => ?_⟩
  obtain ⟨done, a, rest, c1, c2, c3⟩ := Player.movie_ack hin h hm
  exact b6 done a rest m _ c1 c2 (by unfold Player.lookTime Player.dueTime; omega)

/-- **C97.** What the 8K buffer is good for: if it is full at any time before the look after the `m`-th ACK, the player does not wait at this and the next two, whatever the network does meanwhile, and the one after them is at least
64386 cycles (63 ms) later. -/
theorem C97_reserve {M : Movie} {A : List Int} {F : List Frame} (hin : MovieInput M A F) (ha : M.addr = playerAddr)
    {tape : Nat → Nat} {ops : List Opcode} {bytes : List Nat} (h : M.stream tape A F = .ok (ops, bytes))
    {e : Player.Env} (hfile : e.file = bytes.map (BitVec.ofNat 8)) (hD : e.Delivers) (hA : e.Answers) (hR : e.NeverRefuses)
    (hO : e.StaysOpen ∨ 8192 < e.file.length)
    {s : Player.Mach} (hs : Player.Started s) (hw : s.w.works = true) (hk : Player.PausesEnd e s) :
    ∃ body s1 s2 w, ops = .header M.mode :: body ++ [.terminate] ∧ s.Reaches e s1 ∧ Player.Executes e s1 body s2 ∧ s2.pc = playerAddr .terminate ∧
      s2.clicks = s1.clicks ++ Player.stayClicks w s1.cycles body ∧
      ∀ m y, m + 2 < ((ticksOf false body).length + 1) / 292 → s1.Reaches e y → y.w.freed = 2048 * m → y.w.arrived = y.w.freed + 8192 →
        y.cycles ≤ s1.cycles + Player.lookTime w m →
        (w m).polls = 0 ∧ (w (m + 1)).polls = 0 ∧ (w (m + 2)).polls = 0 ∧ y.cycles + 64386 ≤ s1.cycles + Player.lookTime w (m + 3) := by
  obtain ⟨body, s1, s2, w, a1, a2, a3, a4, -, -, a5, a6⟩ := C97_movie hin ha h hfile hD hA hR hO hs hw hk
  refine ⟨body, s1, s2, w, a1, a2, a3, a4, a5, fun m y hm h1 h2 h3 h4 => ?_⟩
  have step : ∀ m, Player.lost w (m + 1) = Player.lost w m + (w m).cycles := by
    intro m
    unfold Player.lost
    rw [List.range_succ, List.map_append, List.sum_append]
    simp
  have t : ∀ m, Player.lookTime w m + 21462 ≤ Player.lookTime w (m + 1) := by
    intro m
    have := step m
    unfold Player.lookTime Player.dueTime
    omega
  have t0 := t m
  have t1 := t (m + 1)
  have t2 := t (m + 2)
  rw [show m + 1 + 1 = m + 2 from rfl] at t1
  rw [show m + 2 + 1 = m + 3 from rfl] at t2
  have p0 := (a6 m (by omega)).2.1 0 y h1 (by omega) (by omega)
  have p1 := (a6 (m + 1) (by omega)).2.1 0 y h1 (by omega) (by omega)
  have p2 := (a6 (m + 2) (by omega)).2.1 0 y h1 (by omega) (by omega)
  exact ⟨by omega, by omega, by omega, by omega⟩

/-- C97_movie and C97_reserve (and C97_stream on the way): all hypotheses together, for a movie of 1000 ticks, so three ACKs, and a slow network. -/
theorem reserve_sample : ∃ (ops : List Opcode) (bytes : List Nat) (e : Player.Env) (s : Player.Mach),
    MovieInput { sampleMovie with limit := 0, addr := playerAddr } (List.replicate 1000 0) (List.replicate 1000 ⟨stripesFrame.main, stripesFrame.aux⟩) ∧
    ({ sampleMovie with limit := 0, addr := playerAddr } : Movie).stream (fun _ => 0) (List.replicate 1000 0)
      (List.replicate 1000 ⟨stripesFrame.main, stripesFrame.aux⟩) = .ok (ops, bytes) ∧ (ticksOf false ops).length = 1000 ∧ (1000 + 1) / 292 = 3 ∧
    e.file = bytes.map (BitVec.ofNat 8) ∧ e.Delivers ∧ ¬ e.KeepsUp ∧ e.Answers ∧ e.NeverRefuses ∧ e.StaysOpen ∧ Player.Started s ∧ s.w.works = true ∧ Player.PausesEnd e s := by
  have hin : MovieInput { sampleMovie with limit := 0, addr := playerAddr } (List.replicate 1000 0) (List.replicate 1000 ⟨stripesFrame.main, stripesFrame.aux⟩) := by
    have h := sample_input 1000 (List.replicate 1000 0) (fun a ha => by rw [List.eq_of_mem_replicate ha]; decide)
    exact ⟨h.stride, h.limit, h.thr0, h.audio, h.frames⟩
  obtain ⟨body0, bytes, -, -, -, h1, -⟩ := movie_facts _ _ _ hin (fun _ => 0)
  have ht : (ticksOf false (Opcode.header VideoMode.DHGR :: body0 ++ [.terminate])).length = 1000 := by
    rcases (C28_audio _ _ _ hin ⟨rfl, fun k => by show 490 * k + 1 ≤ 490 * (k + 1); omega⟩ _ _ bytes h1).2 with h | ⟨h, h2⟩ | ⟨h, -⟩
    · rw [List.length_replicate] at h
      exact h
    · rw [List.length_replicate] at h2
      unfold due at h2
      rw [List.length_replicate] at h
      have h2 : 490 * 1000 = _ := h2
      omega
    · exact absurd rfl h
  refine ⟨_, bytes, Player.linkEnv (bytes.map (BitVec.ofNat 8)) slowly fun _ => some Player.stEstablished, Player.sampleMach 0x800 (Player.coldChip true),
    hin, h1, ht, by norm_num, rfl, fun t => ⟨10000 * t + 9999, by omega, slowly_some t⟩, fun hK => ?_, fun t => ⟨t, Nat.le_refl _, .inl rfl⟩, fun t => ?_, fun t => ?_,
    Player.sample_started true, rfl, .inl ⟨(by decide : (0#8).getLsbD 7 = false), fun _ _ => rfl⟩⟩
  · have none : ∀ n, n < 9999 → Player.Env.offered (Player.linkEnv (bytes.map (BitVec.ofNat 8)) slowly fun _ => some Player.stEstablished) 0 n = 0 := by
      intro n
      induction n with
      | zero => intro _; rfl
      | succ n ih =>
        intro hn
        unfold Player.Env.offered
        rw [ih (by omega)]
        exact slowly_none n hn
    exact slow_network none hK
  · show some Player.stEstablished ≠ some Player.stClosed; decide
  · show some Player.stEstablished ≠ some Player.stCloseWait; decide

end IIVision
