import Verif.Props.Reserve
import Verif.Props.Pause

/-! Claim C100: every viewer sees the same movie. -/

namespace IIVision
open Spec

/-- A machine, its network and keyboard on which the movie with bytes `bytes` can be played to its end. -/
structure Viewer (bytes : List Nat) (e : Player.Env) (s : Player.Mach) : Prop where
  file : e.file = bytes.map (BitVec.ofNat 8)
  delivers : e.Delivers
  answers : e.Answers
  accepts : e.NeverRefuses
  open_ : e.StaysOpen ∨ 8192 < e.file.length
  started : Player.Started s
  works : s.w.works = true
  pauses : Player.PausesEnd e s

/-- Played from the start: the screen after any of the opcodes is what the first steps of the encoder make of a black one. -/
theorem Player.show_from_start {M : Movie} {A : List Int} {F : List Frame} (hin : MovieInput M A F) (ha : M.addr = playerAddr)
    {tape : Nat → Nat} {ops : List Opcode} {bytes : List Nat} (h : M.stream tape A F = .ok (ops, bytes)) :
    ∃ body steps, ops = .header M.mode :: body ++ [.terminate] ∧ ∀ e s, Viewer bytes e s →
      ∃ s1 s2, s.Reaches e s1 ∧ s1.sw = Player.Switches.For M.mode s.sw ∧ s2.pc = playerAddr .terminate ∧
        ∀ done todo, body = done ++ todo → ∃ u, Player.Executes e s1 done u ∧ Player.Executes e u todo s2 ∧
          ∀ b, (M.mode = .HGR → b = false) → u.screen b = bankOf (play blank (List.take (ticksOf false done).length steps)) b := by
  obtain ⟨body, hb, hp, hacks⟩ := Player.playable_of_stream hin ha h
  obtain ⟨body', bytes', calls, enc, steps, m1, m2, m3, m4, m5, m6, m7, m8⟩ := movie_facts M A F hin tape
  have hbody : body' = body := by
    rw [h] at m1
    have := congrArg Prod.fst (Except.ok.inj m1)
    dsimp only at this
    rw [hb] at this
    simpa using this.symm
  subst hbody
  refine ⟨body', steps, hb, fun e s v => ?_⟩
  obtain ⟨t0, ⟨n0, g1⟩, hc, -, -, g5, -⟩ := Player.C58_connects v.started v.works v.answers v.accepts v.open_
  have hk0 : Player.PausesEnd e t0 := v.pauses.imp (fun hk => Player.nokeys_run n0 hk g1) fun hk s' h => hk s' (Player.reaches_trans ⟨n0, g1⟩ h)
  rcases Player.start_live v.delivers hc (by rw [v.file]; exact hp) with ⟨n1, s1, a1, a2, a3, a4, a5⟩ | ⟨n, s', a1, a2, a3⟩
  swap
  · exact hk0.elim (fun hk => absurd hk a3) fun hk => absurd a2 (hk s' ⟨_, a1.run⟩)
  rcases Player.stays v.delivers body' a2 with ⟨w, P', s2, b1, b2, bk⟩ | ⟨s', r1, r2, r3⟩
  swap
  · exact hk0.elim (fun hk => absurd (Player.nokeys_run _ hk a1.run) r3) fun hk => absurd r2 (hk s' (Player.reaches_trans ⟨_, a1.run⟩ r1))
  have hpage : s1.sw.page2 = false := by
    rw [a3]; cases M.mode <;> rfl
  refine ⟨s1, s2, Player.reaches_trans ⟨n0, g1⟩ ⟨_, a1.run⟩, by rw [a3, g5], (Player.op_terminate b2).1, fun done todo hops => ?_⟩
  obtain ⟨u, d1, d2⟩ := Player.Stays.split (hops ▸ b1)
  have hex := d1.executes
  refine ⟨u, hex, d2.executes, fun b hmb => ?_⟩
  have hu : u.screens = play s1.screens (steps.take (ticksOf false done).length) := by
    rw [Player.executes_screens hex, hpage]
    · have htk := Player.ticksOf_take (a := done) (b := todo) rfl
      rw [← hops] at htk
      have hlen : (ticksOf false done).length = min (ticksOf false done).length (ticksOf false body').length := by
        conv => lhs; rw [htk]
        rw [List.length_take]
      refine foldl_rel _ _ _ (by rw [List.length_take, ← m4]; exact hlen) ?_
      intro i x y hx hy m
      rw [htk] at hx
      obtain ⟨-, -, -, -, q1, q2, q3, q4, -⟩ := m8 i x y (Player.take_get hx) (Player.take_get hy)
      unfold playTick playOp VideoOp.pageIx
      rw [q1, q2, q3, q4]
    · cases hm : M.mode with
      | DHGR => left; rw [a3, hm]; exact ⟨rfl, rfl⟩
      | HGR => right; exact ⟨hpage, fun a ha => hacks hm a (by rw [hops]; exact List.mem_append_left _ ha)⟩
  have e1 : u.screen b = bankOf u.screens b := by cases b <;> rfl
  rw [e1, hu]
  refine Player.bankOf_play_congr b _ _ _ (Player.screens_cleared b ?_)
  cases b with
  | false => exact a4
  | true =>
    apply a5
    cases hm : M.mode with
    | DHGR => rfl
    | HGR => exact absurd (hmb hm) (by decide)

/-- **C100.** Two viewers of the same movie, on different machines (with whatever in memory), over different networks and with different pauses, execute the same opcodes (so hear the same pulses in the same order), and after each of them
their screens are the same: both banks in DHGR, the main one in HGR. -/
theorem C100_same {M : Movie} {A : List Int} {F : List Frame} (hin : MovieInput M A F) (ha : M.addr = playerAddr)
    {tape : Nat → Nat} {ops : List Opcode} {bytes : List Nat} (h : M.stream tape A F = .ok (ops, bytes))
    {e e' : Player.Env} {s s' : Player.Mach} (hv : Viewer bytes e s) (hv' : Viewer bytes e' s') :
    ∃ body s1 s1' s2 s2', ops = .header M.mode :: body ++ [.terminate] ∧
      s.Reaches e s1 ∧ s1.sw = Player.Switches.For M.mode s.sw ∧ s2.pc = playerAddr .terminate ∧
      s'.Reaches e' s1' ∧ s1'.sw = Player.Switches.For M.mode s'.sw ∧ s2'.pc = playerAddr .terminate ∧
      ∀ done todo, body = done ++ todo → ∃ u u', Player.Executes e s1 done u ∧ Player.Executes e u todo s2 ∧
        Player.Executes e' s1' done u' ∧ Player.Executes e' u' todo s2' ∧
        ∀ b, (M.mode = .HGR → b = false) → u.screen b = u'.screen b := by
  obtain ⟨body, steps, hb, hall⟩ := Player.show_from_start hin ha h
  obtain ⟨s1, s2, a1, a2, a3, a4⟩ := hall e s hv
  obtain ⟨s1', s2', b1, b2, b3, b4⟩ := hall e' s' hv'
  refine ⟨body, s1, s1', s2, s2', hb, a1, a2, a3, b1, b2, b3, fun done todo hd => ?_⟩
  obtain ⟨u, c1, c2, c3⟩ := a4 done todo hd
  obtain ⟨u', d1, d2, d3⟩ := b4 done todo hd
  exact ⟨u, u', c1, c2, d1, d2, fun b hb => (c3 b hb).trans (d3 b hb).symm⟩

/-- C100_same: two viewers of a movie of 1000 ticks, one with a slow network, the other with a fast one, other values in auxiliary memory and a key pressed every 1000 instructions. -/
example : ∃ (ops : List Opcode) (bytes : List Nat) (e e' : Player.Env) (s s' : Player.Mach),
    MovieInput { sampleMovie with limit := 0, addr := playerAddr } (List.replicate 1000 0) (List.replicate 1000 ⟨stripesFrame.main, stripesFrame.aux⟩) ∧
    ({ sampleMovie with limit := 0, addr := playerAddr } : Movie).stream (fun _ => 0) (List.replicate 1000 0)
      (List.replicate 1000 ⟨stripesFrame.main, stripesFrame.aux⟩) = .ok (ops, bytes) ∧
    Viewer bytes e s ∧ Viewer bytes e' s' ∧ ¬ e.KeepsUp ∧ (∀ t, e'.deliver t = 8192) ∧ s.aux ≠ s'.aux ∧ ∀ t, e'.key (1000 * t) ≠ none := by
  obtain ⟨ops, bytes, e, s, h1, h2, -, -, h3, h4, h5, h6, h7, h8, h9, h10, h11⟩ := reserve_sample
  obtain ⟨b, hb⟩ : ∃ b, b ≠ s.aux 0 := by
    by_cases h : s.aux 0 = 0#8
    · exact ⟨1#8, fun hc => by rw [h] at hc; exact absurd hc (by decide)⟩
    · exact ⟨0#8, fun hc => h hc.symm⟩
  refine ⟨ops, bytes, e, { Player.linkEnv (bytes.map (BitVec.ofNat 8)) (fun _ => 8192) (fun _ => some Player.stEstablished) with
      key := fun t => if t % 1000 = 0 then some 0x20#8 else none }, s, { Player.sampleMach 0x800 (Player.coldChip true) with aux := fun _ => b }, h1, h2,
    ⟨h3, h4, h6, h7, .inl h8, h9, h10, h11⟩, ⟨rfl, fun t => ⟨t, Nat.le_refl _, by show 0 < 8192; norm_num⟩, fun t => ⟨t, Nat.le_refl _, .inl rfl⟩,
      fun t => ?_, .inl fun t => ?_, ?_, rfl, Player.tapping_ends _ rfl _⟩, h5, fun _ => rfl, fun hc => hb (by rw [hc]), fun t => ?_⟩
  · show some Player.stEstablished ≠ some Player.stClosed; decide
  · show some Player.stEstablished ≠ some Player.stCloseWait; decide
  · have := Player.sample_started true
    exact ⟨this.pc, this.loaded, this.page2, this.log⟩
  · show (if 1000 * t % 1000 = 0 then some 0x20#8 else none) ≠ none
    rw [if_pos (by omega)]
    exact fun h => by cases h

end IIVision
