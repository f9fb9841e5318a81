import Verif.Props.Player
import Verif.Proofs.Connect

/-! Properties of the start-up of the player (player/main.s:129-275) and of its exit. -/

namespace IIVision.Player

open Spec

theorem brel_loaded {s0 s : Mach} {b : BSt} (h : BRel s0 b s) (hl : Loaded s0.main) : Loaded s.main := by
  intro seg hs i v hv
  rw [h.main _ ?_]
  · exact hl seg hs i v hv
  · have := segment_range hs hv
    unfold Scratch
    omega

theorem wire_connected {e : Env} {s0 s : Mach} {k : Nat} {out : List Nat} (hs : Started s0) (h : BRel s0 (bPoll 0x214a none none k out) s)
    (hw : Wire e s.w) (hr : RingOk e s.w) : Connected e s :=
  ⟨h.pc.trans rfl, brel_loaded h hs.loaded, h.page2, by rw [hw.mode]; decide, hw.ptr, hr, hw.rd, hw.freed, h.log.trans hs.log⟩

theorem out_dots {s0 s : Mach} {b : BSt} {k : Nat} (h : BRel s0 b s) (hb : b.out = dots k) : s.out = s0.out ++ List.replicate k 0xae#8 := by
  rw [h.out, hb]
  unfold dots
  rw [List.map_replicate]

theorem looping_waits {e : Env} {s0 s : Mach} {k : Nat} {out : List Nat}
    (h : ∀ n, ∃ u, s.run e n = some u ∧ Looping s0 k out u) : WaitsForever e s := by
  obtain ⟨u0, h0, _, _, _, g0, _⟩ := h 0
  cases h0
  intro n
  obtain ⟨u, h1, pc, a, z, h2, h3, h4⟩ := h n
  refine ⟨u, h1, h2.out.trans g0.out.symm, poll_vector h2, ?_, ?_⟩
  · rw [h2.pc]; exact h3
  · rw [h2.pc]; exact h4

/-! ### C58 -/

/-- C58: the player, entered at its first byte with the card in any state, over any network.

Either the card obeys the OPEN command, and then
* the player comes to wait for the header, connected, with the card configured as in main.s:36-39,
  after at most five dots, one for each failed attempt; or
* six attempts fail, and the player stops at a BRK having printed five dots and the message; or
* it waits forever, in silence; then either the network does not answer any more, or the server
  has sent the whole file (of at most 8192 bytes, so that it fits the receive buffer) and closed
  the connection before the player looked.

Or it does not, and then the player stops at a BRK, having printed the other message. -/
theorem C58_outcomes {s : Mach} (h : Started s) (e : Env) :
    (s.w.works = true ∧
      ((∃ k s', k ≤ 5 ∧ s.Reaches e s' ∧ Connected e s' ∧ Configured s'.w ∧ s'.sw = s.sw ∧ ResetVector s' ∧
          s'.out = s.out ++ List.replicate k 0xae#8 ∧ (∃ t, e.link t = some stEstablished) ∧ (0 < k → ¬ e.NeverRefuses)) ∨
       (∃ s', s.Reaches e s' ∧ s'.AtBrk ∧ s'.step e = none ∧ ¬ e.NeverRefuses ∧
          s'.out = s.out ++ (List.replicate 5 0xae#8 ++ appleText "SOCKET COULD NOT CONNECT - CHECK REMOTE HOST\r")) ∨
       (∃ k s', k ≤ 5 ∧ s.Reaches e s' ∧ s'.out = s.out ++ List.replicate k 0xae#8 ∧ WaitsForever e s' ∧ (0 < k → ¬ e.NeverRefuses) ∧
          ((∀ t, s'.time ≤ t → e.link t ≠ some stEstablished ∧ e.link t ≠ some stClosed) ∨
           (e.file.length ≤ 8192 ∧ ¬ e.StaysOpen ∧ ¬ e.NeverAccepts))))) ∨
    (s.w.works = false ∧
      ∃ s', s.Reaches e s' ∧ s'.AtBrk ∧ s'.step e = none ∧
        s'.out = s.out ++ appleText "UTHERNET II: COULD NOT OPEN SOCKET!\r") := by
  cases hw : s.w.works with
  | true =>
    refine .inl ⟨rfl, ?_⟩
    cases started_works (e := e) h hw with
    | connected n k s' h0 h1 h2 h3 h4 h5 h6 =>
      exact .inl ⟨k, s', h0, ⟨n, h1⟩, wire_connected h h2 h3 h4, wire_configured h3, h2.sw, poll_vector h2, out_dots h2 rfl, h5,
        fun hk hn => (h6 hk).elim fun t ht => hn t ht⟩
    | failed n s' h1 h2 h3 =>
      obtain ⟨b1, b2⟩ := brel_brk (e := e) h2 (show symFetch true 0x211b = _ by decide +kernel) (show codeByte true 0x211b = _ by decide +kernel)
      exact .inr (.inl ⟨s', ⟨n, h1⟩, b1, b2, fun hn => h3.elim fun t ht => hn t ht, h2.out⟩)
    | forever n k s' h0 h1 h2 h3 h4 =>
      refine .inr (.inr ⟨k, s', h0, ⟨n, h1⟩, ?_, looping_waits h2, fun hk hn => (h4 hk).elim fun t ht => hn t ht, ?_⟩)
      · obtain ⟨u, g0, _, _, _, g1, _⟩ := h2 0
        cases g0
        exact out_dots g1 rfl
      · exact h3.imp id fun ⟨a, b, c⟩ => ⟨a, fun hn => b.elim fun t ht => hn t ht, fun hn => c.elim fun t ht => hn t ht⟩
  | false =>
    refine .inr ⟨rfl, ?_⟩
    obtain ⟨u, h1, h2⟩ := started_dead (e := e) h hw
    obtain ⟨b1, b2⟩ := brel_brk (e := e) h2 (show symFetch true 0x20c2 = _ by decide +kernel) (show codeByte true 0x20c2 = _ by decide +kernel)
    exact ⟨u, ⟨_, h1⟩, b1, b2, h2.out⟩

/-- C58: over a network that answers every attempt and never refuses, with a file that does not
fit the receive buffer or a server that keeps the connection open, the player connects, and
prints nothing. -/
theorem C58_connects {s : Mach} (h : Started s) (hw : s.w.works = true) {e : Env} (ha : e.Answers) (hr : e.NeverRefuses)
    (hc : e.StaysOpen ∨ 8192 < e.file.length) :
    ∃ s', s.Reaches e s' ∧ Connected e s' ∧ Configured s'.w ∧ ResetVector s' ∧ s'.sw = s.sw ∧ s'.out = s.out := by
  rcases C58_outcomes h e with ⟨-, ⟨k, s', -, a2, a3, a4, a5, a6, a7, -, a9⟩ | ⟨s', -, -, -, a4, -⟩ | ⟨k, s', -, -, -, -, -, a6 | ⟨a6, a7, -⟩⟩⟩ | ⟨a, -⟩
  · have hk : k = 0 := Nat.eq_zero_of_not_pos fun hk => a9 hk hr
    subst hk
    exact ⟨s', a2, a3, a4, a6, a5, a7.trans (List.append_nil _)⟩
  · exact absurd hr a4
  · obtain ⟨t, h1, h2⟩ := ha s'.time
    exact (h2.elim (a6 t h1).1 (a6 t h1).2).elim
  · rcases hc with hc | hc
    · exact absurd hc a7
    · omega
  · rw [hw] at a; cases a

/-- C58: over a network that refuses every attempt, the player makes six and gives up. -/
theorem C58_refused {s : Mach} (h : Started s) (hw : s.w.works = true) {e : Env} (ha : e.Answers) (hr : e.NeverAccepts) :
    ∃ s', s.Reaches e s' ∧ s'.AtBrk ∧ s'.step e = none ∧
      s'.out = s.out ++ (List.replicate 5 0xae#8 ++ appleText "SOCKET COULD NOT CONNECT - CHECK REMOTE HOST\r") := by
  rcases C58_outcomes h e with ⟨-, ⟨k, s', -, -, -, -, -, -, -, ⟨t, ht⟩, -⟩ | ⟨s', a1, a2, a3, -, a5⟩ | ⟨k, s', -, -, -, -, -, a6 | ⟨-, -, a8⟩⟩⟩ | ⟨a, -⟩
  · exact absurd ht (hr t)
  · exact ⟨s', a1, a2, a3, a5⟩
  · obtain ⟨t, h1, h2⟩ := ha s'.time
    exact (h2.elim (a6 t h1).1 (a6 t h1).2).elim
  · exact absurd hr a8
  · rw [hw] at a; cases a

/-- C58, the defect: if the file fits the receive buffer, and the server is so quick that, by the
second instruction after CONNECT (128 instructions after the start), everything has arrived and the
connection has been closed, then the player waits forever for the connection it already had. -/
theorem C58_missed {s : Mach} (h : Started s) (hw : s.w.works = true) {e : Env} (hf : e.file.length ≤ 8192)
    (h0 : e.link (s.time + 128) = some stEstablished) (h1 : e.file.length ≤ e.deliver (s.time + 128))
    (h2 : e.link (s.time + 129) = some stCloseWait) :
    ∃ s', s.Reaches e s' ∧ s'.out = s.out ∧ WaitsForever e s' := by
  obtain ⟨u, b1, b2⟩ := brun_ok e 127 (brel_start h) (by rw [hw]; exact bRun_open)
  obtain ⟨v, c1, c2, c3, c4⟩ := connect_step e b2 rfl rfl rfl rfl rfl rfl rfl (show symFetch true 0x20ef = _ by decide +kernel)
  have r := one b1 c1
  have ht : v.time = s.time + 128 := run_time _ r
  have hp := brel_forget (brel_poll c2 rfl rfl rfl rfl rfl)
  refine ⟨v, ⟨_, r⟩, hp.out.trans (List.append_nil _), looping_waits (missed hp c3 c4 hf ?_ ?_ ?_)⟩
  · rw [ht]; exact h0
  · rw [ht]; exact h1
  · rw [ht]; exact h2

/-! ### C59 -/

/-- C59: while a stream is played the reset vector is not disturbed: RESET leads to the exit
routine. -/
theorem C59_vector {e : Env} {s t : Mach} {mode : VideoMode} {body : List Opcode} (hc : Connected e s) (hv : ResetVector s)
    (hp : Playable e.file mode body) (ht : Before e s t) : ResetVector t := by
  have h := (before_safe hc hp ht).only
  have key : ∀ q, q = 0x3f2 ∨ q = 0x3f3 ∨ q = 0x3f4 → t.main q = s.main q := by
    intro q hq
    refine (h q (by omega)).2 (by omega) (by omega) (by omega) ?_
    rcases hq with rfl | rfl | rfl <;> exact not_patched (by decide)
  obtain ⟨h1, h2, h3⟩ := hv
  refine ⟨?_, ?_, ?_⟩
  · rw [key _ (.inl rfl)]; exact h1
  · rw [key _ (.inr (.inl rfl))]; exact h2
  · rw [key _ (.inr (.inr rfl)), key _ (.inr (.inl rfl))]; exact h3

theorem end_step {e : Env} {s : Mach} (hi : Intact s.main) (hp : s.pc = 0xba67) :
    ∃ t1 t2, s.step e = some t1 ∧ t1.step e = some t2 ∧ Soft e s t1 ∧ Soft e t1 t2 ∧ t1.kbd = (s.env e).kbd ∧ t2.kbd = (t1.env e).kbd ∧
      t1.pc = 0xba6a ∧
      ((s.env e).kbd.getLsbD 7 = false → t2.pc = 0xba67) ∧
      ((s.env e).kbd.getLsbD 7 = true → ∃ t3 t4, t2.step e = some t3 ∧ t3.step e = some t4 ∧ Soft e t2 t4 ∧ t4.pc = 0xbaac) := by
  have code : ∀ {t : Mach}, t.main = s.main → CodeOk false t.main := fun h => by rw [h]; exact codeOk_of_intact hi
  obtain ⟨t1, a1, a2, a3, a4, a5, a6, a7⟩ := step_ldakbd (e := e) (code rfl) (fun h => by cases h) (by rw [hp]; decide +kernel)
  rw [hp] at a4
  obtain ⟨t2, b1, b2, b3, b6, b4, b5⟩ := step_bpl (e := e) (d := 251) (code a2.main) (fun h => by cases h) (by rw [a4]; decide +kernel)
  rw [a4, a6] at b4 b5
  refine ⟨t1, t2, a1, b1, a2, b2, a7, b6, a4, fun hn => (b4 hn).1, fun hn => ?_⟩
  have c1 := (b5 hn).1
  obtain ⟨t3, d1, d2, d3, d4, -⟩ := step_ldastrobe (e := e) (code (b2.main.trans a2.main)) (fun h => by cases h) (by rw [c1]; decide +kernel)
  rw [c1] at d4
  obtain ⟨t4, e1, e2, e3, -⟩ := step_jmp (e := e) (q := 0xbaac) (code (d2.main.trans (b2.main.trans a2.main))) (fun h => by cases h) (by rw [d4]; decide +kernel)
  exact ⟨t3, t4, d1, e1, d2.trans e2, e3⟩

theorem soft_untouched {e : Env} {s t : Mach} (h : Soft e s t) : Untouched s t := ⟨h.main, h.aux, h.sw, h.clicks⟩

theorem Untouched.trans {s t u : Mach} (h1 : Untouched s t) (h2 : Untouched t u) : Untouched s u :=
  ⟨h2.1.trans h1.1, h2.2.1.trans h1.2.1, h2.2.2.1.trans h1.2.2.1, h2.2.2.2.trans h1.2.2.2⟩

theorem end_first {e : Env} {s : Mach} (hi : Intact s.main) (hp : s.pc = 0xba64) :
    ∃ t, s.step e = some t ∧ Soft e s t ∧ t.pc = 0xba67 ∧ t.kbd.getLsbD 7 = false := by
  have hs := step_code (e := e) (codeOk_of_intact hi) (fun h => by cases h)
    (show symFetch false s.pc = some (.ldaA 0xc010) by rw [hp]; decide +kernel)
  obtain ⟨t, a1, a2, a3, a4, -⟩ := step_ldastrobe (e := e) (codeOk_of_intact hi) (fun h => by cases h) (by rw [hp]; decide +kernel)
  rw [hp] at a4
  refine ⟨t, a1, a2, a4, ?_⟩
  have : t.kbd = (s.env e).kbd &&& 0x7f#8 := by
    rw [a1] at hs
    rw [Option.some.inj hs.symm |>.symm]
    rfl
  rw [this, BitVec.getLsbD_and]
  exact Bool.and_false _

theorem end_live {e : Env} {T : Nat} (hT : e.key T ≠ none) (g : Nat) : ∀ {s : Mach}, Intact s.main → s.pc = 0xba67 →
    s.kbd.getLsbD 7 = true ∨ s.time ≤ T → T + 1 ≤ s.time + g → ∃ s', s.Reaches e s' ∧ s'.pc = 0xbaac ∧ Untouched s s' := by
  induction g using Nat.strongRecOn with
  | _ g ih =>
    intro s hi hp h1 h2
    obtain ⟨t1, t2, a1, a2, a3, a4, a5, a6, a7, a8, a9⟩ := end_step (e := e) hi hp
    have r2 : s.run e 2 = some t2 := one (one (n := 0) rfl a1) a2
    cases hk : (s.env e).kbd.getLsbD 7 with
    | true =>
      obtain ⟨t3, t4, b1, b2, b3, b4⟩ := a9 hk
      exact ⟨t4, ⟨_, one (one r2 b1) b2⟩, b4, soft_untouched ((a3.trans a4).trans b3)⟩
    | false =>
      have hb : ¬ s.kbd.getLsbD 7 = true := fun hc => by rw [env_kbd (.inl hc)] at hk; cases hk
      have hle : s.time ≤ T := h1.resolve_left hb
      have hne : s.time ≠ T := fun hc => by rw [env_kbd (.inr (by rw [hc]; exact hT))] at hk; cases hk
      have ht1 : t1.time = s.time + 1 := run_time 1 (one (n := 0) rfl a1)
      have ht : t2.time = s.time + 2 := run_time _ r2
      obtain ⟨s'', ⟨n, b1⟩, b2, b3⟩ := ih (g - 1) (by omega) (s := t2) (by rw [a4.main, a3.main]; exact hi) (a8 hk) (by
        by_cases hc : t2.time ≤ T
        · exact .inr hc
        · left
          rw [a6]
          exact env_kbd (.inr (by rw [ht1, show s.time + 1 = T by omega]; exact hT))) (by omega)
      exact ⟨s'', ⟨2 + n, by rw [run_add 2 r2]; exact b1⟩, b2, (soft_untouched (a3.trans a4)).trans b3⟩

/-- C59: at the end of the stream the player waits for a key; keys pressed earlier do not count.
The first one makes it enter the exit routine, with the memory, the switches and the speaker
untouched. -/
theorem C59_key {e : Env} {s : Mach} (hi : Intact s.main) (hp : s.pc = playerAddr .terminate) {T : Nat} (hT : s.time < T)
    (hk : e.key T ≠ none) : ∃ s', s.Reaches e s' ∧ s'.pc = sym .exit ∧ Untouched s s' := by
  obtain ⟨t, a1, a2, a3, -⟩ := end_first (e := e) hi hp
  have ht : t.time = s.time + 1 := run_time 1 (one (n := 0) rfl a1)
  obtain ⟨s', ⟨n, b1⟩, b2, b3⟩ := end_live hk (T + 1) (s := t) (by rw [a2.main]; exact hi) a3 (.inr (by omega)) (by omega)
  exact ⟨s', ⟨1 + n, by rw [run_add 1 (one (n := 0) rfl a1)]; exact b1⟩, b2, (soft_untouched a2).trans b3⟩

theorem end_waits {e : Env} (n : Nat) : ∀ {s : Mach}, Intact s.main → s.pc = 0xba67 → NoKeys e s →
    ∃ u, s.run e n = some u ∧ (u.pc = 0xba67 ∨ u.pc = 0xba6a) ∧ Untouched s u := by
  induction n using Nat.strongRecOn with
  | _ n ih =>
    intro s hi hp hk
    match n, ih with
    | 0, _ => exact ⟨s, rfl, .inl hp, rfl, rfl, rfl, rfl⟩
    | 1, _ =>
      obtain ⟨t1, t2, a1, a2, a3, a4, a5, a6, a7, a8, a9⟩ := end_step (e := e) hi hp
      exact ⟨t1, one (n := 0) rfl a1, .inr a7, soft_untouched a3⟩
    | n + 2, ih =>
      obtain ⟨t1, t2, a1, a2, a3, a4, a5, a6, a7, a8, a9⟩ := end_step (e := e) hi hp
      have r2 : s.run e 2 = some t2 := one (one (n := 0) rfl a1) a2
      obtain ⟨u, b1, b2, b3⟩ := ih n (by omega) (s := t2) (by rw [a4.main, a3.main]; exact hi) (a8 (by rw [nokeys_env hk]; exact hk.1))
        (nokeys_run 2 hk r2)
      exact ⟨u, by rw [Nat.add_comm, run_add 2 r2]; exact b1, b2, (soft_untouched (a3.trans a4)).trans b3⟩

/-- C59: as long as no key is pressed it waits there. -/
theorem C59_waits {e : Env} {s : Mach} (hi : Intact s.main) (hp : s.pc = playerAddr .terminate)
    (hk : ∀ t, s.time < t → e.key t = none) (n : Nat) :
    ∃ u, s.run e n = some u ∧ playerAddr .terminate ≤ u.pc ∧ u.pc < sym .exit ∧ Untouched s u := by
  obtain ⟨t, a1, a2, a3, a4⟩ := end_first (e := e) hi hp
  have ht : t.time = s.time + 1 := run_time 1 (one (n := 0) rfl a1)
  cases n with
  | zero => exact ⟨s, rfl, Nat.le_of_eq hp.symm, by rw [hp]; decide, rfl, rfl, rfl, rfl⟩
  | succ n =>
    obtain ⟨u, b1, b2, b3⟩ := end_waits n (s := t) (by rw [a2.main]; exact hi) a3 ⟨a4, fun q hq => hk q (by omega)⟩
    refine ⟨u, by rw [run_succ, a1]; exact b1, ?_, ?_, (soft_untouched a2).trans b3⟩
    · show 0xba64 ≤ _; omega
    · show _ < 0xbaac; omega

/-- C59: the exit routine makes the check byte of the reset vector wrong, so that the next RESET
restarts the machine instead of entering a player that is no longer there, and calls QUIT (call
$65) of ProDOS with the parameters it asks for: four of them, all zero. -/
theorem C59_exit {e : Env} {s : Mach} (hi : Intact s.main) (hp : s.pc = sym .exit) (hv : ResetVector s) :
    ∃ s', s.step e = some s' ∧ s'.main 0x3f4 ≠ s'.main 0x3f3 ^^^ 0xa5#8 ∧
      s'.CallsProDOS 0x65#8 [4#8, 0#8, 0#8, 0#8, 0#8, 0#8, 0#8] ∧ (∀ q, q ≠ 0x3f4 → s'.main q = s.main q) := by
  have hp' : s.pc = 0xbaac := hp
  have hs := step_code (e := e) (codeOk_of_intact hi) (fun h => by cases h)
    (show symFetch false s.pc = some (.incA 0x3f4) by rw [hp']; decide +kernel)
  have hst : ∀ (t : Mach), t.steered 0x3f4 = false := fun t => by
    unfold Mach.steered
    rw [show (decide (0x400 ≤ 0x3f4) && decide (0x3f4 < 0x800)) = false by decide,
      show decide (0x2000 ≤ 0x3f4) = false by decide]
    simp
  have hx : ∀ (t : Mach), t.exec e (.incA 0x3f4) =
      some ({ t with main := fun q => if q = 0x3f4 then t.main 0x3f4 + 1#8 else t.main q }.setNZ (t.main 0x3f4 + 1#8)) := by
    intro t
    have h1 : t.read 0x3f4 = some (t.main 0x3f4, t) := by
      unfold Mach.read Mach.ram
      rw [if_pos (by decide), hst]
      rfl
    have h2 : ∀ v, t.write 0x3f4 v = some { t with main := fun q => if q = 0x3f4 then v else t.main q } := by
      intro v
      unfold Mach.write Mach.store
      rw [if_pos (by decide), hst]
      rfl
    have g : ∀ q, t.exec e (.incA q) = (t.read q).bind fun r => (r.2.write q (r.1 + 1#8)).map fun s => s.setNZ (r.1 + 1#8) := fun _ => rfl
    rw [g, h1, Option.bind_some, h2]
    rfl
  rw [hx] at hs
  refine ⟨_, hs, ?_, ?_, ?_⟩
  · show s.main 0x3f4 + 1#8 ≠ s.main 0x3f3 ^^^ 0xa5#8
    rw [← hv.2.2]
    generalize s.main 0x3f4 = v
    intro h
    have := congrArg BitVec.toNat h
    rw [BitVec.toNat_add] at this
    have h2 := v.isLt
    simp at this
    omega
  · generalize hs' : Mach.setNZ _ _ = s'
    have hpc : s'.pc = 0xbaaf := by rw [← hs']; show s.pc + 3 = _; rw [hp']
    have hm : ∀ q, q ≠ 0x3f4 → s'.main q = s.main q := by
      intro q hq; rw [← hs']; exact if_neg hq
    clear hs'
    have get : ∀ q b, 0x4000 ≤ q → codeByte false q = some b → s'.ram q = BitVec.ofNat 8 b := by
      intro q b hq h
      have : s'.steered q = false := by
        unfold Mach.steered
        rw [decide_eq_false (p := q < 0x800) (by omega), decide_eq_false (p := q < 0x4000) (by omega)]
        simp
      unfold Mach.ram
      rw [this, hm q (by omega)]
      exact codeOk_of_intact hi q b h
    have bytes : ∀ (n q : Nat) (l : List Nat), 0x4000 ≤ q → (∀ i : Fin n, codeByte false (q + i.val) = some (l.getD i.val 0)) →
        s'.bytesAt q n = (List.range n).map fun i => BitVec.ofNat 8 (l.getD i 0) := by
      intro n q l hq h
      unfold Mach.bytesAt
      refine List.map_congr_left fun i hi => ?_
      rw [List.mem_range] at hi
      exact get _ _ (by omega) (h ⟨i, hi⟩)
    refine ⟨0xb5#8, 0xba#8, ?_, ?_⟩
    · rw [hpc, bytes 6 0xbaaf [0x20, 0, 0xbf, 0x65, 0xb5, 0xba] (by decide) (by decide +kernel)]
      decide
    · rw [show (0xb5#8).toNat + 256 * (0xba#8).toNat = 0xbab5 by decide]
      exact (bytes 7 0xbab5 [4, 0, 0, 0, 0, 0, 0] (by decide) (by decide +kernel)).trans (by decide)
  · intro q hq
    exact if_neg hq

/-! ### C41, from the start -/

/-- C41: the same from the first instruction of the player: the program is loaded and entered at
$800, with the card in any state, the network answers and delivers, the server does not hang up
early, and nobody touches the keyboard, or every pause is ended by another key.  Then the whole file is played, as in `C41_end_to_end`. -/
theorem C41_from_start {M : Movie} {A : List Int} {F : List Frame} (hin : MovieInput M A F) (ha : M.addr = playerAddr)
    {tape : Nat → Nat} {ops : List Opcode} {bytes : List Nat} (h : M.stream tape A F = .ok (ops, bytes))
    {e : Env} (hfile : e.file = bytes.map (BitVec.ofNat 8)) (hD : e.Delivers) (hA : e.Answers) (hR : e.NeverRefuses)
    (hO : e.StaysOpen ∨ 8192 < e.file.length)
    {s : Mach} (hs : Started s) (hw : s.w.works = true) (hk : PausesEnd e s) :
    ∃ body s1 s2 calls enc steps, ops = .header M.mode :: body ++ [.terminate] ∧
      s.Reaches e s1 ∧ s1.sw = Switches.For M.mode s.sw ∧ Executes e s1 body s2 ∧ s2.pc = playerAddr .terminate ∧
      Legal M.mode calls ∧ runNew M.mode M.table tape calls = .ok (enc, steps) ∧
      steps.length = (ticksOf false body).length ∧
      (∀ (i : Nat) (x : Played) (st : Step), (ticksOf false body)[i]? = some x → steps[i]? = some st →
        x.bank = st.isAux ∧ x.page = st.op.page ∧ x.content = st.op.content ∧ x.offsets = st.op.offsets ∧
        ∃ f, F[shown M.everyN (fetched M.thr (i + 1))]? = some f ∧ M.bitmapOf f = .ok st.target) ∧
      (∀ i, i < steps.length → ∃ a u u' done todo, A[i]? = some a ∧ s1.Reaches e u ∧ u.Reaches e u' ∧ u'.Reaches e s2 ∧
        body = done ++ todo ∧ (ticksOf false done).length = i + 1 ∧ Executes e s1 done u' ∧
        u'.cycles = u.cycles + 73 ∧ u'.clicks = u.clicks ++ [u.cycles + 4, u.cycles + 4 + pulseWidth (2 * a + 34).toNat] ∧
        ∀ b, (M.mode = .HGR → b = false) → u'.screen b = bankOf (play blank (steps.take (i + 1))) b) ∧
      (∀ b, (M.mode = .HGR → b = false) →
        s2.screen b = bankOf (play blank steps) b ∧
        (∀ p o, (p, o) ≠ (0, 0) → s2.screen b p o = enc.v.pixelmap.bank b p o) ∧
        (M.mode = .DHGR → DiagOnly dhgr M.table → s2.screen b = enc.v.pixelmap.bank b)) := by
  obtain ⟨t, ⟨n, b1⟩, b2, -, -, b5, -⟩ := C58_connects hs hw hA hR hO
  obtain ⟨body, s1, s2, calls, enc, steps, c1, ⟨m, c2⟩, c3, c4⟩ := C41_end_to_end hin ha h hfile hD b2
    (hk.imp (fun hk => nokeys_run n hk b1) fun hk s' ⟨m, hm⟩ => hk s' ⟨n + m, by rw [run_add n b1]; exact hm⟩)
  refine ⟨body, s1, s2, calls, enc, steps, c1, ⟨n + m, by rw [run_add n b1]; exact c2⟩, ?_, c4⟩
  rw [c3, b5]

/-! ### The hypotheses can be met -/

/-- A card in some state nobody has prepared. -/
def coldChip (works : Bool) : W5100 :=
  { sampleChip [] 0 0x1234 with mode := 0x55#8, works := works, rd := 77, freed := 5, sr := 0x99#8 }

theorem sample_started (works : Bool) : Started (sampleMach 0x800 (coldChip works)) := ⟨rfl, loadedMem_loaded, rfl, rfl⟩

/-- A network that answers as given. -/
def linkEnv (file : List U8) (d : Nat → Nat) (link : Nat → Option U8) : Env := { sampleEnv file d with link := link }

/-- A network that accepts every tenth instruction, a network that refuses, and a card that does
not work. -/
example (file : List U8) :
    (∃ s', (sampleMach 0x800 (coldChip true)).Reaches (linkEnv file (fun _ => 1) fun t => if t % 10 = 0 then some stEstablished else none) s' ∧
      Connected (linkEnv file (fun _ => 1) fun t => if t % 10 = 0 then some stEstablished else none) s' ∧ Configured s'.w) ∧
    (∃ s', (sampleMach 0x800 (coldChip true)).Reaches (linkEnv file (fun _ => 1) fun _ => some stClosed) s' ∧ s'.AtBrk) ∧
    (∃ s', (sampleMach 0x800 (coldChip false)).Reaches (linkEnv file (fun _ => 1) fun _ => none) s' ∧
      s'.out = appleText "UTHERNET II: COULD NOT OPEN SOCKET!\r") := by
  refine ⟨?_, ?_, ?_⟩
  · obtain ⟨s', h1, h2, h3, -⟩ := C58_connects (sample_started true) rfl
      (e := linkEnv file (fun _ => 1) fun t => if t % 10 = 0 then some stEstablished else none)
      (fun t => ⟨10 * t, by omega, .inl (if_pos (by omega))⟩)
      (fun t => by show (if t % 10 = 0 then some stEstablished else none) ≠ _; split <;> decide)
      (.inl fun t => by show (if t % 10 = 0 then some stEstablished else none) ≠ _; split <;> decide)
    exact ⟨s', h1, h2, h3⟩
  · obtain ⟨s', h1, h2, -⟩ := C58_refused (sample_started true) rfl (e := linkEnv file (fun _ => 1) fun _ => some stClosed)
      (fun t => ⟨t, Nat.le_refl _, .inr rfl⟩) (fun t => by show some stClosed ≠ some stEstablished; decide)
    exact ⟨s', h1, h2⟩
  · rcases C58_outcomes (sample_started false) (linkEnv file (fun _ => 1) fun _ => none) with ⟨h, -⟩ | ⟨-, s', h1, -, -, h4⟩
    · cases h
    · exact ⟨s', h1, h4⟩

/-- A short file and a server in a hurry. -/
example : ∃ s', (sampleMach 0x800 (coldChip true)).Reaches
      (linkEnv [1#8, 2#8] (fun _ => 5000) fun t => if t ≤ 128 then some stEstablished else some stCloseWait) s' ∧
    WaitsForever (linkEnv [1#8, 2#8] (fun _ => 5000) fun t => if t ≤ 128 then some stEstablished else some stCloseWait) s' := by
  obtain ⟨s', h1, -, h2⟩ := C58_missed (sample_started true) rfl
    (e := linkEnv [1#8, 2#8] (fun _ => 5000) fun t => if t ≤ 128 then some stEstablished else some stCloseWait)
    (by decide) rfl (by decide) rfl
  exact ⟨s', h1, h2⟩

/-- Leaving the player: a key at any time after the end. -/
example (w : W5100) (e : Env) (h : e.key 5 ≠ none) : ∃ s', (sampleMach 0xba64 w).Reaches e s' ∧ s'.pc = 0xbaac := by
  obtain ⟨s', h1, h2, -⟩ := C59_key (e := e) (s := sampleMach 0xba64 w) (fun seg hs _ i b hb _ => loadedMem_loaded seg hs i b hb) rfl
    (show 0 < 5 by decide) h
  exact ⟨s', h1, h2⟩

/-- The reset vector set by the player satisfies the hypothesis of C59. -/
example (e : Env) : ∃ s', ({ sampleMach 0xbaac (coldChip true) with
      main := fun q => if q = 0x3f2 then 0xac#8 else if q = 0x3f3 then 0xba#8 else if q = 0x3f4 then 0x1f#8 else loadedMem q } : Mach).step e = some s' ∧
    s'.main 0x3f4 ≠ s'.main 0x3f3 ^^^ 0xa5#8 ∧ s'.CallsProDOS 0x65#8 [4#8, 0#8, 0#8, 0#8, 0#8, 0#8, 0#8] := by
  have hv : ResetVector { sampleMach 0xbaac (coldChip true) with
      main := fun q => if q = 0x3f2 then 0xac#8 else if q = 0x3f3 then 0xba#8 else if q = 0x3f4 then 0x1f#8 else loadedMem q } :=
    ⟨rfl, rfl, rfl⟩
  obtain ⟨s', h1, h2, h3, -⟩ := C59_exit (e := e) (fun seg hs hn i b hb hp => by
    have := segment_range hs hb
    show (if _ = 0x3f2 then _ else if _ = 0x3f3 then _ else if _ = 0x3f4 then _ else loadedMem _) = _
    rw [if_neg (by omega), if_neg (by omega), if_neg (by omega)]
    exact loadedMem_loaded seg hs i b hb) rfl hv
  exact ⟨s', h1, h2, h3⟩

end IIVision.Player
