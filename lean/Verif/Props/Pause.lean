import Verif.Props.Connect

/-! Pausing with the keyboard (player/main.s:425-434). -/

namespace IIVision.Player

open Spec

/-! ### The keyboard latch -/

/-- Before it exits, the player clears the keyboard latch at four places only. -/
theorem phase_kept {e : Env} (n : Nat) : ∀ {s : Mach} {r : Nat}, Phase e s r → ∀ t u, s.run e n = some t → t.step e = some u →
    (∀ i v, i ≤ n → s.run e i = some v → v.pc ≠ 0xbaac) → u.kbd = (t.env e).kbd ∨ StrobeAt t.pc := by
  induction n using Nat.strongRecOn with
  | _ n ih =>
    intro s r h t u h1 h2 h3
    rcases phase_hop h with hx | ⟨m, k, s', a0, a1, a2⟩
    · exact absurd hx (h3 0 s (Nat.zero_le _) rfl)
    · by_cases hn : n < m
      · exact a1.kept n t u hn h1 h2
      · refine ih (n - m) (by omega) a2 t u ?_ h2 fun i v hi hv => h3 (m + i) v (by omega) ?_
        · rw [← h1, ← run_add m a1.run, show m + (n - m) = n by omega]
        · rw [run_add m a1.run]; exact hv

/-- C66: from the first opcode on, until it exits, the player takes no notice of the keyboard but at the end of a
block and at the end of the stream.  A key struck before the `j`-th instruction still waits
before the `n`-th, unless one of the instructions in between was the strobe access with which the
player goes into the pause (`recv0`), leaves it (`recv1`), begins or ends waiting for a key at
TERMINATE. -/
theorem C66_latched {e : Env} (hD : e.Delivers) {s : Mach} {mode : VideoMode} {body : List Opcode} (hc : Connected e s)
    (hp : Playable e.file mode body) (hk : PausesEnd e s) :
    ∃ s1, s.Reaches e s1 ∧ s1.pc = 256 * (e.byte 7).toNat + (e.byte 8).toNat ∧ ∀ n t, s1.run e n = some t →
      (∀ i u, i < n → s1.run e i = some u → u.pc ≠ sym .exit) → ∀ j, j < n → e.key (s1.time + j) ≠ none →
      t.kbd.getLsbD 7 = true ∨ ∃ i u, j ≤ i ∧ i < n ∧ s1.run e i = some u ∧
        u.pc ∈ [sym .recv0 + 5, sym .recv1 + 5, playerAddr .terminate, playerAddr .terminate + 8] := by
  rcases start_live hD hc hp with ⟨n1, s1, a1, a2, -⟩ | ⟨n, s', a1, a2, a3⟩
  · refine ⟨s1, ⟨_, a1.run⟩, a2.pc, ?_⟩
    intro n
    induction n with
    | zero => intro t _ _ j hj; omega
    | succ n ih =>
      intro t ht hx j hj hkey
      obtain ⟨v, hv, hvt⟩ : ∃ v, s1.run e n = some v ∧ v.step e = some t := by
        rcases phase_safe n (.op a2) with ⟨v, b1, -⟩ | ⟨m, v, b0, b1, -, b3⟩
        · rw [run_add n b1] at ht
          rw [run_succ] at ht
          obtain ⟨w, hw, hw'⟩ := Option.bind_eq_some_iff.mp ht
          cases hw'
          exact ⟨v, b1, hw⟩
        · exact absurd b3 (hx m v (by omega) b1)
      have old : v.kbd.getLsbD 7 = true ∨ e.key v.time ≠ none ∨ ∃ i u, j ≤ i ∧ i < n ∧ s1.run e i = some u ∧
          u.pc ∈ [sym .recv0 + 5, sym .recv1 + 5, playerAddr .terminate, playerAddr .terminate + 8] := by
        by_cases hjn : j < n
        · rcases ih v hv (fun i u hi hu => hx i u (by omega) hu) j hjn hkey with h | h
          · exact .inl h
          · exact .inr (.inr h)
        · right; left
          rw [run_time n hv, show n = j by omega]
          exact hkey
      have wait : v.kbd.getLsbD 7 = true ∨ e.key v.time ≠ none → t.kbd.getLsbD 7 = true ∨ ∃ i u, j ≤ i ∧ i < n + 1 ∧ s1.run e i = some u ∧
          u.pc ∈ [sym .recv0 + 5, sym .recv1 + 5, playerAddr .terminate, playerAddr .terminate + 8] := by
        intro hw
        rcases phase_kept n (.op a2) v t hv hvt (fun i u hi hu => hx i u (by omega) hu) with h | h
        · left
          rw [h]
          exact env_kbd hw
        · refine .inr ⟨n, v, by omega, by omega, hv, ?_⟩
          rcases h with h | h | h | h <;> rw [h] <;> decide
      rcases old with h | h | ⟨i, u, h1, h2, h3, h4⟩
      · exact wait (.inl h)
      · exact wait (.inr h)
      · exact .inr ⟨i, u, h1, by omega, h3, h4⟩
  · exact hk.elim (fun hk => absurd hk a3) fun hk => absurd a2 (hk s' ⟨_, a1.run⟩)

/-! ### Stopping, waiting, going on -/

theorem kbd_clear (k : U8) : (k &&& 0x7f#8).getLsbD 7 = false := by
  revert k; decide +kernel

/-- The strobe clears the latch, even for a key that comes at that moment. -/
theorem strobe_clears {e : Env} {s s' : Mach} (hc : CodeOk false s.main) (hf : symFetch false s.pc = some (.bitA 0xc010))
    (hs : s.step e = some s') : s'.kbd.getLsbD 7 = false := by
  rw [step_code hc (fun h => by cases h) hf] at hs
  cases hs
  exact kbd_clear _

theorem run_one {e : Env} {s t u : Mach} {n : Nat} (h1 : s.run e n = some t) (h2 : t.step e = some u) : s.run e (n + 1) = some u := by
  rw [run_add n h1, run_succ, h2]; rfl

/-- The player is stopped, waiting for the key that makes it go on. -/
theorem lined_stop {e : Env} {s : Mach} {r : Nat} (h : Lined e s r 0x4051) (hk : (s.env e).kbd.getLsbD 7 = true) :
    ∃ s', s.run e 3 = some s' ∧ Soft e s s' ∧ Lined e s' r 0x4059 ∧ s'.kbd.getLsbD 7 = false := by
  have hc := lined_code h
  obtain ⟨t1, a1, a2, a3, a4, a5, a6, a7⟩ := step_kbd (e := e) hc (fun h => by cases h) (by rw [h.pc]; decide +kernel)
  rw [h.pc] at a4
  have l1 := lined_soft h a2 a3 a4
  obtain ⟨t2, b1, b2, b3, b6, b4, b5⟩ := step_bpl (e := e) (d := 11) (lined_code l1) (fun h => by cases h)
    (by rw [a4]; decide +kernel)
  rw [a4, a6] at b5
  obtain ⟨c1, -⟩ := b5 hk
  have l2 := lined_soft l1 b2 b3 c1
  have hf : symFetch false t2.pc = some (.bitA 0xc010) := by rw [c1]; decide +kernel
  obtain ⟨t3, d1, d2, d3, d4, -⟩ := step_strobe (e := e) (lined_code l2) (fun h => by cases h) hf
  rw [c1] at d4
  exact ⟨t3, run_one (run_one (run_one (n := 0) rfl a1) b1) d1, (a2.trans b2).trans d2, lined_soft l2 d2 d3 d4, strobe_clears (lined_code l2) hf d1⟩

/-- As long as no key comes it stays so. -/
theorem pause_waits {e : Env} {r : Nat} (n : Nat) : ∀ {s : Mach}, Lined e s r 0x4059 → s.kbd.getLsbD 7 = false →
    (∀ j, j < n → e.key (s.time + j) = none) →
    ∃ u, s.run e n = some u ∧ (u.pc = 0x4059 ∨ u.pc = 0x405c) ∧ Soft e s u := by
  induction n using Nat.strongRecOn with
  | _ n ih =>
    intro s h hb hk
    match n, ih, hk with
    | 0, _, _ => exact ⟨s, rfl, .inl h.pc, ⟨rfl, rfl, rfl, rfl, rfl, rfl, rfl, rfl, rfl, Nat.le_refl _, fun r h => h⟩⟩
    | n + 1, ih, hk =>
      obtain ⟨t1, a1, a2, a3, a4, a5, a6, a7⟩ := step_kbd (e := e) (lined_code h) (fun h => by cases h) (by rw [h.pc]; decide +kernel)
      rw [h.pc] at a4
      match n, ih, hk with
      | 0, _, _ => exact ⟨t1, run_one (n := 0) rfl a1, .inr a4, a2⟩
      | n + 1, ih, hk =>
        have l1 := lined_soft h a2 a3 a4
        obtain ⟨t2, b1, b2, b3, b6, b4, b5⟩ := step_bpl (e := e) (d := 251) (lined_code l1) (fun h => by cases h)
          (by rw [a4]; decide +kernel)
        have k0 : (s.env e).kbd = s.kbd := by
          show (match e.key s.time with | some k => k ||| 0x80#8 | none => s.kbd) = _
          rw [show e.key s.time = none from hk 0 (by omega)]
        have k1 : (t1.env e).kbd = t1.kbd := by
          show (match e.key t1.time with | some k => k ||| 0x80#8 | none => t1.kbd) = _
          rw [show t1.time = s.time + 1 from run_time 1 (run_one (n := 0) rfl a1), hk 1 (by omega)]
        rw [a4, a6, k0] at b4
        obtain ⟨c1, -⟩ := b4 hb
        have hr := run_one (run_one (n := 0) rfl a1) b1
        have ht : t2.time = s.time + 2 := run_time 2 hr
        obtain ⟨u, d1, d2, d3⟩ := ih n (by omega) (lined_soft l1 b2 b3 c1) (by rw [b6, k1, a7, k0]; exact hb)
          (fun j hj => by rw [ht, show s.time + 2 + j = s.time + (j + 2) by omega]; exact hk (j + 2) (by omega))
        refine ⟨u, ?_, d2, (a2.trans b2).trans d3⟩
        rw [show n + 1 + 1 = 2 + n by omega, run_add 2 hr]
        exact d1

/-- A key makes it go on. -/
theorem pause_ends {e : Env} {r : Nat} {T : Nat} (hT : e.key T ≠ none) (g : Nat) : ∀ {s : Mach}, Lined e s r 0x4059 →
    s.kbd.getLsbD 7 = true ∨ s.time ≤ T → T + 1 ≤ s.time + g → ∃ n s', Hop e s r n 0 s' ∧ Soft e s s' ∧ Lined e s' r 0x4061 := by
  induction g using Nat.strongRecOn with
  | _ g ih =>
    intro s h h1 h2
    cases hk : (s.env e).kbd.getLsbD 7 with
    | true =>
      obtain ⟨s', a1, a2, a3⟩ := (lined_pause h).1 hk
      exact ⟨_, s', a1, a2, a3⟩
    | false =>
      have hb : ¬ s.kbd.getLsbD 7 = true := fun hc => by rw [env_kbd (.inl hc)] at hk; cases hk
      have hle : s.time ≤ T := h1.resolve_left hb
      have hne : s.time ≠ T := fun hc => by rw [env_kbd (.inr (by rw [hc]; exact hT))] at hk; cases hk
      obtain ⟨t, s', a1, a2, a3, a4, a5, a6, a7⟩ := (lined_pause h).2 hk
      obtain ⟨n, s'', b1, b2, b3⟩ := ih (g - 1) (by omega) a3 (by
        by_cases hc : s'.time ≤ T
        · exact .inr hc
        · left
          rw [a6]
          exact env_kbd (.inr (by rw [a5, show s.time + 1 = T by omega]; exact hT))) (by omega)
      exact ⟨_, s'', a1.trans0 b1, a2.trans b2, b3⟩

/-- C66: the keyboard at the end of a block.  From an ACK at the end of a block that is not the
last of the file, over a network that delivers, the player comes to the look at the keyboard, the
bank having been selected and memory unchanged.  If no key waits it goes on with the next block.
If one does, three instructions later it is stopped, the key taken, and nothing else has happened.
It stays stopped, touching neither memory, switches nor speaker and reading nothing, as long as no
key is struck; the next key, whenever it comes, makes it go on with the next block exactly as if
it had not been stopped, the speaker toggled once (as always there). -/
theorem C66_pause {e : Env} (hD : e.Delivers) {s : Mach} {r : Nat} {a : Bool} (h : Playing e s r) (hpc : s.pc = playerAddr .ack)
    (hr : r % 2048 = 2046) (hf : s.w.freed + 2048 = r + 2) (hn : r + 2 + 2048 ≤ e.file.length)
    (hb : e.byte r = if a then 0x55#8 else 0x54#8) :
    ∃ u, s.Reaches e u ∧ u.pc = sym .recv0 ∧ SameMemory u s ∧ u.sw = { s.sw with page2 := a } ∧
      u.w.log = s.w.log ++ (e.file.drop r).take 2 ∧
      (¬ KeyWaits e u → ∃ v, u.Reaches e v ∧ NextBlock e s r a v) ∧
      (KeyWaits e u → ∃ p, u.run e 3 = some p ∧ p.pc = sym .recv1 ∧ p.kbd.getLsbD 7 = false ∧ Untouched u p ∧ p.w.log = u.w.log ∧
        (∀ n, (∀ j, j < n → e.key (p.time + j) = none) → ∃ q, p.run e n = some q ∧
          (q.pc = sym .recv1 ∨ q.pc = sym .recv1 + 3) ∧ Untouched p q ∧ q.w.log = p.w.log) ∧
        (∀ T, p.time ≤ T → e.key T ≠ none → ∃ v, p.Reaches e v ∧ NextBlock e s r a v ∧ ∃ c, v.clicks = p.clicks ++ [c])) := by
  have hl := h.ring.file
  have hbk := h.block
  obtain ⟨t0, a1, a2, a3, a4, a5, a6, a7, a8, a9⟩ := ack_hop h hpc hr (by omega) hf hb
  obtain ⟨n1, u, b1, b2, b3⟩ := wait_live hD 2048 a2 (by omega) (by have := a2.ring.ring.freed; omega)
  have hop := a1.trans b1
  have go : ∀ {p : Mach} {m : Nat}, Hop e u (r + 2) m 0 p → Soft e u p → Lined e p (r + 2) 0x4061 →
      ∃ v n, Hop e p (r + 2) n 2 v ∧ NextBlock e s r a v ∧ v.clicks = p.clicks ++ [p.cycles + 4] := by
    intro p m g1 g2 g3
    have g4 := g3.block
    have g5 : p.w.freed = r + 2 := by rw [g2.freed, b3.freed, a3]
    obtain ⟨v, d1, d2, d3, d4, d5, d6⟩ := lined_go g3 (by omega)
    have hop2 := hop.trans (g1.trans0 d1)
    have f3 : v.w.freed = s.w.freed + 2048 := by rw [d3.freed, g5]; omega
    refine ⟨v, _, d1, ⟨d4, d2, d3.mem.trans ((same_soft g2).trans (b3.mem.trans a4)), ?_, ?_, f3, ?_⟩, d6⟩
    · rw [d3.sw, g2.sw, b3.sw, a5]
    · rw [hop2.log, bytes_eq (by omega)]
    · rw [d2.rd, f3, h.rd]
      omega
  refine ⟨u, ⟨_, hop.run⟩, b2.pc, b3.mem.trans a4, by rw [b3.sw, a5], by rw [hop.log, bytes_eq (by omega)], ?_, ?_⟩
  · intro hk
    have hk0 : (u.env e).kbd.getLsbD 7 = false := by
      cases hx : (u.env e).kbd.getLsbD 7 with
      | false => rfl
      | true =>
        refine absurd ?_ hk
        unfold KeyWaits
        by_cases hkey : e.key u.time = none
        · left
          rw [← hx]
          show u.kbd.getLsbD 7 = (match e.key u.time with | some k => k ||| 0x80#8 | none => u.kbd).getLsbD 7
          rw [hkey]
        · exact .inr hkey
    obtain ⟨p, c1, c2, c3, -⟩ := (lined_kbd b2).1 hk0
    obtain ⟨v, n, d1, d2, -⟩ := go c1 c2 c3
    exact ⟨v, ⟨_, (c1.trans0 d1).run⟩, d2⟩
  · intro hk
    obtain ⟨p, c1, c2, c3, c4⟩ := lined_stop b2 (env_kbd hk)
    refine ⟨p, c1, c3.pc, c4, soft_untouched c2, c2.log, ?_, ?_⟩
    · intro n hn'
      obtain ⟨q, d1, d2, d3⟩ := pause_waits n c3 c4 hn'
      exact ⟨q, d1, d2, soft_untouched d3, d3.log⟩
    · intro T hT hkT
      obtain ⟨n, q, d1, d2, d3⟩ := pause_ends hkT (T + 1) c3 (.inr hT) (by omega)
      obtain ⟨p', g1, g2, g3⟩ := (lined_kbd b2).2 (env_kbd hk)
      have hpp : p' = p := by
        have := g1.run
        rw [c1] at this
        exact (Option.some.inj this).symm
      subst hpp
      obtain ⟨v, m, f1, f2, f3⟩ := go (g1.trans0 d1) (g2.trans d2) d3
      exact ⟨v, ⟨_, (d1.trans0 f1).run⟩, f2, _, by rw [f3, d2.clicks]⟩

/-! ### The hypotheses can be met -/

/-- Somebody strikes the space bar again and again, for ever: every pause ends. -/
theorem tapping_ends (e : Env) (h : e.key = fun t => if t % 1000 = 0 then some 0x20#8 else none) (s : Mach) : PausesEnd e s := by
  refine .inr fun s' _ hp => ?_
  have := hp.2.2 (1000 * (s'.time + 1)) (by omega)
  rw [h] at this
  dsimp only at this
  rw [if_pos (by omega)] at this
  cases this

/-- `C66_latched` with a key every thousand instructions. -/
example (file : List U8) (mode : VideoMode) (body : List Opcode) (e : Env) (he : e = { sampleEnv file (fun _ => 1) with
      key := fun t => if t % 1000 = 0 then some 0x20#8 else none }) (hp : Playable e.file mode body) :
    ∃ s1, (sampleMach (sym .waitReadHeader) (sampleChip e.file 0 0x403)).Reaches e s1 ∧
      s1.pc = 256 * (e.byte 7).toNat + (e.byte 8).toNat := by
  obtain ⟨s1, h1, h2, -⟩ := C66_latched (e := e) (fun t => ⟨t, Nat.le_refl _, by rw [he]; exact Nat.one_pos⟩) (sample_connected e) hp
    (tapping_ends e (by rw [he]) _)
  exact ⟨s1, h1, h2⟩

/-- A key at the end of a block stops the player; the next goes on. -/
example (file : List U8) (h : file.length = 8192) (h54 : file[2046]? = some 0x54#8) (key : Nat → Option U8) (h0 : ∀ t, t % 5000 = 0 → key t ≠ none) :
    ∃ u, (sampleMach (playerAddr .ack) (sampleChip file 8192 (0x6000 + 2046))).Reaches { sampleEnv file (fun _ => 1) with key := key } u ∧
      u.pc = 0x4051 ∧ (KeyWaits { sampleEnv file (fun _ => 1) with key := key } u →
        ∃ v, u.Reaches { sampleEnv file (fun _ => 1) with key := key } v ∧ Playing { sampleEnv file (fun _ => 1) with key := key } v 2050) := by
  have hq := sample_playing { sampleEnv file (fun _ => 1) with key := key } 2046 8192 (playerAddr .ack) (by decide) (by decide) (by decide) (Nat.le_of_eq h.symm)
  obtain ⟨u, a1, a2, -, -, -, -, a3⟩ := C66_pause (a := false) (e := { sampleEnv file (fun _ => 1) with key := key })
    (fun t => ⟨t, Nat.le_refl _, Nat.one_pos⟩) hq (by show 0xba72 = _; decide) (by decide) (by show (0 : Nat) + 2048 = 2046 + 2; decide) (by show 2046 + 2 + 2048 ≤ file.length; omega)
    (by show file.getD 2046 0#8 = 0x54#8; rw [List.getD_eq_getElem?_getD, h54]; rfl)
  refine ⟨u, a1, a2, fun hk => ?_⟩
  obtain ⟨p, b1, -, -, -, -, -, b2⟩ := a3 hk
  obtain ⟨v, ⟨n, c1⟩, c2, -⟩ := b2 (5000 * p.time) (by omega) (h0 _ (by omega))
  exact ⟨v, ⟨3 + n, by rw [run_add 3 b1]; exact c1⟩, c2.playing⟩

end IIVision.Player
