import Verif.Proofs.Timely
import Verif.Props.Tempo
import Verif.Props.Journey

/-! Claim C94: picture and sound together on the Apple II. -/

namespace IIVision
open Spec

/-- What `C41_from_start` says, and when: the `i`-th tick begins `tickStart i` cycles after the first opcode. -/
theorem Player.timed_from_start {M : Movie} {A : List Int} {F : List Frame} (hin : MovieInput M A F) (ha : M.addr = playerAddr)
    {tape : Nat → Nat} {ops : List Opcode} {bytes : List Nat} (h : M.stream tape A F = .ok (ops, bytes))
    {e : Player.Env} (hfile : e.file = bytes.map (BitVec.ofNat 8)) (hK : e.KeepsUp) (hA : e.Answers) (hR : e.NeverRefuses)
    (hO : e.StaysOpen ∨ 8192 < e.file.length)
    {s : Player.Mach} (hs : Player.Started s) (hw : s.w.works = true) (hk : Player.NoKeys e s) :
    ∃ body s1 s2 calls enc steps, ops = .header M.mode :: body ++ [.terminate] ∧
      s.Reaches e s1 ∧ s1.sw = Player.Switches.For M.mode s.sw ∧ Player.Executes e s1 body s2 ∧ s2.pc = playerAddr .terminate ∧
      s2.cycles = s1.cycles + Player.duration body ∧
      Legal M.mode calls ∧ runNew M.mode M.table tape calls = .ok (enc, steps) ∧
      steps.length = (ticksOf false body).length ∧
      (∀ (i : Nat) (x : Played) (st : Step), (ticksOf false body)[i]? = some x → steps[i]? = some st →
        x.bank = st.isAux ∧ x.page = st.op.page ∧ x.content = st.op.content ∧ x.offsets = st.op.offsets) ∧
      ∀ (i : Nat) (st : Step), steps[i]? = some st → ∃ a u u' done todo, A[i]? = some a ∧ s1.Reaches e u ∧ u.Reaches e u' ∧ u'.Reaches e s2 ∧
        body = done ++ todo ∧ (ticksOf false done).length = i + 1 ∧ Player.Executes e s1 done u' ∧
        u.cycles = s1.cycles + Player.tickStart i ∧
        u'.cycles = u.cycles + 73 ∧ u'.clicks = u.clicks ++ [u.cycles + 4, u.cycles + 4 + Player.pulseWidth (2 * a + 34).toNat] ∧
        (∀ b, (M.mode = .HGR → b = false) → u'.screen b = bankOf (play blank (steps.take (i + 1))) b) ∧
        ∃ f, F[shown M.everyN (fetched M.thr (i + 1))]? = some f ∧ M.bitmapOf f = .ok st.target := by
  obtain ⟨t0, ⟨n0, g1⟩, hc, -, -, g5, -⟩ := Player.C58_connects hs hw hA hR hO
  have hk0 := Player.nokeys_run n0 hk g1
  obtain ⟨body, hb, hp, hacks⟩ := Player.playable_of_stream hin ha h
  rw [← hfile] at hp
  obtain ⟨body', bytes', calls, enc, steps, m1, m2, m3, m4, m5, m6, m7, m8⟩ := movie_facts M A F hin tape
  have hbody : body' = body := by
    rw [h] at m1
    have := congrArg Prod.fst (Except.ok.inj m1)
    dsimp only at this
    rw [hb] at this
    simpa using this.symm
  subst hbody
  rcases Player.start_live (Player.keepsUp_delivers hK) hc hp with ⟨n1, s1, a1, a2, a3, a4, a5⟩ | ⟨n, s', -, -, a3⟩
  swap
  · exact absurd hk0 a3
  obtain ⟨P', s2, b1, b2⟩ := Player.timely hK body' a2 (Player.paced_start a2 (by decide)) (Player.nokeys_run _ hk0 a1.run)
  have hpage : s1.sw.page2 = false := by
    rw [a3]; cases M.mode <;> rfl
  have hscr : ∀ (n : Nat) (u : Player.Mach) (ops1 ops2 : List Opcode), body' = ops1 ++ ops2 → Player.Executes e s1 ops1 u →
      ticksOf false ops1 = (ticksOf false body').take n → u.screens = play s1.screens (steps.take n) := by
    intro n u ops1 ops2 hops hex htk
    rw [Player.executes_screens hex, hpage, htk]
    · refine foldl_rel _ _ _ (by simp [m4]) ?_
      intro i x y hx hy m
      obtain ⟨-, -, -, -, q1, q2, q3, q4, -⟩ := m8 i x y (Player.take_get hx) (Player.take_get hy)
      unfold playTick playOp VideoOp.pageIx
      rw [q1, q2, q3, q4]
    · cases hm : M.mode with
      | DHGR => left; rw [a3, hm]; exact ⟨rfl, rfl⟩
      | HGR => right; exact ⟨hpage, fun a ha => hacks hm a (by rw [hops]; exact List.mem_append_left _ ha)⟩
  have key : ∀ (n : Nat) (u : Player.Mach), u.screens = play s1.screens (steps.take n) → ∀ b, (M.mode = .HGR → b = false) →
      u.screen b = bankOf (play blank (steps.take n)) b := by
    intro n u hu b hmb
    have e1 : u.screen b = bankOf u.screens b := by cases b <;> rfl
    rw [e1, hu]
    refine Player.bankOf_play_congr b _ _ _ (Player.screens_cleared b ?_)
    cases b with
    | false => exact a4
    | true =>
      apply a5
      cases hm : M.mode with
      | DHGR => rfl
      | HGR => exact absurd (hmb hm) (by decide)
  refine ⟨body', s1, s2, calls, enc, steps, hb, Player.reaches_trans ⟨n0, g1⟩ ⟨_, a1.run⟩, by rw [a3, g5], b1.executes, (Player.op_terminate b2).1, b1.cycles,
    m2, m3, m4.symm, fun i x st hx hst => ?_, ?_⟩
  · obtain ⟨-, -, -, -, q1, q2, q3, q4, -⟩ := m8 i x st hx hst
    exact ⟨q1, q2, q3, q4⟩
  intro i st hst
  have hi : i < steps.length := (List.getElem?_eq_some_iff.1 hst).1
  obtain ⟨pre, t, p, c, os, post, e1, e2, e3, -⟩ := Player.movie_tick hin (by rw [h, hb]) (i := i) (by omega)
  have hone : ∀ l : List Opcode, pre ++ Opcode.tick t p c os :: l = (pre ++ [.tick t p c os]) ++ l := fun l => by simp
  obtain ⟨u, d1, d2⟩ := Player.Timely.split (e1 ▸ b1)
  cases d2 with
  | @cons _ u' _ _ _ f1 f2 f3 =>
  have hx : ∃ y, (ticksOf false body')[i]? = some ⟨4 + 2 * t.val, 32 + p.val, c, os, y⟩ := by
    obtain ⟨y, hy⟩ := Player.ticksOf_append pre (.tick t p c os :: post) false
    refine ⟨y, ?_⟩
    rw [e1, hy, List.getElem?_append_right (by omega), e2, Nat.sub_self]
    rfl
  obtain ⟨y, hx⟩ := hx
  obtain ⟨-, -, q0, -, -, -, -, -, au, q1, q2⟩ := m8 i _ _ hx hst
  have hd : (ticksOf false (pre ++ [Opcode.tick t p c os])).length = i + 1 := by
    obtain ⟨y, hy⟩ := Player.ticksOf_append pre [.tick t p c os] false
    rw [hy, List.length_append, e2]
    rfl
  have hdone : Player.Executes e s1 (pre ++ [.tick t p c os]) u' := by
    exact (d1.append (.cons f1 f2 (.nil _))).executes
  refine ⟨au, u, u', pre ++ [.tick t p c os], post, q1, Player.executes_reaches d1.executes, Player.executes_reaches f1, Player.executes_reaches f3.executes,
    by rw [e1, hone], hd, hdone, by rw [d1.cycles, e3], f2, ?_, key _ _ (hscr _ u' _ post (by rw [e1, hone]) hdone ?_), q0⟩
  · cases f1 with
    | tick _ _ _ g _ _ r =>
      cases r
      rw [g, ← q2]
      rfl
  · rw [e1, hone post]
    exact Player.ticksOf_take hd

/-- The end of the `i`-th tick in seconds. -/
theorem tickEnd_time {f : Rat} (hf : 0 < f) {b : Nat} (hb : 0 < b) (i : Nat) :
    slowdown f b * soundTime b (i + 1) - 146 / f ≤ ((Player.tickStart i + 73 : Nat) : Rat) / f ∧
      ((Player.tickStart i + 73 : Nat) : Rat) / f ≤ slowdown f b * soundTime b (i + 1) + 146 / f := by
  have hb' : (b : Rat) ≠ 0 := by exact_mod_cast hb.ne'
  have e : slowdown f b * soundTime b (i + 1) = (73 * 294 * (i + 1) / 292) / f := by
    unfold slowdown playRate soundTime
    push_cast
    field_simp
  obtain ⟨h1, h2⟩ := Player.C53_rate i
  have h1' : (73 * 294 * i : Rat) ≤ 292 * (Player.tickStart i + 145) := by exact_mod_cast h1
  have h2' : (292 * Player.tickStart i : Rat) ≤ 73 * 294 * i + 292 := by exact_mod_cast h2
  rw [e, ← sub_div, ← add_div, div_le_div_iff_of_pos_right hf, div_le_div_iff_of_pos_right hf]
  push_cast
  constructor <;> linarith

/-- **C94.** The whole way (C81) on a machine with `f` cycles per second, over a network that keeps up and with nobody touching the keyboard: sound and picture are slowed down alike.
The pulse for the `i`-th sample begins `slowdown` times as late as the sample comes in the sound (and 4 cycles), to 145 cycles.  When the tick ends, `T` seconds after the
first opcode, what is on the screen has been made by the first `i + 1` operations of a legal history of the encoder, and the picture that the last of them is for is one of the video, converted as bmp2dhr does it
(or read from results that were there before): the `j`-th frame read, where the time of that frame, slowed down as much, has come, and that of the next one has not, to 146 cycles and one part in 2^49. -/
theorem C94_together {H : Host} {argv : List Text} {fs : FS} {c : Command} {norm : Flt} {tpf : Rat} (h : Starts H argv c norm tpf)
    (hs : Smooth H c norm fs) (hf : Separate H c) (ha : H.addr = playerAddr)
    {conv : List U8 → List U8 × List U8} (hconv : Converts (hostGrabber H c) conv)
    (hdbl : Double H.double) {n d b : Nat} (hrate : H.rate = .ok (decText n ++ txt "/" ++ decText d)) (hbit : c.bitrate = b) (hg : GoodRates n d b)
    (hlong : (hostSound H c norm).length ≤ 2 ^ 48)
    {k : Nat} {p : Prog} (hrun : Running H argv fs k p) (hend : Still H argv fs p)
    {srv : Server} (hr : ServerRun [p.disk (outFilename c.output c.input)] srv) {client : Nat} (hcl : srv.status client = .done)
    {e : Player.Env} (he : e.file = srv.received client)
    (hK : e.KeepsUp) (hA : e.Answers) (hR : e.NeverRefuses) (hO : e.StaysOpen ∨ 8192 < e.file.length)
    {s : Player.Mach} (hm : Player.Started s) (hw : s.w.works = true) (hk : Player.NoKeys e s) {f : Rat} (hclock : 0 < f) :
    ∃ (t : EditTable) (calls : List Call) (enc : Enc) (steps : List Step) (body : List Opcode) (s1 s2 : Player.Mach),
      c.mode.loadEditDistances H.files c.palette = .ok t ∧ Legal c.mode calls ∧ runNew c.mode t H.tape calls = .ok (enc, steps) ∧
      s.Reaches e s1 ∧ s1.sw = Player.Switches.For c.mode s.sw ∧ Player.Executes e s1 body s2 ∧ s2.pc = playerAddr .terminate ∧
      steps.length = (ticksOf false body).length ∧
      ∀ (i : Nat) (st : Step), steps[i]? = some st → ∃ a u u' T done todo, (hostSound H c norm)[i]? = some a ∧ s1.Reaches e u ∧ u.Reaches e u' ∧ u'.Reaches e s2 ∧
        body = done ++ todo ∧ (ticksOf false done).length = i + 1 ∧ Player.Executes e s1 done u' ∧
        |((u.cycles - s1.cycles : Int) : Rat) / f - slowdown f b * (i / b)| ≤ 145 / f ∧
        u'.clicks = u.clicks ++ [u.cycles + 4, u.cycles + 4 + Player.pulseWidth (2 * a + 34).toNat] ∧
        u'.cycles = u.cycles + 73 ∧ T = ((u'.cycles - s1.cycles : Int) : Rat) / f ∧
        (∀ bk, (c.mode = .HGR → bk = false) → u'.screen bk = bankOf (play blank (steps.take (i + 1))) bk) ∧
        ∃ j fr, 1 ≤ j ∧ slowdown f b * frameTime n d (j - 1) ≤ (T + 146 / f) * (1 + 1 / 2 ^ 49) ∧ (T - 146 / f) * (1 - 1 / 2 ^ 49) < slowdown f b * frameTime n d j ∧
          Movie.bitmapOf (hostMovie H c tpf fun _ _ => 0) fr = .ok st.target ∧
          (Kept (hostGrabber H c) fs (shown c.everyN j) → FromFiles (hostGrabber H c) fs (shown c.everyN j) fr) ∧
          (¬ Kept (hostGrabber H c) fs (shown c.everyN j) →
            ∃ picture, H.images[shown c.everyN j]? = some picture ∧ Pictured c.mode (conv picture) fr) := by
  obtain ⟨text, rate, g1, g2, g3⟩ := h.pace
  cases hrate.symm.trans g1
  rw [hbit] at g3
  have hb : 0 < b := hg.b1
  have hb' : (0 : Rat) < b := by exact_mod_cast hb
  obtain ⟨t, ops, bytes, h1, h2, h3, -, h4⟩ := C80_good h hs hf (by rw [ha]; exact player_small)
  obtain ⟨-, -, ⟨dd, q1, -, -, q2, q3⟩, -⟩ := h4 k p hrun
  have hbytes := q2 (q3 hend)
  rw [q1] at hr
  have hfile' : e.file = bytes.map (BitVec.ofNat 8) := by
    rw [he, (C51_unchanged hr client).2 hcl, ← hbytes]
    unfold numbers
    rw [List.map_map]
    conv => lhs; rw [← List.map_id dd]
    refine List.map_congr_left fun x _ => ?_
    simp
  obtain ⟨body, s1, s2, calls, enc, steps, c1, c2, c3, c4, c5, -, c6, c7, c8, -, c9⟩ :=
    Player.timed_from_start h2 ha h3 hfile' hK hA hR hO hm hw hk
  refine ⟨t, calls, enc, steps, body, s1, s2, h1, c6, c7, c2, c3, c4, c5, c8, ?_⟩
  intro i st hst
  obtain ⟨a, u, u', done, todo, d1, d2, d3, d4, d5, d6, d7, d8, d9, d10, d11, fr, f1, f2⟩ := c9 i st hst
  have hu : ((u.cycles - s1.cycles : Int) : Rat) = (Player.tickStart i : Rat) := by
    rw [d8]; push_cast; ring
  have hu' : ((u'.cycles - s1.cycles : Int) : Rat) = ((Player.tickStart i + 73 : Nat) : Rat) := by
    rw [d9, d8]; push_cast; ring
  refine ⟨a, u, u', _, done, todo, d1, d2, d3, d4, d5, d6, d7, ?_, d10, d9, rfl, d11, ?_⟩
  · obtain ⟨w1, w2⟩ := tickStart_time hclock hb' i
    have hone : (1 : Rat) / f ≤ 145 / f := by
      rw [div_le_div_iff_of_pos_right hclock]; norm_num
    rw [hu, abs_le]
    constructor <;> linarith
  have hiA : i < (hostSound H c norm).length := (List.getElem?_eq_some_iff.1 d1).1
  obtain ⟨p1, p2, p3⟩ := C73_pace hdbl hg g2 g3 (i + 1) (by omega) (by omega)
  have hslow : 0 < slowdown f b := by
    unfold slowdown playRate
    positivity
  obtain ⟨w1, w2⟩ := tickEnd_time hclock hb i
  refine ⟨fetched (tickThreshold H.double tpf) (i + 1), fr, p1, ?_, ?_, f2, ?_⟩
  · rw [hu']
    calc _ ≤ slowdown f b * (soundTime b (i + 1) * (1 + 1 / 2 ^ 49)) := mul_le_mul_of_nonneg_left p2 hslow.le
      _ = slowdown f b * soundTime b (i + 1) * (1 + 1 / 2 ^ 49) := by ring
      _ ≤ _ := mul_le_mul_of_nonneg_right (by linarith) (by norm_num)
  · rw [hu']
    calc _ ≤ slowdown f b * soundTime b (i + 1) * (1 - 1 / 2 ^ 49) := mul_le_mul_of_nonneg_right (by linarith) (by norm_num)
      _ = slowdown f b * (soundTime b (i + 1) * (1 - 1 / 2 ^ 49)) := by ring
      _ < _ := mul_lt_mul_of_pos_left p3 hslow
  obtain ⟨item, r1, r2⟩ := (oneByOne_items hconv (hostGrabber H c).images 0 fs (Nat.zero_le _) rfl (filesAt_zero _ conv fs)).1
    (shown c.everyN (fetched (tickThreshold H.double tpf) (i + 1))) fr f1
  rw [Nat.zero_add] at r1
  refine ⟨fun hk => (r1.1 hk).frame r2, fun hk => ?_⟩
  obtain ⟨im, r3, r4⟩ := r1.2 hk
  subst r4
  exact ⟨im, r3, itemOf_frame r2⟩

/-- C94: all hypotheses together, for a video of three pictures and four samples. -/
example : ∃ (k : Nat) (p : Prog) (srv : Server) (e : Player.Env) (s : Player.Mach),
    Starts demoHost demoWords demoSettings (.fin (3 / 2)) 490 ∧ Smooth demoHost demoSettings (.fin (3 / 2)) (fun _ => none) ∧ Separate demoHost demoSettings ∧
    demoHost.addr = playerAddr ∧ Converts (hostGrabber demoHost demoSettings) (fun d => (demoScreen d, demoScreen d)) ∧ Double demoHost.double ∧
    demoHost.rate = .ok (decText 30 ++ txt "/" ++ decText 1) ∧ demoSettings.bitrate = (14700 : Nat) ∧ GoodRates 30 1 14700 ∧
    hostSound demoHost demoSettings (.fin (3 / 2)) = [12, 0, -12, 0] ∧
    Running demoHost demoWords (fun _ => none) k p ∧ Still demoHost demoWords (fun _ => none) p ∧
    ServerRun [p.disk (outFilename demoSettings.output demoSettings.input)] srv ∧ srv.status 7 = .done ∧ e.file = srv.received 7 ∧
    e.KeepsUp ∧ e.Answers ∧ e.NeverRefuses ∧ e.StaysOpen ∧ Player.Started s ∧ s.w.works = true ∧ Player.NoKeys e s := by
  obtain ⟨k, p, h1, h2⟩ := demo_still
  obtain ⟨t, ops, bytes, -, -, -, -, h⟩ := C80_good demo_starts demo_smooth demo_separate player_small
  obtain ⟨-, -, ⟨d, hd, -⟩, -⟩ := h k p h1
  obtain ⟨srv, h3, h4⟩ := served_once d
  refine ⟨k, p, srv, Player.linkEnv (srv.received 7) (fun t => if t % 2 = 0 then 1 else 0) fun t => if t % 10 = 0 then some Player.stEstablished else none,
    Player.sampleMach 0x800 (Player.coldChip true), demo_starts, demo_smooth, demo_separate, rfl, demo_converts _, ⟨rfl, fun x h _ => ?_⟩, rfl, rfl,
    by constructor <;> norm_num, by decide +kernel, h1, h2, by rw [hd]; exact h3, h4, rfl,
    Player.every_other _ fun t => ?_, fun t => ⟨10 * t, by omega, .inl (if_pos (by omega))⟩, fun t => ?_, fun t => ?_,
    Player.sample_started true, rfl, (by decide : (0#8).getLsbD 7 = false), fun _ _ => rfl⟩
  · have : (0 : Rat) ≤ x / 2 ^ 53 := div_nonneg (le_trans (by positivity) h) (by positivity)
    show x - x / 2 ^ 53 ≤ x ∧ x ≤ x + x / 2 ^ 53
    constructor <;> linarith
  · constructor
    · show (if 2 * t % 2 = 0 then 1 else 0) = 1
      rw [if_pos (by omega)]
    · show (if (2 * t + 1) % 2 = 0 then 1 else 0) = 0
      rw [if_neg (by omega)]
  · show (if t % 10 = 0 then some Player.stEstablished else none) ≠ _; split <;> decide
  · show (if t % 10 = 0 then some Player.stEstablished else none) ≠ _; split <;> decide

end IIVision
