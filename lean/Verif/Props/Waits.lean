import Verif.Proofs.Waits
import Verif.Props.Lipsync

/-! Claim C95: what a slow network and pauses do. -/

namespace IIVision
open Spec

/-- What `C41_from_start` says, and when: the `i`-th tick begins `tickStart i` cycles after the first opcode, and what has been lost before. -/
theorem Player.stays_from_start {M : Movie} {A : List Int} {F : List Frame} (hin : MovieInput M A F) (ha : M.addr = playerAddr)
    {tape : Nat → Nat} {ops : List Opcode} {bytes : List Nat} (h : M.stream tape A F = .ok (ops, bytes))
    {e : Player.Env} (hfile : e.file = bytes.map (BitVec.ofNat 8)) (hD : e.Delivers) (hA : e.Answers) (hR : e.NeverRefuses)
    (hO : e.StaysOpen ∨ 8192 < e.file.length)
    {s : Player.Mach} (hs : Player.Started s) (hw : s.w.works = true) (hk : Player.PausesEnd e s) :
    ∃ body s1 s2 calls enc steps w, ops = .header M.mode :: body ++ [.terminate] ∧
      s.Reaches e s1 ∧ s1.sw = Player.Switches.For M.mode s.sw ∧ Player.Executes e s1 body s2 ∧ s2.pc = playerAddr .terminate ∧
      (Player.NoKeys e s → ∀ m, (w m).pause = 0) ∧
      s2.cycles = s1.cycles + Player.tickStart (ticksOf false body).length + Player.lost w (((ticksOf false body).length + 1) / 292) ∧
      s2.clicks = s1.clicks ++ Player.stayClicks w s1.cycles body ∧
      Legal M.mode calls ∧ runNew M.mode M.table tape calls = .ok (enc, steps) ∧
      steps.length = (ticksOf false body).length ∧
      ∀ (i : Nat) (st : Step), steps[i]? = some st → ∃ a u u' done todo, A[i]? = some a ∧ s1.Reaches e u ∧ u.Reaches e u' ∧ u'.Reaches e s2 ∧
        body = done ++ todo ∧ (ticksOf false done).length = i + 1 ∧ Player.Executes e s1 done u' ∧
        u.cycles = s1.cycles + Player.tickStart i + Player.lost w ((i + 1) / 292) ∧
        u'.cycles = u.cycles + 73 ∧ u'.clicks = u.clicks ++ [u.cycles + 4, u.cycles + 4 + Player.pulseWidth (2 * a + 34).toNat] ∧
        (∀ b, (M.mode = .HGR → b = false) → u'.screen b = bankOf (play blank (steps.take (i + 1))) b) ∧
        ∃ f, F[shown M.everyN (fetched M.thr (i + 1))]? = some f ∧ M.bitmapOf f = .ok st.target := by
  obtain ⟨t0, ⟨n0, g1⟩, hc, -, -, g5, -⟩ := Player.C58_connects hs hw hA hR hO
  have hk0 : Player.PausesEnd e t0 := hk.imp (fun hk => Player.nokeys_run n0 hk g1) fun hk s' h => hk s' (Player.reaches_trans ⟨n0, g1⟩ h)
  obtain ⟨body, hb, hp, hacks⟩ := Player.playable_of_stream hin ha h
  rw [← hfile] at hp
  obtain ⟨body', bytes', calls, enc, steps, m1, m2, m3, m4, m5, m6, m7, m8⟩ := movie_facts M A F hin tape
  have hbody : body' = body := by
    rw [h] at m1
    have := congrArg Prod.fst (Except.ok.inj m1)
    dsimp only at this
    rw [hb] at this
    simpa using this.symm
  subst hbody
  rcases Player.start_live hD hc hp with ⟨n1, s1, a1, a2, a3, a4, a5⟩ | ⟨n, s', a1, a2, a3⟩
  swap
  · exact hk0.elim (fun hk => absurd hk a3) fun hk => absurd a2 (hk s' ⟨_, a1.run⟩)
  rcases Player.stays hD body' a2 with ⟨w, P', s2, b1, b2, bk⟩ | ⟨s', r1, r2, r3⟩
  swap
  · exact hk0.elim (fun hk => absurd (Player.nokeys_run _ hk a1.run) r3) fun hk => absurd r2 (hk s' (Player.reaches_trans ⟨_, a1.run⟩ r1))
  have htot := Player.movie_total hin (by rw [h, hb])
  have hpage : s1.sw.page2 = false := by
    rw [a3]; cases M.mode <;> rfl
  have hscr : ∀ (n : Nat) (u : Player.Mach) (ops1 ops2 : List Opcode), body' = ops1 ++ ops2 → Player.Executes e s1 ops1 u →
      ticksOf false ops1 = (ticksOf false body').take n → u.screens = play s1.screens (steps.take n) := by
    intro n u ops1 ops2 hops hex htk
    rw [Player.executes_screens hex, hpage, htk]
    · refine foldl_rel _ _ _ (by simp [m4]) ?_
      intro i x y hx hy m
      obtain ⟨-, -, -, -, q1, q2, q3, q4, -⟩ := m8 i x y (Player.take_get hx) (Player.take_get hy)
      unfold playTick playOp VideoOp.pageIx
      rw [q1, q2, q3, q4]
    · cases hm : M.mode with
      | DHGR => left; rw [a3, hm]; exact ⟨rfl, rfl⟩
      | HGR => right; exact ⟨hpage, fun a ha => hacks hm a (by rw [hops]; exact List.mem_append_left _ ha)⟩
  have key : ∀ (n : Nat) (u : Player.Mach), u.screens = play s1.screens (steps.take n) → ∀ b, (M.mode = .HGR → b = false) →
      u.screen b = bankOf (play blank (steps.take n)) b := by
    intro n u hu b hmb
    have e1 : u.screen b = bankOf u.screens b := by cases b <;> rfl
    rw [e1, hu]
    refine Player.bankOf_play_congr b _ _ _ (Player.screens_cleared b ?_)
    cases b with
    | false => exact a4
    | true =>
      apply a5
      cases hm : M.mode with
      | DHGR => rfl
      | HGR => exact absurd (hmb hm) (by decide)
  refine ⟨body', s1, s2, calls, enc, steps, w, hb, Player.reaches_trans ⟨n0, g1⟩ ⟨_, a1.run⟩, by rw [a3, g5], b1.executes, (Player.op_terminate b2).1,
    fun hk => bk (Player.nokeys_run _ (Player.nokeys_run n0 hk g1) a1.run), by rw [b1.cycles, htot.1, htot.2], b1.clicks,
    m2, m3, m4.symm, ?_⟩
  intro i st hst
  have hi : i < steps.length := (List.getElem?_eq_some_iff.1 hst).1
  obtain ⟨pre, t, p, c, os, post, e1, e2, e3, e4⟩ := Player.movie_tick hin (by rw [h, hb]) (i := i) (by omega)
  have hone : ∀ l : List Opcode, pre ++ Opcode.tick t p c os :: l = (pre ++ [.tick t p c os]) ++ l := fun l => by simp
  obtain ⟨u, d1, d2⟩ := Player.Stays.split (e1 ▸ b1)
  cases d2 with
  | @op _ _ u' _ _ _ f0 f1 f2 fc fk f3 =>
  have hx : ∃ y, (ticksOf false body')[i]? = some ⟨4 + 2 * t.val, 32 + p.val, c, os, y⟩ := by
    obtain ⟨y, hy⟩ := Player.ticksOf_append pre (.tick t p c os :: post) false
    refine ⟨y, ?_⟩
    rw [e1, hy, List.getElem?_append_right (by omega), e2, Nat.sub_self]
    rfl
  obtain ⟨y, hx⟩ := hx
  obtain ⟨-, -, q0, -, -, -, -, -, au, q1, q2⟩ := m8 i _ _ hx hst
  have hd : (ticksOf false (pre ++ [Opcode.tick t p c os])).length = i + 1 := by
    obtain ⟨y, hy⟩ := Player.ticksOf_append pre [.tick t p c os] false
    rw [hy, List.length_append, e2]
    rfl
  have hdone : Player.Executes e s1 (pre ++ [.tick t p c os]) u' := by
    exact Player.executes_append d1.executes f1
  refine ⟨au, u, u', pre ++ [.tick t p c os], post, q1, Player.executes_reaches d1.executes, Player.executes_reaches f1, Player.executes_reaches f3.executes,
    by rw [e1, hone], hd, hdone, by rw [d1.cycles, e3, e4], f2, ?_, key _ _ (hscr _ u' _ post (by rw [e1, hone]) hdone ?_), q0⟩
  · cases f1 with
    | tick _ _ _ g _ _ r =>
      cases r
      rw [g, ← q2]
      rfl
  · rw [e1, hone post]
    exact Player.ticksOf_take hd


/-- **C95.** Any stream: the time the player takes and the clicks of the speaker are those of C53, except for the stays between the blocks: 25 cycles, and a click, for every look at the network in vain, and a pause, without a click, if there was a key. -/
theorem C95_stream {e : Player.Env} (hD : e.Delivers) {s : Player.Mach} {mode : VideoMode} {body : List Opcode} (hc : Player.Connected e s)
    (hp : Player.Playable e.file mode body) (hk : Player.PausesEnd e s) :
    ∃ s1 s2 w, s.Reaches e s1 ∧ Player.Executes e s1 body s2 ∧ s2.pc = playerAddr .terminate ∧ (Player.NoKeys e s → ∀ m, (w m).pause = 0) ∧
      s2.cycles = s1.cycles + Player.duration body + Player.lost w (acks body).length ∧
      s2.clicks = s1.clicks ++ Player.stayClicks w s1.cycles body := by
  rcases Player.start_live hD hc hp with ⟨n1, s1, a1, a2, -⟩ | ⟨n, s', a1, a2, a3⟩
  · rcases Player.stays hD body a2 with ⟨w, P', s2, b1, b2, bk⟩ | ⟨s', r1, r2, r3⟩
    · exact ⟨s1, s2, w, ⟨_, a1.run⟩, b1.executes, (Player.op_terminate b2).1, fun hk => bk (Player.nokeys_run _ hk a1.run), b1.cycles, b1.clicks⟩
    · exact hk.elim (fun hk => absurd (Player.nokeys_run _ hk a1.run) r3) fun hk => absurd r2 (hk s' (Player.reaches_trans ⟨_, a1.run⟩ r1))
  · exact hk.elim (fun hk => absurd hk a3) fun hk => absurd a2 (hk s' ⟨_, a1.run⟩)

/-- **C95.** The whole way from the command line, over any network that delivers, with any pauses that end: time is lost only after every 292nd operation (the first time after 291), in units of 25 cycles for the network.  Everything else is as without
waiting: the `i`-th tick begins `tickStart i` cycles after the first opcode and what has been lost before; in it, the speaker is clicked twice for the `i`-th sample, and after it the screen shows what the
first `i + 1` operations make of a black one, the target of the last one being the picture due at this point of the sound.  So sound and picture lose the same time at the same places. -/
theorem C95_waits {H : Host} {argv : List Text} {fs : FS} {c : Command} {norm : Flt} {tpf : Rat} (h : Starts H argv c norm tpf)
    (hs : Smooth H c norm fs) (hf : Separate H c) (ha : H.addr = playerAddr)
    (hdbl : Double H.double) {n d b : Nat} (hrate : H.rate = .ok (decText n ++ txt "/" ++ decText d)) (hbit : c.bitrate = b) (hg : GoodRates n d b)
    (hlong : (hostSound H c norm).length ≤ 2 ^ 48)
    {conv : List U8 → List U8 × List U8} (hconv : Converts (hostGrabber H c) conv)
    {k : Nat} {p : Prog} (hrun : Running H argv fs k p) (hend : Still H argv fs p)
    {srv : Server} (hr : ServerRun [p.disk (outFilename c.output c.input)] srv) {client : Nat} (hcl : srv.status client = .done)
    {e : Player.Env} (he : e.file = srv.received client)
    (hD : e.Delivers) (hA : e.Answers) (hR : e.NeverRefuses) (hO : e.StaysOpen ∨ 8192 < e.file.length)
    {s : Player.Mach} (hm : Player.Started s) (hw : s.w.works = true) (hk : Player.PausesEnd e s) :
    ∃ (t : EditTable) (calls : List Call) (enc : Enc) (steps : List Step) (body : List Opcode) (s1 s2 : Player.Mach) (w : Nat → Player.Stay),
      c.mode.loadEditDistances H.files c.palette = .ok t ∧ Legal c.mode calls ∧ runNew c.mode t H.tape calls = .ok (enc, steps) ∧
      s.Reaches e s1 ∧ Player.Executes e s1 body s2 ∧ s2.pc = playerAddr .terminate ∧ steps.length = (ticksOf false body).length ∧
      (Player.NoKeys e s → ∀ m, (w m).pause = 0) ∧
      s2.cycles = s1.cycles + Player.tickStart steps.length + Player.lost w ((steps.length + 1) / 292) ∧
      s2.clicks = s1.clicks ++ Player.stayClicks w s1.cycles body ∧
      ∀ (i : Nat) (st : Step), steps[i]? = some st → ∃ a u u' done todo, (hostSound H c norm)[i]? = some a ∧ s1.Reaches e u ∧ u.Reaches e u' ∧ u'.Reaches e s2 ∧
        body = done ++ todo ∧ (ticksOf false done).length = i + 1 ∧ Player.Executes e s1 done u' ∧
        u.cycles = s1.cycles + Player.tickStart i + Player.lost w ((i + 1) / 292) ∧ u'.cycles = u.cycles + 73 ∧
        u'.clicks = u.clicks ++ [u.cycles + 4, u.cycles + 4 + Player.pulseWidth (2 * a + 34).toNat] ∧
        (∀ bk, (c.mode = .HGR → bk = false) → u'.screen bk = bankOf (play blank (steps.take (i + 1))) bk) ∧
        ∃ j fr, 1 ≤ j ∧ frameTime n d (j - 1) ≤ soundTime b (i + 1) * (1 + 1 / 2 ^ 49) ∧ soundTime b (i + 1) * (1 - 1 / 2 ^ 49) < frameTime n d j ∧
          Movie.bitmapOf (hostMovie H c tpf fun _ _ => 0) fr = .ok st.target ∧
          (Kept (hostGrabber H c) fs (shown c.everyN j) → FromFiles (hostGrabber H c) fs (shown c.everyN j) fr) ∧
          (¬ Kept (hostGrabber H c) fs (shown c.everyN j) →
            ∃ picture, H.images[shown c.everyN j]? = some picture ∧ Pictured c.mode (conv picture) fr) := by
  obtain ⟨text, rate, g1, g2, g3⟩ := h.pace
  cases hrate.symm.trans g1
  rw [hbit] at g3
  obtain ⟨t, ops, bytes, h1, h2, h3, -, h4⟩ := C80_good h hs hf (by rw [ha]; exact player_small)
  obtain ⟨-, -, ⟨dd, q1, -, -, q2, q3⟩, -⟩ := h4 k p hrun
  have hbytes := q2 (q3 hend)
  rw [q1] at hr
  have hfile' : e.file = bytes.map (BitVec.ofNat 8) := by
    rw [he, (C51_unchanged hr client).2 hcl, ← hbytes]
    unfold numbers
    rw [List.map_map]
    conv => lhs; rw [← List.map_id dd]
    refine List.map_congr_left fun x _ => ?_
    simp
  obtain ⟨body, s1, s2, calls, enc, steps, w, c1, c2, -, c4, c5, c6, c7, c8, c9, c10, c11, c12⟩ :=
    Player.stays_from_start h2 ha h3 hfile' hD hA hR hO hm hw hk
  rw [← c11] at c7
  refine ⟨t, calls, enc, steps, body, s1, s2, w, h1, c9, c10, c2, c4, c5, c11, c6, c7, c8, ?_⟩
  intro i st hst
  obtain ⟨a, u, u', done, todo, d1, d2, d3, d4, d5, d6, d7, d8, d9, d10, d11, fr, f1, f2⟩ := c12 i st hst
  refine ⟨a, u, u', done, todo, d1, d2, d3, d4, d5, d6, d7, d8, d9, d10, d11, ?_⟩
  have hiA : i < (hostSound H c norm).length := (List.getElem?_eq_some_iff.1 d1).1
  obtain ⟨p1, p2, p3⟩ := C73_pace hdbl hg g2 g3 (i + 1) (by omega) (by omega)
  refine ⟨fetched (tickThreshold H.double tpf) (i + 1), fr, p1, p2, p3, f2, ?_⟩
  obtain ⟨item, r1, r2⟩ := (oneByOne_items hconv (hostGrabber H c).images 0 fs (Nat.zero_le _) rfl (filesAt_zero _ conv fs)).1
    (shown c.everyN (fetched (tickThreshold H.double tpf) (i + 1))) fr f1
  rw [Nat.zero_add] at r1
  refine ⟨fun hk => (r1.1 hk).frame r2, fun hk => ?_⟩
  obtain ⟨im, r3, r4⟩ := r1.2 hk
  subst r4
  exact ⟨im, r3, itemOf_frame r2⟩

/-- **C95.** What has been lost never decreases, is the same for all ticks of a block, and nothing for those of the first. -/
theorem C95_blocks (w : Nat → Player.Stay) : (∀ i j, i ≤ j → Player.lost w ((i + 1) / 292) ≤ Player.lost w ((j + 1) / 292)) ∧
    (∀ i j, (i + 1) / 292 = (j + 1) / 292 → Player.lost w ((i + 1) / 292) = Player.lost w ((j + 1) / 292)) ∧ ∀ i, i < 291 → Player.lost w ((i + 1) / 292) = 0 := by
  have step : ∀ m, Player.lost w (m + 1) = Player.lost w m + (w m).cycles := by
    intro m
    unfold Player.lost
    rw [List.range_succ, List.map_append, List.sum_append]
    simp
  have mono : ∀ k m, Player.lost w m ≤ Player.lost w (m + k) := by
    intro k
    induction k with
    | zero => intro m; exact Nat.le_refl _
    | succ k ih =>
      intro m
      have := step (m + k)
      have := ih m
      rw [← Nat.add_assoc]
      omega
  refine ⟨fun i j h => ?_, fun i j h => by rw [h], fun i h => ?_⟩
  · obtain ⟨k, hk⟩ := Nat.exists_eq_add_of_le (Nat.div_le_div_right (c := 292) (Nat.add_le_add_right h 1))
    rw [hk]
    exact mono k _
  · rw [show (i + 1) / 292 = 0 by omega]
    rfl

/-- A byte every 10000 instructions. -/
def slowly (t : Nat) : Nat := if t % 10000 = 9999 then 1 else 0

theorem slowly_some (t : Nat) : 0 < slowly (10000 * t + 9999) := by
  unfold slowly
  rw [if_pos (by omega)]
  exact Nat.one_pos

theorem slowly_none (n : Nat) (h : n + 1 < 9999) : 0 + slowly (0 + n) = 0 := by
  unfold slowly
  rw [if_neg (by omega)]

attribute [local irreducible] slowly

theorem slow_network {e : Player.Env} (h : ∀ n, n < 9999 → e.offered 0 n = 0) : ¬ e.KeepsUp := by
  intro hK
  have h5 := hK 0
  rw [h 5000 (by norm_num)] at h5
  exact absurd h5 (by norm_num)

/-- C95_waits (and C95_stream, whose hypotheses it establishes on the way): all hypotheses together, for a video of three pictures and four samples and a slow network. -/
example : ∃ (k : Nat) (p : Prog) (srv : Server) (e : Player.Env) (s : Player.Mach),
    Starts demoHost demoWords demoSettings (.fin (3 / 2)) 490 ∧ Smooth demoHost demoSettings (.fin (3 / 2)) (fun _ => none) ∧ Separate demoHost demoSettings ∧
    demoHost.addr = playerAddr ∧ Converts (hostGrabber demoHost demoSettings) (fun d => (demoScreen d, demoScreen d)) ∧ Double demoHost.double ∧
    demoHost.rate = .ok (decText 30 ++ txt "/" ++ decText 1) ∧ demoSettings.bitrate = (14700 : Nat) ∧ GoodRates 30 1 14700 ∧
    hostSound demoHost demoSettings (.fin (3 / 2)) = [12, 0, -12, 0] ∧
    Running demoHost demoWords (fun _ => none) k p ∧ Still demoHost demoWords (fun _ => none) p ∧
    ServerRun [p.disk (outFilename demoSettings.output demoSettings.input)] srv ∧ srv.status 7 = .done ∧ e.file = srv.received 7 ∧
    e.Delivers ∧ ¬ e.KeepsUp ∧ e.Answers ∧ e.NeverRefuses ∧ e.StaysOpen ∧ Player.Started s ∧ s.w.works = true ∧ Player.PausesEnd e s := by
  obtain ⟨k, p, h1, h2⟩ := demo_still
  obtain ⟨t, ops, bytes, -, -, -, -, h⟩ := C80_good demo_starts demo_smooth demo_separate player_small
  obtain ⟨-, -, ⟨d, hd, -⟩, -⟩ := h k p h1
  obtain ⟨srv, h3, h4⟩ := served_once d
  refine ⟨k, p, srv, Player.linkEnv (srv.received 7) slowly fun _ => some Player.stEstablished, Player.sampleMach 0x800 (Player.coldChip true),
    demo_starts, demo_smooth, demo_separate, rfl, demo_converts _, ⟨rfl, fun x h _ => ?_⟩, rfl, rfl, by constructor <;> norm_num, by decide +kernel,
    h1, h2, by rw [hd]; exact h3, h4, rfl,
    fun t => ⟨10000 * t + 9999, by omega, ?_⟩, fun hK => ?_, fun t => ⟨t, Nat.le_refl _, .inl rfl⟩, fun t => ?_, fun t => ?_,
    Player.sample_started true, rfl, .inl ⟨(by decide : (0#8).getLsbD 7 = false), fun _ _ => rfl⟩⟩
  · have : (0 : Rat) ≤ x / 2 ^ 53 := div_nonneg (le_trans (by positivity) h) (by positivity)
    show x - x / 2 ^ 53 ≤ x ∧ x ≤ x + x / 2 ^ 53
    constructor <;> linarith
  · exact slowly_some t
  · have none : ∀ n, n < 9999 → Player.Env.offered (Player.linkEnv (srv.received 7) slowly fun _ => some Player.stEstablished) 0 n = 0 := by
      intro n
      induction n with
      | zero => intro _; rfl
      | succ n ih =>
        intro hn
        unfold Player.Env.offered
        rw [ih (by omega)]
        exact slowly_none n hn
    exact slow_network none hK
  · show some Player.stEstablished ≠ some Player.stClosed; decide
  · show some Player.stEstablished ≠ some Player.stCloseWait; decide

end IIVision
