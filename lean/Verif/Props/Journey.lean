import Verif.Props.Entire
import Verif.Props.Connect
import Verif.Props.Convert
import Verif.Props.Program

/-! Claim C81: from the words of the command line to the picture and the sound. -/

namespace IIVision
open Spec

/-- **C81.** A good input, a converter that does its job, and a frame rate `n / d`: when the transcoder, started with any words of the command line that select all this, has
come to its end (as it does: C80), the output file is served, all of it, to a client, which is the player, and the network and the keyboard let it play: then it plays to
TERMINATE; in the `i`-th tick the speaker is clicked twice at the distance that stands for the `i`-th sample of the sound; after it the screen shows what the
first `i + 1` operations of a legal history of the encoder with the table of the mode and the palette (C15 - C22) make of a black one; and the target of the operation is a picture of the video that has been converted as bmp2dhr does
it (or, if its results were there before, these results), the picture being the one due at the time of the tick by the frame rate and the bit rate. -/
theorem C81_journey {H : Host} {argv : List Text} {fs : FS} {c : Command} {norm : Flt} {tpf : Rat} (h : Starts H argv c norm tpf)
    (hs : Smooth H c norm fs) (hf : Separate H c) (ha : H.addr = playerAddr)
    {conv : List U8 → List U8 × List U8} (hconv : Converts (hostGrabber H c) conv)
    (hdbl : Double H.double) {n d b : Nat} (hrate : H.rate = .ok (decText n ++ txt "/" ++ decText d)) (hbit : c.bitrate = b) (hg : GoodRates n d b)
    (hlong : (hostSound H c norm).length ≤ 2 ^ 48)
    {k : Nat} {p : Prog} (hrun : Running H argv fs k p) (hend : Still H argv fs p)
    {srv : Server} (hr : ServerRun [p.disk (outFilename c.output c.input)] srv) {client : Nat} (hcl : srv.status client = .done)
    {e : Player.Env} (he : e.file = srv.received client)
    (hD : e.Delivers) (hA : e.Answers) (hR : e.NeverRefuses) (hO : e.StaysOpen ∨ 8192 < e.file.length)
    {s : Player.Mach} (hm : Player.Started s) (hw : s.w.works = true) (hk : Player.PausesEnd e s) :
    ∃ (t : EditTable) (calls : List Call) (enc : Enc) (steps : List Step) (body : List Opcode) (s1 s2 : Player.Mach),
      c.mode.loadEditDistances H.files c.palette = .ok t ∧ Legal c.mode calls ∧ runNew c.mode t H.tape calls = .ok (enc, steps) ∧
      s.Reaches e s1 ∧ s1.sw = Player.Switches.For c.mode s.sw ∧ Player.Executes e s1 body s2 ∧ s2.pc = playerAddr .terminate ∧
      steps.length = (ticksOf false body).length ∧
      (∀ bk, (c.mode = .HGR → bk = false) → s2.screen bk = bankOf (play blank steps) bk) ∧
      ∀ (i : Nat) (st : Step), steps[i]? = some st → ∃ a u u' done todo, (hostSound H c norm)[i]? = some a ∧ s1.Reaches e u ∧ u.Reaches e u' ∧ u'.Reaches e s2 ∧
        body = done ++ todo ∧ (ticksOf false done).length = i + 1 ∧ Player.Executes e s1 done u' ∧
        u'.cycles = u.cycles + 73 ∧ u'.clicks = u.clicks ++ [u.cycles + 4, u.cycles + 4 + Player.pulseWidth (2 * a + 34).toNat] ∧
        (∀ bk, (c.mode = .HGR → bk = false) → u'.screen bk = bankOf (play blank (steps.take (i + 1))) bk) ∧
        ∃ j f, 1 ≤ j ∧ frameTime n d (j - 1) ≤ soundTime b (i + 1) * (1 + 1 / 2 ^ 49) ∧ soundTime b (i + 1) * (1 - 1 / 2 ^ 49) < frameTime n d j ∧
          Movie.bitmapOf (hostMovie H c tpf fun _ _ => 0) f = .ok st.target ∧
          (Kept (hostGrabber H c) fs (shown c.everyN j) → FromFiles (hostGrabber H c) fs (shown c.everyN j) f) ∧
          (¬ Kept (hostGrabber H c) fs (shown c.everyN j) →
            ∃ picture, H.images[shown c.everyN j]? = some picture ∧ Pictured c.mode (conv picture) f) := by
  obtain ⟨text, rate, g1, g2, g3⟩ := h.pace
  cases hrate.symm.trans g1
  rw [hbit] at g3
  obtain ⟨t, ops, bytes, h1, h2, h3, -, h4⟩ := C80_good h hs hf (by rw [ha]; exact player_small)
  obtain ⟨-, -, ⟨dd, q1, -, -, q2, q3⟩, -⟩ := h4 k p hrun
  have hbytes := q2 (q3 hend)
  rw [q1] at hr
  have hfile' : e.file = bytes.map (BitVec.ofNat 8) := by
    rw [he, (C51_unchanged hr client).2 hcl, ← hbytes]
    unfold numbers
    rw [List.map_map]
    conv => lhs; rw [← List.map_id dd]
    refine List.map_congr_left fun x _ => ?_
    simp
  obtain ⟨body, s1, s2, calls, enc, steps, c1, c2, c3, c4, c5, c6, c7, c8, c9, c10, c11⟩ :=
    Player.C41_from_start h2 ha h3 hfile' hD hA hR hO hm hw hk
  refine ⟨t, calls, enc, steps, body, s1, s2, h1, c6, c7, c2, c3, c4, c5, c8, fun bk hb => (c11 bk hb).1, ?_⟩
  intro i st hst
  have hi : i < steps.length := (List.getElem?_eq_some_iff.1 hst).1
  obtain ⟨a, u, u', done, todo, d1, d2, d3, d4, d5, d6, d7, d8, d9, d10⟩ := c10 i hi
  refine ⟨a, u, u', done, todo, d1, d2, d3, d4, d5, d6, d7, d8, d9, d10, ?_⟩
  obtain ⟨x, hx⟩ : ∃ x, (ticksOf false body)[i]? = some x := ⟨_, List.getElem?_eq_getElem (by omega)⟩
  obtain ⟨-, -, -, -, f, f1, f2⟩ := c9 i x st hx hst
  have hiA : i < (hostSound H c norm).length := (List.getElem?_eq_some_iff.1 d1).1
  obtain ⟨p1, p2, p3⟩ := C73_pace hdbl hg g2 g3 (i + 1) (by omega) (by omega)
  refine ⟨fetched (tickThreshold H.double tpf) (i + 1), f, p1, p2, p3, f2, ?_⟩
  obtain ⟨item, r1, r2⟩ := (oneByOne_items hconv (hostGrabber H c).images 0 fs (Nat.zero_le _) rfl (filesAt_zero _ conv fs)).1
    (shown c.everyN (fetched (tickThreshold H.double tpf) (i + 1))) f f1
  rw [Nat.zero_add] at r1
  refine ⟨fun hk => (r1.1 hk).frame r2, fun hk => ?_⟩
  obtain ⟨im, r3, r4⟩ := r1.2 hk
  subst r4
  exact ⟨im, r3, itemOf_frame r2⟩

/-- C81: all hypotheses together, for a video of three pictures and four samples. -/
example : ∃ (k : Nat) (p : Prog) (srv : Server) (e : Player.Env) (s : Player.Mach),
    Starts demoHost demoWords demoSettings (.fin (3 / 2)) 490 ∧ Smooth demoHost demoSettings (.fin (3 / 2)) (fun _ => none) ∧ Separate demoHost demoSettings ∧
    demoHost.addr = playerAddr ∧ Converts (hostGrabber demoHost demoSettings) (fun d => (demoScreen d, demoScreen d)) ∧ Double demoHost.double ∧
    demoHost.rate = .ok (decText 30 ++ txt "/" ++ decText 1) ∧ demoSettings.bitrate = (14700 : Nat) ∧ GoodRates 30 1 14700 ∧
    hostSound demoHost demoSettings (.fin (3 / 2)) = [12, 0, -12, 0] ∧
    Running demoHost demoWords (fun _ => none) k p ∧ Still demoHost demoWords (fun _ => none) p ∧
    ServerRun [p.disk (outFilename demoSettings.output demoSettings.input)] srv ∧ srv.status 7 = .done ∧ e.file = srv.received 7 ∧
    e.Delivers ∧ e.Answers ∧ e.NeverRefuses ∧ e.StaysOpen ∧ Player.Started s ∧ s.w.works = true ∧ Player.PausesEnd e s := by
  obtain ⟨k, p, h1, h2⟩ := demo_still
  obtain ⟨t, ops, bytes, -, -, -, -, h⟩ := C80_good demo_starts demo_smooth demo_separate player_small
  obtain ⟨-, -, ⟨d, hd, -⟩, -⟩ := h k p h1
  obtain ⟨srv, h3, h4⟩ := served_once d
  refine ⟨k, p, srv, Player.linkEnv (srv.received 7) (fun _ => 1) fun _ => some Player.stEstablished, Player.sampleMach 0x800 (Player.coldChip true),
    demo_starts, demo_smooth, demo_separate, rfl, demo_converts _, ⟨rfl, fun x h _ => ?_⟩, rfl, rfl, by constructor <;> norm_num, by decide +kernel,
    h1, h2, by rw [hd]; exact h3, h4, rfl,
    fun t => ⟨t, Nat.le_refl _, Nat.one_pos⟩, fun t => ⟨t, Nat.le_refl _, .inl rfl⟩, fun t => ?_, fun t => ?_,
    Player.sample_started true, rfl, .inl ⟨(by decide : (0#8).getLsbD 7 = false), fun _ _ => rfl⟩⟩
  · have : (0 : Rat) ≤ x / 2 ^ 53 := div_nonneg (le_trans (by positivity) h) (by positivity)
    show x - x / 2 ^ 53 ≤ x ∧ x ≤ x + x / 2 ^ 53
    constructor <;> linarith
  · show some Player.stEstablished ≠ some Player.stClosed; decide
  · show some Player.stEstablished ≠ some Player.stCloseWait; decide

end IIVision
