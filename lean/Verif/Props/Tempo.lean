import Verif.Spec.Tempo
import Verif.Props.Speed
import Verif.Props.Heard

/-! The speed at which a movie plays. -/

namespace IIVision
open Spec

theorem tickStart_time {f : Rat} (hf : 0 < f) {b : Rat} (hb : 0 < b) (i : Nat) :
    slowdown f b * (i / b) - 145 / f ≤ (Player.tickStart i : Rat) / f ∧ (Player.tickStart i : Rat) / f ≤ slowdown f b * (i / b) + 1 / f := by
  have hb' : b ≠ 0 := hb.ne'
  have e : slowdown f b * (i / b) = (73 * 294 * i / 292) / f := by
    unfold slowdown playRate
    field_simp
  obtain ⟨h1, h2⟩ := Player.C53_rate i
  have h1' : (73 * 294 * i : Rat) ≤ 292 * (Player.tickStart i + 145) := by exact_mod_cast h1
  have h2' : (292 * Player.tickStart i : Rat) ≤ 73 * 294 * i + 292 := by exact_mod_cast h2
  rw [e, ← sub_div, ← add_div, div_le_div_iff_of_pos_right hf, div_le_div_iff_of_pos_right hf]
  constructor <;> linarith

/-- **C92.** The whole way, for any command line and a machine with `f` cycles per second, over a network that keeps up and with nobody touching the keyboard: the pulse for the
`i`-th sample, whose time is `i` divided by the bitrate of the command line, begins `slowdown` times as many seconds after the first opcode (and 4 cycles), up to 145 cycles, however long the movie is; and the whole movie takes
that many times the length of its sound, to 145 cycles. -/
theorem C92_tempo {H : Host} {argv : List Text} {fs : FS} {c : Command} {norm : Flt} {tpf : Rat} (h : Starts H argv c norm tpf)
    (hs : Smooth H c norm fs) (hf : Separate H c) (ha : H.addr = playerAddr) (hb : 0 < c.bitrate)
    {k : Nat} {p : Prog} (hrun : Running H argv fs k p) (hend : Still H argv fs p)
    {srv : Server} (hr : ServerRun [p.disk (outFilename c.output c.input)] srv) {client : Nat} (hcl : srv.status client = .done)
    {e : Player.Env} (he : e.file = srv.received client)
    (hK : e.KeepsUp) (hA : e.Answers) (hR : e.NeverRefuses) (hO : e.StaysOpen ∨ 8192 < e.file.length)
    {s : Player.Mach} (hm : Player.Started s) (hw : s.w.works = true) (hk : Player.NoKeys e s) {f : Rat} (hclock : 0 < f) :
    ∃ (body : List Opcode) (s1 s2 : Player.Mach), s.Reaches e s1 ∧ Player.Executes e s1 body s2 ∧ s2.pc = playerAddr .terminate ∧
      (∃ n : Nat, n = (ticksOf false body).length ∧ |((s2.cycles - s1.cycles : Int) : Rat) / f - slowdown f c.bitrate * (n / c.bitrate)| ≤ 145 / f) ∧
      ∀ i : Nat, i < (ticksOf false body).length → ∃ a t pre post, (hostSound H c norm)[i]? = some a ∧
        s2.clicks = s1.clicks ++ (pre ++ [t, t + Player.pulseWidth (2 * a + 34).toNat] ++ post) ∧ pre.length = 2 * i + 4 * ((i + 1) / 292) ∧
        |((t - s1.cycles - 4 : Int) : Rat) / f - slowdown f c.bitrate * (i / c.bitrate)| ≤ 145 / f := by
  obtain ⟨t, ops, bytes, h1, h2, h3, -, h4⟩ := C80_good h hs hf (by rw [ha]; exact player_small)
  obtain ⟨-, -, ⟨dd, q1, -, -, q2, q3⟩, -⟩ := h4 k p hrun
  have hbytes := q2 (q3 hend)
  rw [q1] at hr
  have hfile' : e.file = bytes.map (BitVec.ofNat 8) := by
    rw [he, (C51_unchanged hr client).2 hcl, ← hbytes]
    unfold numbers
    rw [List.map_map]
    conv => lhs; rw [← List.map_id dd]
    refine List.map_congr_left fun x _ => ?_
    simp
  obtain ⟨body, s1, s2, -, c1, c2, -, c3, c4, c5⟩ := Player.C53_movie h2 ha h3 hfile' hK hA hR hO hm hw hk
  have hb' : (0 : Rat) < c.bitrate := by exact_mod_cast hb
  have hone : (1 : Rat) / f ≤ 145 / f := by
    rw [div_le_div_iff_of_pos_right hclock]; norm_num
  refine ⟨body, s1, s2, c1, c2, c3, ⟨_, rfl, ?_⟩, ?_⟩
  · obtain ⟨w1, w2⟩ := tickStart_time hclock hb' (ticksOf false body).length
    have : ((s2.cycles - s1.cycles : Int) : Rat) = (Player.tickStart (ticksOf false body).length : Rat) := by
      rw [c4]; push_cast; ring
    rw [this, abs_le]
    constructor <;> linarith
  · intro i hi
    obtain ⟨a, pre, post, d1, d2, d3⟩ := c5 i hi
    refine ⟨a, s1.cycles + Player.tickStart i + 4, pre, post, d1, d3, d2, ?_⟩
    obtain ⟨w1, w2⟩ := tickStart_time hclock hb' i
    have : (((s1.cycles + Player.tickStart i + 4 : Nat) - s1.cycles - 4 : Int) : Rat) = (Player.tickStart i : Rat) := by
      push_cast; ring
    rw [this, abs_le]
    constructor <;> linarith

/-- **C92.** In particular, if the sound of the input has the rate selected, its `i`-th frame is heard `slowdown` times as late as it comes in the input, to 145 cycles, as a pulse that follows its level (C91). -/
theorem C92_frames {H : Host} {argv : List Text} {fs : FS} {c : Command} {N : Rat} {tpf : Rat} (h : Starts H argv c (.fin N) tpf)
    (hs : Smooth H c (.fin N) fs) (hf : Separate H c) (ha : H.addr = playerAddr) {b : Nat} (hb : 0 < b) (hbit : c.bitrate = b)
    -- the sound, of `b` frames per second
    {sound : List (List (List Int))} (hsound : H.buffers = sound.map pcmBytes) (hch : 0 < (H.format c.bitrate).channels)
    (hgood : ∀ x ∈ sound, GoodFrames (H.format c.bitrate).channels x) (hres : Resamples (H.format c.bitrate) b c.bitrate)
    (hsingle : Single H.rnd) (hmean : Single fun x => .fin ((H.format c.bitrate).rnd x)) (hN : |N| ≤ 2 ^ 39)
    {k : Nat} {p : Prog} (hrun : Running H argv fs k p) (hend : Still H argv fs p)
    {srv : Server} (hr : ServerRun [p.disk (outFilename c.output c.input)] srv) {client : Nat} (hcl : srv.status client = .done)
    {e : Player.Env} (he : e.file = srv.received client)
    (hK : e.KeepsUp) (hA : e.Answers) (hR : e.NeverRefuses) (hO : e.StaysOpen ∨ 8192 < e.file.length)
    {s : Player.Mach} (hm : Player.Started s) (hw : s.w.works = true) (hk : Player.NoKeys e s) {f : Rat} (hclock : 0 < f) :
    ∃ (body : List Opcode) (s1 s2 : Player.Mach), s.Reaches e s1 ∧ Player.Executes e s1 body s2 ∧ s2.pc = playerAddr .terminate ∧
      ∀ i : Nat, i < (ticksOf false body).length → ∃ frame t w pre post, sound.flatten[i]? = some frame ∧ Follows w (level N frame) ∧
        s2.clicks = s1.clicks ++ (pre ++ [t, t + w] ++ post) ∧ pre.length = 2 * i + 4 * ((i + 1) / 292) ∧
        |((t - s1.cycles - 4 : Int) : Rat) / f - slowdown f b * (i / b)| ≤ 145 / f := by
  obtain ⟨body, s1, s2, c1, c2, c3, -, c4⟩ := C92_tempo h hs hf ha (by rw [hbit]; exact_mod_cast hb) hrun hend hr hcl he hK hA hR hO hm hw hk hclock
  have e : ((c.bitrate : Int) : Rat) = b := by rw [hbit]; rfl
  refine ⟨body, s1, s2, c1, c2, c3, fun i hi => ?_⟩
  obtain ⟨a, t, pre, post, d1, d2, d3, d4⟩ := c4 i hi
  have hq : hostSound H c (.fin N) = sound.flatten.map fun f => quantise H.rnd H.bad (.fin N) (.fin (monoOf (H.format c.bitrate).rnd f)) := by
    unfold hostSound
    rw [e] at hres
    rw [hsound, Pcm.C71_same_rate _ hch b hres _ _ _ _ hgood]
  rw [hq, List.getElem?_map] at d1
  rw [e] at d4
  cases hfi : sound.flatten[i]? with
  | none => rw [hfi] at d1; cases d1
  | some fr =>
    rw [hfi] at d1
    cases d1
    refine ⟨fr, t, _, pre, post, rfl, C91_sample hsingle hmean _ hN ?_, d2, d3, d4⟩
    obtain ⟨l, hl, hfl⟩ := List.mem_flatten.1 (List.mem_of_getElem? hfi)
    exact (hgood l hl fr hfl).2

/-- **C92.** On an Apple II at 1 MHz (at most 1.023 million cycles per second) a movie of the default 14700 samples per second takes at least 5.6 % longer than its sound; the documentation has it less than 2 % faster. -/
theorem C92_default {f : Rat} (hf : 0 < f) (h1 : f ≤ 1023000) : 1.056 ≤ slowdown f 14700 := by
  unfold slowdown playRate
  rw [div_div_eq_mul_div, le_div_iff₀ (by positivity)]
  linarith

/-- **C92.** It takes exactly as long if the number of samples per second is 2/147 of the number of cycles: 13884, to one part in 100000, for 1020484 cycles per second (NTSC). -/
theorem C92_real_time {f : Rat} (hf : 0 < f) (b : Rat) : (slowdown f b = 1 ↔ 147 * b = 2 * f) ∧ |slowdown 1020484 13884 - 1| ≤ 1 / 100000 := by
  constructor
  · unfold slowdown playRate
    rw [div_div_eq_mul_div, div_eq_one_iff_eq (by positivity)]
    constructor <;> intro h <;> linarith
  · unfold slowdown playRate
    rw [abs_le]
    norm_num

/-- C92_tempo: all hypotheses together, for a video of three pictures and four samples (those of C92_frames about its sound: demo_heard). -/
example : ∃ (k : Nat) (p : Prog) (srv : Server) (e : Player.Env) (s : Player.Mach),
    Starts demoHost demoWords demoSettings (.fin (3 / 2)) 490 ∧ Smooth demoHost demoSettings (.fin (3 / 2)) (fun _ => none) ∧ Separate demoHost demoSettings ∧
    demoHost.addr = playerAddr ∧ demoSettings.bitrate = (14700 : Nat) ∧
    Running demoHost demoWords (fun _ => none) k p ∧ Still demoHost demoWords (fun _ => none) p ∧
    ServerRun [p.disk (outFilename demoSettings.output demoSettings.input)] srv ∧ srv.status 7 = .done ∧ e.file = srv.received 7 ∧
    e.KeepsUp ∧ e.Answers ∧ e.NeverRefuses ∧ e.StaysOpen ∧ Player.Started s ∧ s.w.works = true ∧ Player.NoKeys e s := by
  obtain ⟨k, p, h1, h2⟩ := demo_still
  obtain ⟨t, ops, bytes, -, -, -, -, h⟩ := C80_good demo_starts demo_smooth demo_separate player_small
  obtain ⟨-, -, ⟨d, hd, -⟩, -⟩ := h k p h1
  obtain ⟨srv, h3, h4⟩ := served_once d
  refine ⟨k, p, srv, Player.linkEnv (srv.received 7) (fun t => if t % 2 = 0 then 1 else 0) fun t => if t % 10 = 0 then some Player.stEstablished else none,
    Player.sampleMach 0x800 (Player.coldChip true), demo_starts, demo_smooth, demo_separate, rfl, rfl, h1, h2, by rw [hd]; exact h3, h4, rfl,
    Player.every_other _ fun t => ?_, fun t => ⟨10 * t, by omega, .inl (if_pos (by omega))⟩, fun t => ?_, fun t => ?_,
    Player.sample_started true, rfl, (by decide : (0#8).getLsbD 7 = false), fun _ _ => rfl⟩
  · constructor
    · show (if 2 * t % 2 = 0 then 1 else 0) = 1
      rw [if_pos (by omega)]
    · show (if (2 * t + 1) % 2 = 0 then 1 else 0) = 0
      rw [if_neg (by omega)]
  · show (if t % 10 = 0 then some Player.stEstablished else none) ≠ _; split <;> decide
  · show (if t % 10 = 0 then some Player.stEstablished else none) ≠ _; split <;> decide

end IIVision
