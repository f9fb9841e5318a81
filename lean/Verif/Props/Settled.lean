import Verif.Proofs.Settled
import Verif.Spec.Settled
import Verif.Props.Lipsync

/-! Claim C96: a picture that stays for 0.56 seconds is complete on the screen of the Apple II. -/

namespace IIVision
open Spec

/-- The last multiple of the stride. -/
theorem shown_eq {N : Int} (hN : N ≠ 0) {k m : Nat} (hk : N ∣ (k : Int)) (h1 : k < m) (h2 : m - 1 < k + N.natAbs) : shown N m = k := by
  obtain ⟨q, rfl⟩ : N.natAbs ∣ k := by
    have := Int.natAbs_dvd_natAbs.2 hk
    simpa using this
  have hp : 0 < N.natAbs := Int.natAbs_pos.2 hN
  unfold shown
  rw [Nat.mul_comm]
  congr 1
  apply Nat.div_eq_of_lt_le
  · rw [Nat.mul_comm]; omega
  · rw [Nat.add_mul, Nat.mul_comm]; omega

/-- **C96.** The whole way (C81) for an HGR movie made with generated tables, on a machine with `f` cycles per second, over a network that keeps up and with nobody touching the keyboard.
The `i`-th tick ends `T` seconds after the first opcode.  Take the picture number `k` of the video, a multiple of the stride.  If its time, slowed down as the sound is, has come 564700 cycles
(0.56 seconds) before, and the time of the next such picture has not come yet (to 146 cycles and one part in 2^49), then the screen of the Apple II shows that picture of the video, as bmp2dhr has converted it (or as
read from results that were there before), every dot except those of C62: whatever was shown before, and however different it was. -/
theorem C96_settled (deltaE : RGB → RGB → Int) (hd : ColourDifference deltaE) (hsep : Separates deltaE) (dm0 : Nat → Nat → Int)
    {H : Host} {argv : List Text} {fs : FS} {c : Command} {norm : Flt} {tpf : Rat} (h : Starts H argv c norm tpf)
    (hs : Smooth H c norm fs) (hf : Separate H c) (ha : H.addr = playerAddr)
    (hfiles : makeDataTables deltaE dm0 = .ok H.files) (hmode : c.mode = .HGR) {rgb : Colour → RGB} (hpal : (c.palette, rgb) ∈ palettes)
    {conv : List U8 → List U8 × List U8} (hconv : Converts (hostGrabber H c) conv)
    (hdbl : Double H.double) {n d b : Nat} (hrate : H.rate = .ok (decText n ++ txt "/" ++ decText d)) (hbit : c.bitrate = b) (hg : GoodRates n d b)
    (hlong : (hostSound H c norm).length ≤ 2 ^ 48)
    {m : Nat} {p : Prog} (hrun : Running H argv fs m p) (hend : Still H argv fs p)
    {srv : Server} (hr : ServerRun [p.disk (outFilename c.output c.input)] srv) {client : Nat} (hcl : srv.status client = .done)
    {e : Player.Env} (he : e.file = srv.received client)
    (hK : e.KeepsUp) (hA : e.Answers) (hR : e.NeverRefuses) (hO : e.StaysOpen ∨ 8192 < e.file.length)
    {s : Player.Mach} (hm : Player.Started s) (hw : s.w.works = true) (hk : Player.NoKeys e s) {f : Rat} (hclock : 0 < f) :
    ∃ (body : List Opcode) (s1 s2 : Player.Mach),
      s.Reaches e s1 ∧ s1.sw = Player.Switches.For .HGR s.sw ∧ Player.Executes e s1 body s2 ∧ s2.pc = playerAddr .terminate ∧
      ∀ i, i < (ticksOf false body).length → ∃ u T done todo, s1.Reaches e u ∧ u.Reaches e s2 ∧
        body = done ++ todo ∧ (ticksOf false done).length = i + 1 ∧ Player.Executes e s1 done u ∧
        T = ((u.cycles - s1.cycles : Int) : Rat) / f ∧ |T - slowdown f b * soundTime b (i + 1)| ≤ 146 / f ∧
        ∀ k : Nat, c.everyN ∣ (k : Int) → slowdown f b * frameTime n d k ≤ (T - 564700 / f) * (1 - 1 / 2 ^ 49) →
          (T + 146 / f) * (1 + 1 / 2 ^ 49) < slowdown f b * frameTime n d (k + c.everyN.natAbs) →
          ∃ fr bits, Movie.bitmapOf (hostMovie H c tpf fun _ _ => 0) fr = .ok bits ∧ (∀ y d, RightDot u.screens bits y d) ∧
            (Kept (hostGrabber H c) fs k → FromFiles (hostGrabber H c) fs k fr) ∧
            (¬ Kept (hostGrabber H c) fs k → ∃ picture, H.images[k]? = some picture ∧ Pictured .HGR (conv picture) fr) := by
  obtain ⟨text, rate, g1, g2, g3⟩ := h.pace
  cases hrate.symm.trans g1
  rw [hbit] at g3
  have hb : 0 < b := hg.b1
  have hb' : (0 : Rat) < b := by exact_mod_cast hb
  have hn' : (0 : Rat) < n := by exact_mod_cast hg.n1
  have hd' : (0 : Rat) < d := by exact_mod_cast hg.d1
  obtain ⟨t, ops, bytes, h1, h2, h3, -, h4⟩ := C80_good h hs hf (by rw [ha]; exact player_small)
  obtain ⟨-, -, ⟨dd, q1, -, -, q2, q3⟩, -⟩ := h4 m p hrun
  have hbytes := q2 (q3 hend)
  rw [q1] at hr
  have hfile' : e.file = bytes.map (BitVec.ofNat 8) := by
    rw [he, (C51_unchanged hr client).2 hcl, ← hbytes]
    unfold numbers
    rw [List.map_map]
    conv => lhs; rw [← List.map_id dd]
    refine List.map_congr_left fun x _ => ?_
    simp
  obtain ⟨body, s1, s2, calls, enc, steps, c1, c2, c3, c4, c5, -, -, -, c8, crel, c9⟩ :=
    Player.timed_from_start h2 ha h3 hfile' hK hA hR hO hm hw hk
  have hM : (hostMovie H c tpf t).mode = .HGR := hmode
  have hload : Loaded deltaE dm0 .HGR c.palette (hostMovie H c tpf t).table := ⟨H.files, hfiles, by rw [← hmode]; exact h1⟩
  have htk : ticksOf false ops = ticksOf false body := by rw [c1]; exact ticksOf_terminate body false
  refine ⟨body, s1, s2, c2, by rw [c3, hM], c4, c5, ?_⟩
  intro i hi
  obtain ⟨a, u0, u, done, todo, d1, d2, d3, d4, d5, d6, d7, d8, d9, d10, d11, -⟩ := c9 i _ (List.getElem?_eq_getElem (by omega))
  have hu : ((u.cycles - s1.cycles : Int) : Rat) = ((Player.tickStart i + 73 : Nat) : Rat) := by
    rw [d9, d8]; push_cast; ring
  obtain ⟨w1, w2⟩ := tickEnd_time hclock hb i
  rw [← hu] at w1 w2
  generalize hT : ((u.cycles - s1.cycles : Int) : Rat) / f = T at w1 w2
  refine ⟨u, T, done, todo, Player.reaches_trans d2 d3, d4, d5, d6, d7, hT.symm, by rw [abs_le]; constructor <;> linarith, ?_⟩
  intro k hdvd t1 t2
  have hslow : 0 < slowdown f b := by
    unfold slowdown playRate
    positivity
  have hsound : ∀ j : Nat, slowdown f b * soundTime b j = 147 / 2 * j / f := by
    intro j
    unfold slowdown playRate soundTime
    field_simp
    ring
  have hk0 : 0 ≤ frameTime n d k := by unfold frameTime; positivity
  have hmono : ∀ x y : Nat, frameTime n d x < frameTime n d y → x < y := by
    intro x y hxy
    unfold frameTime at hxy
    rw [div_lt_div_iff_of_pos_right hn', mul_lt_mul_iff_left₀ hd'] at hxy
    exact_mod_cast hxy
  have hpos : 564700 / f ≤ T := by
    have : 0 ≤ (T - 564700 / f) * (1 - 1 / 2 ^ 49) := le_trans (mul_nonneg hslow.le hk0) t1
    have := nonneg_of_mul_nonneg_left this (by norm_num)
    linarith
  rw [hsound] at w1 w2
  have hi7 : 7681 ≤ i + 1 := by
    have : (564700 - 146) / f ≤ 147 / 2 * ((i + 1 : Nat) : Rat) / f := by
      rw [sub_div]; linarith
    rw [div_le_div_iff_of_pos_right hclock] at this
    have : (7680 : Rat) < ((i + 1 : Nat) : Rat) := by linarith
    exact_mod_cast this
  have hiA : i < (hostSound H c norm).length := (List.getElem?_eq_some_iff.1 d1).1
  obtain ⟨j, hj⟩ : ∃ j, i + 1 = j + 7680 := ⟨i + 1 - 7680, by omega⟩
  have old : k < fetched (tickThreshold H.double tpf) j := by
    obtain ⟨-, -, p3⟩ := C73_pace hdbl hg g2 g3 j (by omega) (by omega)
    apply hmono
    rw [← mul_lt_mul_iff_right₀ hslow]
    refine lt_of_le_of_lt (le_trans t1 ?_) (mul_lt_mul_of_pos_left p3 hslow)
    rw [← mul_assoc, hsound]
    refine mul_le_mul_of_nonneg_right ?_ (by norm_num)
    have : (147 / 2 * ((i + 1 : Nat) : Rat)) / f = 147 / 2 * j / f + 564480 / f := by
      rw [hj, ← add_div]; push_cast; ring
    rw [this] at w2
    have : (564700 : Rat) / f = 564480 / f + 146 / f + 74 / f := by ring
    have : 0 < 74 / f := by positivity
    linarith
  have cur : shown c.everyN (fetched (tickThreshold H.double tpf) (i + 1)) = k := by
    obtain ⟨p1, p2, -⟩ := C73_pace hdbl hg g2 g3 (i + 1) (by omega) (by omega)
    have := fetched_grows (tickThreshold H.double tpf) (show j ≤ i + 1 by omega)
    refine shown_eq hs.stride hdvd (by omega) ?_
    apply hmono
    rw [← mul_lt_mul_iff_right₀ hslow]
    refine lt_of_le_of_lt ?_ t2
    refine le_trans (mul_le_mul_of_nonneg_left p2 hslow.le) ?_
    rw [← mul_assoc, hsound]
    exact mul_le_mul_of_nonneg_right (by linarith) (by norm_num)
  obtain ⟨fr, bits, f1, f2, f3⟩ := hgr_settled deltaE hd hsep dm0 c.palette rgb hpal _ hM hload _ _ h2 H.tape ops bytes h3 k (i + 1) hdvd
    (by rw [hj, Nat.add_sub_cancel]; exact old) (by rw [htk]; omega) cur
  refine ⟨fr, bits, f2, fun y dt => ?_, ?_⟩
  · have key := f3 y dt
    dsimp only at key
    rw [htk, play_ticks c8.symm crel] at key
    have e1 : u.screens.1 = (play blank (steps.take (i + 1))).1 := d11 false fun _ => rfl
    rw [← e1] at key
    have e2 : ∀ m m' : Mem × Mem, m.1 = m'.1 → screenDot .HGR m y dt = screenDot .HGR m' y dt := by
      intro m m' h; unfold screenDot; rw [h]
    rw [e2 _ u.screens e1.symm] at key
    exact key
  · obtain ⟨item, r1, r2⟩ := (oneByOne_items hconv (hostGrabber H c).images 0 fs (Nat.zero_le _) rfl (filesAt_zero _ conv fs)).1 k fr f1
    rw [Nat.zero_add] at r1
    refine ⟨fun hk => (r1.1 hk).frame r2, fun hk => ?_⟩
    obtain ⟨im, r3, r4⟩ := r1.2 hk
    subst r4
    refine ⟨im, r3, ?_⟩
    rw [← hmode]
    exact itemOf_frame r2

/-! ### The hypotheses can be met -/

/-- As `demo`, in HGR. -/
def exhibitGrab (images : List (List U8)) : Grabber where
  filename := txt "v.mp4"
  mode := .HGR
  palette := .NTSC
  images := images
  readError := none
  tool := fun i args fs => .ok (fs.put (txt "v/HGR/NTSC" ++ 47 :: dec08 i ++ txt "C.BIN") (demoScreen ((fs (args.getD 1 [])).getD [])))

theorem exhibit_path (images : List (List U8)) (i : Nat) (sfx : Text) :
    (exhibitGrab images).path i sfx = txt "v/HGR/NTSC" ++ 47 :: dec08 i ++ sfx := by
  have hd : (exhibitGrab images).dir = txt "v/HGR/NTSC" := (by decide : outputDir (txt "v.mp4") .HGR .NTSC = txt "v/HGR/NTSC")
  simp only [Grabber.path, hd]

theorem exhibit_tool (images : List (List U8)) (i : Nat) (args : List Text) (fs : FS) :
    (exhibitGrab images).tool i args fs = .ok (fs.put ((exhibitGrab images).path i (txt "C.BIN")) (demoScreen ((fs (args.getD 1 [])).getD []))) := by
  rw [exhibit_path]; rfl

theorem exhibit_local (images : List (List U8)) : LocalTool (exhibitGrab images) := by
  intro i args fs fs' h q hq
  rw [exhibit_tool] at h
  cases h
  exact if_neg fun h => hq (.inl h)

theorem exhibit_converts (images : List (List U8)) : Converts (exhibitGrab images) fun d => (demoScreen d, []) := by
  intro i fs data hd
  refine ⟨_, exhibit_tool _ _ _ _, ?_⟩
  have harg : (commandLine ((exhibitGrab images).path i (txt ".bmp")) .HGR .NTSC).getD 1 [] = (exhibitGrab images).path i (txt ".bmp") := rfl
  show (_ ∧ _)
  rw [show (exhibitGrab images).mode = .HGR from rfl, show (exhibitGrab images).palette = .NTSC from rfl, harg, hd]
  exact ⟨if_pos rfl, fun q h => if_neg h⟩

theorem exhibit_blind (images : List (List U8)) : Blind (exhibitGrab images) (txt "v.a2m") := by
  have hn := (C78_names (exhibitGrab images) none (.inl rfl)).1
  intro i fs d
  have e1 : (exhibitGrab images).path i (txt ".bmp") ≠ txt "v.a2m" := (hn i _ (.inr (.inr (.inr rfl)))).1
  have e2 : (exhibitGrab images).path i (txt "C.BIN") ≠ txt "v.a2m" := (hn i _ (.inl rfl)).1
  have harg : (commandLine ((exhibitGrab images).path i (txt ".bmp")) (exhibitGrab images).mode (exhibitGrab images).palette).getD 1 [] =
    (exhibitGrab images).path i (txt ".bmp") := rfl
  rw [exhibit_tool, exhibit_tool, harg, put_other _ e1]
  simp only [Except.map]
  rw [put_comm _ e2.symm]

theorem exhibit_video (images : List (List U8)) : ∀ (l : List (List U8)) (idx : Nat) (fs : FS),
    (∀ j, idx ≤ j → fs ((exhibitGrab images).path j (txt "C.BIN")) = none) →
    (oneByOne (exhibitGrab images) idx fs l).2 = .ends ∧ (oneByOne (exhibitGrab images) idx fs l).1.length = l.length := by
  intro l
  induction l with
  | nil => intro idx fs _; exact ⟨rfl, rfl⟩
  | cons im l ih =>
    intro idx fs hno
    have hne : (exhibitGrab images).path idx (txt ".bmp") ≠ (exhibitGrab images).path idx (txt "C.BIN") := fun h =>
      absurd (Grabber.path_inj suffix_bmp suffix_cbin h).2 (by decide)
    obtain ⟨fs', hd⟩ : ∃ fs', (exhibitGrab images).decode fs idx im = .ok (fs', ⟨demoScreen im, none⟩) := by
      have hh : ¬ fs.has ((exhibitGrab images).path idx (txt "C.BIN")) = true := by
        simp [FS.has, hno idx (Nat.le_refl _)]
      show ∃ fs', (exhibitGrab images).hgrDecode fs idx im = _
      simp only [Grabber.hgrDecode, if_neg hh, Grabber.convert, exhibit_tool, bind, Except.bind]
      generalize (exhibitGrab images).path idx (txt ".bmp") = pbmp at *
      generalize (exhibitGrab images).path idx (txt "C.BIN") = pbin at *
      simp [FS.remove, FS.put, FS.read, hne, hne.symm, pure, Except.pure]
    obtain ⟨m, hm⟩ := mapOfBytes_good (d := demoScreen im) (demoScreen_length im)
    have := ih (idx + 1) fs' (by
      intro j hj
      rw [decode_local (exhibit_local images) hd]
      · exact hno j (by omega)
      · intro ho
        have := ownFile_inj ho (.inl rfl : OwnFile (exhibitGrab images) j _)
        omega)
    simp only [oneByOne, hd, Item.toFrame, hm, bind, Except.bind, pure, Except.pure]
    exact ⟨this.1, by simp only [List.length_cons, this.2]⟩

/-- Five pictures, one each second, and 45000 samples, 14700 each second. -/
def exhibitHost (files : List (Text × EditTable)) : Host :=
  { demoHost with
    format := fun _ => { channels := 1, rnd := id, resample := fun _ => List.replicate 45000 0 }
    buffers := [[0#8, 32#8]]
    rate := .ok (decText 1 ++ txt "/" ++ decText 1)
    images := [[1#8], [2#8], [3#8], [4#8], [5#8]]
    tool := (exhibitGrab []).tool
    files := files }

def exhibitWords : List Text := [txt "--audio_norm", txt "1.5", txt "--video_mode=HGR", txt "v.mp4"]

def exhibitSettings : Command := { demoSettings with mode := .HGR }

theorem exhibit_starts (files : List (Text × EditTable)) : Starts (exhibitHost files) exhibitWords exhibitSettings (.fin (3 / 2)) 14700 := by
  refine ⟨(C77_command_line _ _ _).1 rfl, ?_, .inl rfl, ?_, rfl⟩
  · show (if (3 / 2 : Rat) = 0 then _ else _) = _
    rw [if_neg (by norm_num)]
  refine ⟨_, 1, rfl, ?_, ?_⟩
  · have := (C73_rate id rfl 1 1).1 (by norm_num)
    rw [show (exhibitHost files).double = id from rfl, this]
    norm_num
  · show ticksPerFrame id 14700 1 = _
    decide +kernel

theorem exhibit_stream (r : List Rat → List Rat) (rnd : Rat → Flt) (bad : Flt → Int) (norm : Flt) : ∃ xs,
    Pcm.Format.stream { channels := 1, rnd := id, resample := r } rnd bad norm [[0#8, 32#8]] =
      ((r xs).map (fun x => quantise rnd bad norm (.fin x)) ++ [], none) := by
  have h1 : Pcm.int16s [0#8, 32#8] = .ok [8192] := by decide +kernel
  have h2 : Pcm.reshapeF 1 [8192] = .ok [[8192]] := by decide +kernel
  refine ⟨Pcm.toMono id [[8192]], ?_⟩
  simp only [Pcm.Format.stream, Pcm.Format.decode, h1, h2, bind, Except.bind, pure, Except.pure]

theorem exhibit_sound (files : List (Text × EditTable)) : (hostSound (exhibitHost files) exhibitSettings (.fin (3 / 2))).length = 45000 ∧
    (((exhibitHost files).format exhibitSettings.bitrate).stream (exhibitHost files).rnd (exhibitHost files).bad (.fin (3 / 2)) (exhibitHost files).buffers).2 = none := by
  obtain ⟨xs, h⟩ := exhibit_stream (fun _ => List.replicate 45000 0) (exhibitHost files).rnd (exhibitHost files).bad (.fin (3 / 2))
  unfold hostSound
  rw [show (exhibitHost files).format exhibitSettings.bitrate = { channels := 1, rnd := id, resample := fun _ => List.replicate 45000 0 } from rfl,
    show (exhibitHost files).buffers = [[0#8, 32#8]] from rfl, h]
  exact ⟨by rw [List.append_nil, List.length_map, List.length_replicate], rfl⟩

theorem exhibit_smooth {files : List (Text × EditTable)} (ht : HasTable files .HGR .NTSC) :
    Smooth (exhibitHost files) exhibitSettings (.fin (3 / 2)) (fun _ => none) := by
  refine ⟨rfl, by decide, ⟨by decide, fun q hq => ?_⟩, ⟨(exhibit_sound files).2, rfl⟩, ht, ?_, fun h => (nomatch h)⟩
  · cases hq
    exact le_refl _
  · exact (exhibit_video _ (exhibitHost files).images 0 (fun _ => none) fun _ _ => rfl).1

theorem exhibit_separate (files : List (Text × EditTable)) : Separate (exhibitHost files) exhibitSettings :=
  ⟨exhibit_blind _, fun i h => ((C78_names (hostGrabber (exhibitHost files) exhibitSettings) none (.inl rfl)).1 i _ h).1 rfl, exhibit_local _⟩

/-- C96: all hypotheses together, for a video of five pictures, one each second, of which every other is encoded.  The picture number 2 is complete at tick 37200, on a machine with 1020484 cycles per second. -/
example : ∃ (files : List (Text × EditTable)) (k : Nat) (p : Prog) (srv : Server) (e : Player.Env) (s : Player.Mach),
    ColourDifference plainDifference ∧ Separates plainDifference ∧ makeDataTables plainDifference (fun _ _ => 0) = .ok (exhibitHost files).files ∧
    (exhibitSettings.palette, ntscRGB) ∈ palettes ∧ exhibitSettings.mode = .HGR ∧
    Starts (exhibitHost files) exhibitWords exhibitSettings (.fin (3 / 2)) 14700 ∧ Smooth (exhibitHost files) exhibitSettings (.fin (3 / 2)) (fun _ => none) ∧
    Separate (exhibitHost files) exhibitSettings ∧ (exhibitHost files).addr = playerAddr ∧
    Converts (hostGrabber (exhibitHost files) exhibitSettings) (fun d => (demoScreen d, [])) ∧ Double (exhibitHost files).double ∧
    (exhibitHost files).rate = .ok (decText 1 ++ txt "/" ++ decText 1) ∧ exhibitSettings.bitrate = (14700 : Nat) ∧ GoodRates 1 1 14700 ∧
    (hostSound (exhibitHost files) exhibitSettings (.fin (3 / 2))).length = 45000 ∧
    Running (exhibitHost files) exhibitWords (fun _ => none) k p ∧ Still (exhibitHost files) exhibitWords (fun _ => none) p ∧
    ServerRun [p.disk (outFilename exhibitSettings.output exhibitSettings.input)] srv ∧ srv.status 7 = .done ∧ e.file = srv.received 7 ∧
    e.KeepsUp ∧ e.Answers ∧ e.NeverRefuses ∧ e.StaysOpen ∧ Player.Started s ∧ s.w.works = true ∧ Player.NoKeys e s ∧
    (∃ t ops bytes, exhibitSettings.mode.loadEditDistances (exhibitHost files).files exhibitSettings.palette = .ok t ∧
      (hostMovie (exhibitHost files) exhibitSettings 14700 t).stream (exhibitHost files).tape (hostSound (exhibitHost files) exhibitSettings (.fin (3 / 2)))
        (wholeVideo (hostGrabber (exhibitHost files) exhibitSettings) fun _ => none).1 = .ok (ops, bytes) ∧ 37199 < (ticksOf false ops).length) ∧
    exhibitSettings.everyN ∣ ((2 : Nat) : Int) ∧ ∀ T : Rat, |T - slowdown 1020484 14700 * soundTime 14700 (37199 + 1)| ≤ 146 / 1020484 →
      slowdown 1020484 14700 * frameTime 1 1 2 ≤ (T - 564700 / 1020484) * (1 - 1 / 2 ^ 49) ∧
      (T + 146 / 1020484) * (1 + 1 / 2 ^ 49) < slowdown 1020484 14700 * frameTime 1 1 (2 + exhibitSettings.everyN.natAbs) := by
  obtain ⟨files, hfiles, htab⟩ := C79_made plainDifference_ok.1 (fun _ _ => 0)
  have ht : HasTable files .HGR .NTSC := (htab _ _).2 (by decide)
  obtain ⟨t, ops, bytes, g1, g2, g3, ⟨s0, h0⟩, h⟩ := C80_good (exhibit_starts files) (exhibit_smooth ht) (exhibit_separate files) player_small
  obtain ⟨k, p, h1, h2⟩ := exists_still (fun n s hr => (h n s hr).1) _ 0 s0 h0 (Nat.le_add_left _ _)
  obtain ⟨-, -, ⟨d, hd, -⟩, -⟩ := h k p h1
  obtain ⟨srv, h3, h4⟩ := served_once d
  refine ⟨files, k, p, srv, Player.linkEnv (srv.received 7) (fun t => if t % 2 = 0 then 1 else 0) fun t => if t % 10 = 0 then some Player.stEstablished else none,
    Player.sampleMach 0x800 (Player.coldChip true), plainDifference_ok.1, plainDifference_ok.2, hfiles, List.mem_cons_of_mem _ List.mem_cons_self, rfl,
    exhibit_starts files, exhibit_smooth ht, exhibit_separate files, rfl, exhibit_converts _, ⟨rfl, fun x h _ => ?_⟩, rfl, rfl,
    by constructor <;> norm_num, (exhibit_sound files).1, h1, h2, by rw [hd]; exact h3, h4, rfl,
    Player.every_other _ fun t => ?_, fun t => ⟨10 * t, by omega, .inl (if_pos (by omega))⟩, fun t => ?_, fun t => ?_,
    Player.sample_started true, rfl, ⟨(by decide : (0#8).getLsbD 7 = false), fun _ _ => rfl⟩, ⟨t, ops, bytes, g1, g3, ?_⟩, ⟨1, rfl⟩, fun T hT => ?_⟩
  · have : (0 : Rat) ≤ x / 2 ^ 53 := div_nonneg (le_trans (by positivity) h) (by positivity)
    show x - x / 2 ^ 53 ≤ x ∧ x ≤ x + x / 2 ^ 53
    constructor <;> linarith
  · constructor
    · show (if 2 * t % 2 = 0 then 1 else 0) = 1
      rw [if_pos (by omega)]
    · show (if (2 * t + 1) % 2 = 0 then 1 else 0) = 0
      rw [if_neg (by omega)]
  · show (if t % 10 = 0 then some Player.stEstablished else none) ≠ _; split <;> decide
  · show (if t % 10 = 0 then some Player.stEstablished else none) ≠ _; split <;> decide
  · have hthr : ∀ k, (hostMovie (exhibitHost files) exhibitSettings 14700 t).thr k = 14700 * k := by
      intro k
      show (14700 * (k : Rat)).ceil.toNat = 14700 * k
      rw [show (14700 * (k : Rat)) = ((14700 * k : Nat) : Rat) by push_cast; ring]
      exact Nat.le_antisymm ((threshold_le _).2 le_rfl) (by
        have := (threshold_le (x := ((14700 * k : Nat) : Rat)) _).1 (Nat.le_refl _)
        exact_mod_cast this)
    have hlen := (C28_audio _ _ _ g2 ⟨hthr 0, fun k => by rw [hthr, hthr]; omega⟩ _ _ _ g3).2
    have hF : (wholeVideo (hostGrabber (exhibitHost files) exhibitSettings) fun _ => none).1.length = 5 :=
      (exhibit_video _ (exhibitHost files).images 0 (fun _ => none) fun _ _ => rfl).2
    rw [hF, (exhibit_sound files).1] at hlen
    unfold due at hlen
    rw [hthr] at hlen
    generalize (ticksOf false ops).length = n at hlen ⊢
    rcases hlen with h | ⟨-, h⟩ | ⟨h, -⟩
    · omega
    · omega
    · exact absurd (show 1024 * 1024 * (0 : Rat) = 0 by norm_num) h
  · obtain ⟨b1, b2⟩ := abs_le.1 hT
    have hn : exhibitSettings.everyN.natAbs = 2 := rfl
    rw [hn]
    unfold slowdown playRate soundTime frameTime at *
    norm_num at b1 b2 ⊢
    constructor <;> linarith

end IIVision
