import Verif.Proofs.Seen

/-! Claim C83: from the words of the command line to the dots on the screen. -/

namespace IIVision
open Spec

/-- What the transcoder has made of the input, with thresholds that are strictly monotonic. -/
theorem seen_setup {H : Host} {argv : List Text} {fs : FS} {c : Command} {norm : Flt} {tpf : Rat} (h : Starts H argv c norm tpf)
    (hs : Smooth H c norm fs) (hf : Separate H c) (ha : H.addr = playerAddr)
    {deltaE : RGB → RGB → Int} (hd : ColourDifference deltaE) {dm0 : Nat → Nat → Int} (hfiles : makeDataTables deltaE dm0 = .ok H.files)
    {conv : List U8 → List U8 × List U8} (hconv : Converts (hostGrabber H c) conv)
    (hdbl : Double H.double) {n d b : Nat} (hrate : H.rate = .ok (decText n ++ txt "/" ++ decText d)) (hbit : c.bitrate = b) (hg : GoodRates n d b)
    (hlong : (hostSound H c norm).length ≤ 2 ^ 48) {e : Player.Env} {s : Player.Mach} (hw : Watches H argv fs c e s) :
    ∃ t thr' ops bytes, Loaded deltaE dm0 c.mode c.palette t ∧ (∃ rgb, (c.palette, rgb) ∈ palettes) ∧ Paced thr' ∧
      (∀ k t : Nat, 1 ≤ t → frameTime n d k * (1 + 1 / 2 ^ 49) ≤ soundTime b t → due thr' k ≤ t) ∧
      (∀ k t : Nat, 1 ≤ k → soundTime b t < frameTime n d k * (1 - 1 / 2 ^ 49) → t < due thr' k) ∧
      MovieInput { hostMovie H c tpf t with thr := thr' } (hostSound H c norm) (wholeVideo (hostGrabber H c) fs).1 ∧
      Movie.stream { hostMovie H c tpf t with thr := thr' } H.tape (hostSound H c norm) (wholeVideo (hostGrabber H c) fs).1 = .ok (ops, bytes) ∧
      e.file = bytes.map (BitVec.ofNat 8) ∧
      ∀ k f T, (wholeVideo (hostGrabber H c) fs).1[k]? = some f → Movie.bitmapOf { hostMovie H c tpf t with thr := thr' } f = .ok T →
        ∃ r, ConvertedTo (hostGrabber H c) conv fs k r ∧ ∀ bk, (c.mode = .HGR → bk = false) → bankOf (banks T) bk = bankOf (pictureScreens r) bk := by
  obtain ⟨text, rate, g1, g2, g3⟩ := h.pace
  cases hrate.symm.trans g1
  rw [hbit] at g3
  obtain ⟨k, p, srv, client, hrun, hend, hr, hcl, he⟩ := hw.file
  obtain ⟨t, ops, bytes, h1, h2, h3, -, h4⟩ := C80_good h hs hf (by rw [ha]; exact player_small)
  obtain ⟨-, -, ⟨dd, q1, -, -, q2, q3⟩, -⟩ := h4 k p hrun
  have hbytes := q2 (q3 hend)
  rw [q1] at hr
  have hfile' : e.file = bytes.map (BitVec.ofNat 8) := by
    rw [he, (C51_unchanged hr client).2 hcl, ← hbytes]
    unfold numbers
    rw [List.map_map]
    conv => lhs; rw [← List.map_id dd]
    refine List.map_congr_left fun x _ => ?_
    simp
  obtain ⟨thr', p1, p2, p3, p4⟩ := paced_threshold hdbl hg g2 g3
  have hpal : ∃ rgb, (c.palette, rgb) ∈ palettes := by
    obtain ⟨files, m1, m2⟩ := C79_made hd dm0
    cases hfiles.symm.trans m1
    have := (m2 _ _).1 hs.table
    cases hp : c.palette with
    | UNKNOWN => exact absurd hp this
    | IIGS => exact ⟨_, List.mem_cons_self⟩
    | NTSC => exact ⟨_, List.mem_cons_of_mem _ List.mem_cons_self⟩
  refine ⟨t, thr', ops, bytes, ⟨_, hfiles, h1⟩, hpal, p1, p3, p4, ?_, ?_, hfile', ?_⟩
  · exact ⟨h2.1, h2.2, p1.1, h2.4, h2.5⟩
  · rw [← h3]
    exact stream_thr p2 hlong
  · intro j f T hF hT
    obtain ⟨item, r1, r2⟩ := (oneByOne_items hconv (hostGrabber H c).images 0 fs (Nat.zero_le _) rfl (filesAt_zero _ conv fs)).1 j f hF
    rw [Nat.zero_add] at r1
    obtain ⟨b1, b2⟩ := bitmapOf_banks hT
    have hmode : (hostGrabber H c).mode = c.mode := rfl
    by_cases hk : Kept (hostGrabber H c) fs j
    · have hff := (r1.1 hk).frame r2
      unfold FromFiles at hff
      rw [hmode] at hff
      cases hm : c.mode with
      | HGR =>
        rw [hm] at hff
        obtain ⟨-, x, x1, x2⟩ := hff
        refine ⟨(x, []), ⟨fun _ => by rw [hmode, hm]; exact x1, fun hn => absurd hk hn⟩, fun bk hb => ?_⟩
        rw [hb rfl]
        show T.bank false = filled x
        rw [b1, filled_shows x2]
      | DHGR =>
        rw [hm] at hff
        obtain ⟨a, x, x', x0, x1, x2, x3, x4⟩ := hff
        obtain ⟨a', y1, y2⟩ := b2 hm
        cases x0.symm.trans y1
        refine ⟨(x, x'), ⟨fun _ => by rw [hmode, hm]; exact ⟨x1, x3⟩, fun hn => absurd hk hn⟩, fun bk _ => ?_⟩
        cases bk
        · show T.bank false = filled x
          rw [b1, filled_shows x2]
        · show T.bank true = filled x'
          rw [y2, filled_shows x4]
    · obtain ⟨im, r3, r4⟩ := r1.2 hk
      subst r4
      have hP := itemOf_frame r2
      unfold Pictured at hP
      rw [hmode] at hP
      refine ⟨conv im, ⟨fun hy => absurd hy hk, fun _ => ⟨im, r3, rfl⟩⟩, ?_⟩
      cases hm : c.mode with
      | HGR =>
        rw [hm] at hP
        intro bk hb
        rw [hb rfl]
        show T.bank false = filled (conv im).1
        rw [b1, filled_shows hP.2]
      | DHGR =>
        rw [hm] at hP
        obtain ⟨a, x0, x1, x2⟩ := hP
        obtain ⟨a', y1, y2⟩ := b2 hm
        cases x0.symm.trans y1
        intro bk _
        cases bk
        · show T.bank false = filled (conv im).1
          rw [b1, filled_shows x1]
        · show T.bank true = filled (conv im).2
          rw [y2, filled_shows x2]

/-- The run of the player. -/
theorem screen_run {M : Movie} {A : List Int} {F : List Frame} (hin : MovieInput M A F) (ha : M.addr = playerAddr)
    {tape : Nat → Nat} {ops : List Opcode} {bytes : List Nat} (h : M.stream tape A F = .ok (ops, bytes))
    {e : Player.Env} (hfile : e.file = bytes.map (BitVec.ofNat 8)) (hD : e.Delivers) (hA : e.Answers) (hR : e.NeverRefuses)
    (hO : e.StaysOpen ∨ 8192 < e.file.length) {s : Player.Mach} (hst : Player.Started s) (hw : s.w.works = true) (hkb : Player.PausesEnd e s) :
    ∃ body s1 s2, ticksOf false ops = ticksOf false body ∧ s.Reaches e s1 ∧ s1.sw = Player.Switches.For M.mode s.sw ∧
      Player.Executes e s1 body s2 ∧ s2.pc = playerAddr .terminate ∧ ∀ i, 1 ≤ i → i ≤ (ticksOf false body).length →
      ∃ u done todo, body = done ++ todo ∧ (ticksOf false done).length = i ∧ Player.Executes e s1 done u ∧ u.Reaches e s2 ∧
        ∀ b, (M.mode = .HGR → b = false) → u.screen b = bankOf (((ticksOf false ops).take i).foldl playTick blank) b := by
  obtain ⟨body, s1, s2, calls, enc, steps, c1, c2, c3, c4, c5, c6, c7, c8, c9, c10, -⟩ := Player.C41_from_start hin ha h hfile hD hA hR hO hst hw hkb
  have htk : ticksOf false ops = ticksOf false body := by rw [c1]; exact ticksOf_terminate body false
  refine ⟨body, s1, s2, htk, c2, c3, c4, c5, fun i h1 hi => ?_⟩
  rw [htk]
  obtain ⟨-, -, u, done, todo, -, -, -, d0, d1, d2, d3, -, -, d4⟩ := c10 (i - 1) (by omega)
  rw [show i - 1 + 1 = i by omega] at d2 d4
  refine ⟨u, done, todo, d1, d2, d3, d0, fun b hb => ?_⟩
  rw [d4 b hb, play_ticks c8.symm fun j x st hx hs => ?_]
  obtain ⟨q1, q2, q3, q4, -⟩ := c9 j x st hx hs
  exact ⟨q1, q2, q3, q4⟩

/-- How long it plays. -/
theorem seen_ticks {H : Host} {c : Command} {fs : FS} {norm : Flt} {tpf : Rat} (hs : Smooth H c norm fs) {n d b : Nat} (hg : GoodRates n d b)
    {t : EditTable} {thr' : Nat → Nat} {ops : List Opcode} {bytes : List Nat} (hp : Paced thr')
    (h5 : ∀ k t : Nat, 1 ≤ k → soundTime b t < frameTime n d k * (1 - 1 / 2 ^ 49) → t < due thr' k)
    (h6 : MovieInput { hostMovie H c tpf t with thr := thr' } (hostSound H c norm) (wholeVideo (hostGrabber H c) fs).1)
    (h7 : Movie.stream { hostMovie H c tpf t with thr := thr' } H.tape (hostSound H c norm) (wholeVideo (hostGrabber H c) fs).1 = .ok (ops, bytes))
    (hl : ∀ q, c.maxMb = .fin q → q = 0) : (ticksOf false ops).length = (hostSound H c norm).length ∨
      frameTime n d H.images.length * (1 - 1 / 2 ^ 49) ≤ soundTime b ((ticksOf false ops).length + 1) := by
  rcases (C28_audio _ _ _ h6 hp _ _ _ h7).2 with h | ⟨-, h⟩ | ⟨h, -⟩
  · exact .inl h
  · right
    have hlen : (wholeVideo (hostGrabber H c) fs).1.length = H.images.length := oneByOne_length hs.video
    rw [hlen] at h
    rcases Nat.eq_zero_or_pos H.images.length with h0 | h0
    · rw [h0]
      unfold frameTime soundTime
      have hb : (0 : Rat) < b := by exact_mod_cast hg.b1
      rw [Nat.cast_zero, zero_mul, zero_div, zero_mul]
      positivity
    · by_contra hc
      have := h5 _ _ h0 (not_le.1 hc)
      have h' : due thr' H.images.length = (ticksOf false ops).length + 1 := h
      omega
  · exfalso
    refine h ?_
    show (match c.maxMb with | .fin x => 1024 * 1024 * x | _ => 0) = 0
    cases hm : c.maxMb with
    | fin q => simp only [hl q hm, mul_zero]
    | _ => rfl

theorem dot_hgr {m m' : Mem × Mem} (h : m.1 = m'.1) (y : Fin 192) (d : Fin 560) : screenDot .HGR m y d = screenDot .HGR m' y d := by
  unfold screenDot; rw [h]

theorem wrong_hgr {m m' r r' : Mem × Mem} (h : m.1 = m'.1) (h' : r.1 = r'.1) : wrongInAll .HGR m r = wrongInAll .HGR m' r' := by
  obtain ⟨m, a⟩ := m
  obtain ⟨m', a'⟩ := m'
  obtain ⟨r, b⟩ := r
  obtain ⟨r', b'⟩ := r'
  cases h
  cases h'
  rfl

/-- **C83.** Hi-res: a good input with the tables of the generator and a converter that does its job, transcoded with any words of the command line that select it, delivered by the server and
played by the player: the player plays to TERMINATE, with a tick for every sample of the sound if there is no size limit and the pictures last so long, and while it plays: let `j` be the number of a picture that is not skipped and `i` the number of a sample that is played at least 7681 samples after
the time of picture `j` and before the time of the next one that is not skipped (times by the frame rate `n / d` and the bit rate `b`).  Then after tick `i` the
monitor shows the picture as the converter has converted it, dot for dot, except that the leftmost dot of a line may differ as in C62. -/
theorem C83_hgr {H : Host} {argv : List Text} {fs : FS} {c : Command} {norm : Flt} {tpf : Rat} (h : Starts H argv c norm tpf)
    (hs : Smooth H c norm fs) (hf : Separate H c) (ha : H.addr = playerAddr) (hmode : c.mode = .HGR)
    {deltaE : RGB → RGB → Int} (hd : ColourDifference deltaE) (hsep : Separates deltaE) {dm0 : Nat → Nat → Int} (hfiles : makeDataTables deltaE dm0 = .ok H.files)
    {conv : List U8 → List U8 × List U8} (hconv : Converts (hostGrabber H c) conv)
    (hdbl : Double H.double) {n d b : Nat} (hrate : H.rate = .ok (decText n ++ txt "/" ++ decText d)) (hbit : c.bitrate = b) (hg : GoodRates n d b)
    (hlong : (hostSound H c norm).length ≤ 2 ^ 48) {e : Player.Env} {s : Player.Mach} (hw : Watches H argv fs c e s) :
    ∃ body s1 s2, s.Reaches e s1 ∧ s1.sw = Player.Switches.For .HGR s.sw ∧ Player.Executes e s1 body s2 ∧ s2.pc = playerAddr .terminate ∧
      ((∀ q, c.maxMb = .fin q → q = 0) → (ticksOf false body).length = (hostSound H c norm).length ∨
        frameTime n d H.images.length * (1 - 1 / 2 ^ 49) ≤ soundTime b ((ticksOf false body).length + 1)) ∧
      ∀ j i : Nat, c.everyN ∣ (j : Int) → frameTime n d j * (1 + 1 / 2 ^ 49) + soundTime b 7681 ≤ soundTime b i →
        (∀ j' : Nat, j < j' → c.everyN ∣ (j' : Int) → soundTime b i < frameTime n d j' * (1 - 1 / 2 ^ 49)) → i ≤ (ticksOf false body).length →
        ∃ u done todo r, body = done ++ todo ∧ (ticksOf false done).length = i ∧ Player.Executes e s1 done u ∧ u.Reaches e s2 ∧
          ConvertedTo (hostGrabber H c) conv fs j r ∧ ∀ (y : Fin 192) (x : Fin 560),
            screenDot .HGR u.screens y x = screenDot .HGR (pictureScreens r) y x ∨
            x = 0 ∧ hiresAddr 0 y 0 % 256 ≠ 0 ∧ (screenByte (filled r.1) y 0 = 0x7f ∧ screenByte u.screens.1 y 0 = 0xff ∨
              screenByte (filled r.1) y 0 = 0xff ∧ screenByte u.screens.1 y 0 = 0x7f) := by
  obtain ⟨t, thr', ops, bytes, h1, ⟨rgb, h2⟩, h3, h4, h5, h6, h7, h8, h9⟩ := seen_setup h hs hf ha hd hfiles hconv hdbl hrate hbit hg hlong hw
  obtain ⟨body, s1, s2, r0, r1, r2, r3, r4, r5⟩ := screen_run h6 ha h7 h8 hw.delivers hw.answers hw.never hw.stays hw.started hw.works hw.keys
  have hm' : (({ hostMovie H c tpf t with thr := thr' } : Movie)).mode = .HGR := hmode
  rw [hm'] at r2 r5
  refine ⟨body, s1, s2, r1, r2, r3, r4, by rw [← r0]; exact seen_ticks hs hg h3 h5 h6 h7, ?_⟩
  intro j i hj hlate hnext hi
  have hb : (0 : Rat) < b := by exact_mod_cast hg.b1
  have hlate' : due thr' j + 7680 ≤ i := by
    have hi0 : (7681 : Rat) ≤ i := by
      have : (0 : Rat) ≤ frameTime n d j * (1 + 1 / 2 ^ 49) := by unfold frameTime; positivity
      have : soundTime b 7681 ≤ soundTime b i := by linarith
      unfold soundTime at this
      rw [div_le_div_iff_of_pos_right hb] at this
      exact_mod_cast this
    have hi1 : 7681 ≤ i := by exact_mod_cast hi0
    have := h4 j (i - 7680) (by omega) (by
      have e1 : soundTime b (i - 7680) = soundTime b i - soundTime b 7680 := by
        unfold soundTime
        rw [Nat.cast_sub (by omega)]
        ring
      have e2 : soundTime b 7680 ≤ soundTime b 7681 := by
        unfold soundTime
        rw [div_le_div_iff_of_pos_right hb]
        norm_num
      rw [e1]; linarith)
    omega
  rw [hmode] at h1
  rw [← r0] at hi
  obtain ⟨f, T, g1, g2, g3⟩ := C64_hgr_shown deltaE hd hsep dm0 c.palette rgb h2 _ hm' h1 h3 _ _ h6 _ _ _ h7 j i hj hlate' hi
    fun j' q1 q2 => h5 j' i (by omega) (hnext j' q1 q2)
  obtain ⟨r, k1, k2⟩ := h9 j f T g1 g2
  rw [r0] at hi
  obtain ⟨u, done, todo, d1, d2, d3, d4, d5⟩ := r5 i (by omega) hi
  refine ⟨u, done, todo, r, d1, d2, d3, d4, k1, fun y x => ?_⟩
  have key := g3 y x
  dsimp only at key
  have e1 : u.screens.1 = (((ticksOf false ops).take i).foldl playTick blank).1 := d5 false fun _ => rfl
  have e2 : (banks T).1 = filled r.1 := k2 false fun _ => rfl
  rw [← e1, e2, dot_hgr e1.symm, dot_hgr (m := banks T) (m' := pictureScreens r) e2] at key
  exact key

/-- **C83.** Hi-res, small changes: there is a tick `i0`, the last before the time of picture `j` (up to one part in 2^49), so that, if the screen differs from the converted picture in `w` bytes
after tick `i0`, it shows it from tick `i0 + 3 * w + 4` on until the next one. -/
theorem C83_hgr_small {H : Host} {argv : List Text} {fs : FS} {c : Command} {norm : Flt} {tpf : Rat} (h : Starts H argv c norm tpf)
    (hs : Smooth H c norm fs) (hf : Separate H c) (ha : H.addr = playerAddr) (hmode : c.mode = .HGR)
    {deltaE : RGB → RGB → Int} (hd : ColourDifference deltaE) (hsep : Separates deltaE) {dm0 : Nat → Nat → Int} (hfiles : makeDataTables deltaE dm0 = .ok H.files)
    {conv : List U8 → List U8 × List U8} (hconv : Converts (hostGrabber H c) conv)
    (hdbl : Double H.double) {n d b : Nat} (hrate : H.rate = .ok (decText n ++ txt "/" ++ decText d)) (hbit : c.bitrate = b) (hg : GoodRates n d b)
    (hlong : (hostSound H c norm).length ≤ 2 ^ 48) {e : Player.Env} {s : Player.Mach} (hw : Watches H argv fs c e s) :
    ∃ body s1 s2, s.Reaches e s1 ∧ s1.sw = Player.Switches.For .HGR s.sw ∧ Player.Executes e s1 body s2 ∧ s2.pc = playerAddr .terminate ∧
      ((∀ q, c.maxMb = .fin q → q = 0) → (ticksOf false body).length = (hostSound H c norm).length ∨
        frameTime n d H.images.length * (1 - 1 / 2 ^ 49) ≤ soundTime b ((ticksOf false body).length + 1)) ∧
      ∀ j : Nat, 1 ≤ j → c.everyN ∣ (j : Int) → ∃ i0 : Nat, 1 ≤ i0 ∧ soundTime b i0 < frameTime n d j * (1 + 1 / 2 ^ 49) ∧ frameTime n d j * (1 - 1 / 2 ^ 49) ≤ soundTime b (i0 + 1) ∧
        ∀ i : Nat, i0 < i → (∀ j' : Nat, j < j' → c.everyN ∣ (j' : Int) → soundTime b i < frameTime n d j' * (1 - 1 / 2 ^ 49)) → i ≤ (ticksOf false body).length →
        ∃ u done rest u' todo r, body = done ++ rest ++ todo ∧ (ticksOf false done).length = i0 ∧ Player.Executes e s1 done u ∧
          (ticksOf false (done ++ rest)).length = i ∧ Player.Executes e s1 (done ++ rest) u' ∧ u'.Reaches e s2 ∧
          ConvertedTo (hostGrabber H c) conv fs j r ∧ (i0 + 3 * wrongInAll .HGR u.screens (pictureScreens r) + 4 ≤ i → ∀ (y : Fin 192) (x : Fin 560),
            screenDot .HGR u'.screens y x = screenDot .HGR (pictureScreens r) y x ∨
            x = 0 ∧ hiresAddr 0 y 0 % 256 ≠ 0 ∧ (screenByte (filled r.1) y 0 = 0x7f ∧ screenByte u'.screens.1 y 0 = 0xff ∨
              screenByte (filled r.1) y 0 = 0xff ∧ screenByte u'.screens.1 y 0 = 0x7f)) := by
  obtain ⟨t, thr', ops, bytes, h1, ⟨rgb, h2⟩, h3, h4, h5, h6, h7, h8, h9⟩ := seen_setup h hs hf ha hd hfiles hconv hdbl hrate hbit hg hlong hw
  obtain ⟨body, s1, s2, r0, r1, r2, r3, r4, r5⟩ := screen_run h6 ha h7 h8 hw.delivers hw.answers hw.never hw.stays hw.started hw.works hw.keys
  have hm' : (({ hostMovie H c tpf t with thr := thr' } : Movie)).mode = .HGR := hmode
  rw [hm'] at r2 r5
  refine ⟨body, s1, s2, r1, r2, r3, r4, by rw [← r0]; exact seen_ticks hs hg h3 h5 h6 h7, ?_⟩
  intro j hj1 hj
  have hdue2 : 2 ≤ due thr' j := by unfold due; omega
  refine ⟨due thr' j - 1, by omega, ?_, ?_, ?_⟩
  · by_contra hc
    have := h4 j (due thr' j - 1) (by omega) (not_lt.1 hc)
    omega
  · by_contra hc
    have := h5 j (due thr' j - 1 + 1) hj1 (not_le.1 hc)
    omega
  intro i hi0 hnext hi
  rw [hmode] at h1
  rw [← r0] at hi
  obtain ⟨f, T, g1, g2, g3⟩ := C67_hgr_small deltaE hd hsep dm0 c.palette rgb h2 _ hm' h1 h3 _ _ h6 _ _ _ h7 j i hj (by show due thr' j ≤ i; omega) hi
    fun j' q1 q2 => h5 j' i (by omega) (hnext j' q1 q2)
  obtain ⟨r, k1, k2⟩ := h9 j f T g1 g2
  rw [r0] at hi
  obtain ⟨u, done, todo, a1, a2, a3, -, a5⟩ := r5 (due thr' j - 1) (by omega) (by omega)
  obtain ⟨u', done2, todo2, b1, b2, b3, b4, b5⟩ := r5 i (by omega) hi
  obtain ⟨rest, rfl⟩ := ticks_prefix (a1.symm.trans b1) (by omega)
  refine ⟨u, done, rest, u', todo2, r, b1, a2, a3, b2, b3, b4, k1, fun hle y x => ?_⟩
  dsimp only at g3
  have e0 : u.screens.1 = (((ticksOf false ops).take (due thr' j - 1)).foldl playTick blank).1 := a5 false fun _ => rfl
  have e1 : u'.screens.1 = (((ticksOf false ops).take i).foldl playTick blank).1 := b5 false fun _ => rfl
  have e2 : (banks T).1 = filled r.1 := k2 false fun _ => rfl
  rw [wrong_hgr e0 e2.symm] at hle
  have key := g3 (by
    show due thr' j + 3 * wrongInAll .HGR (((ticksOf false ops).take (due thr' j - 1)).foldl playTick blank) (banks T) + 3 ≤ i
    omega) y x
  rw [← e1, e2, dot_hgr e1.symm, dot_hgr (m := banks T) (m' := pictureScreens r) e2] at key
  exact key

/-- **C83.** Double hi-res: the same for a picture whose time is not later than that of tick `292 * q`, the first after the `q`-th ACK, and which stays current for the two following blocks: if the screen differs from the converted
picture in at most 144 bytes before them, it shows it after them, dot for dot, but with the NTSC palette a byte of alternating dots may have the opposite phase as in C62. -/
theorem C83_dhgr {H : Host} {argv : List Text} {fs : FS} {c : Command} {norm : Flt} {tpf : Rat} (h : Starts H argv c norm tpf)
    (hs : Smooth H c norm fs) (hf : Separate H c) (ha : H.addr = playerAddr) (hmode : c.mode = .DHGR)
    {deltaE : RGB → RGB → Int} (hd : ColourDifference deltaE) (hsep : Separates deltaE) {dm0 : Nat → Nat → Int} (hfiles : makeDataTables deltaE dm0 = .ok H.files)
    {conv : List U8 → List U8 × List U8} (hconv : Converts (hostGrabber H c) conv)
    (hdbl : Double H.double) {n d b : Nat} (hrate : H.rate = .ok (decText n ++ txt "/" ++ decText d)) (hbit : c.bitrate = b) (hg : GoodRates n d b)
    (hlong : (hostSound H c norm).length ≤ 2 ^ 48) {e : Player.Env} {s : Player.Mach} (hw : Watches H argv fs c e s) :
    ∃ body s1 s2, s.Reaches e s1 ∧ s1.sw = Player.Switches.For .DHGR s.sw ∧ Player.Executes e s1 body s2 ∧ s2.pc = playerAddr .terminate ∧
      ((∀ q, c.maxMb = .fin q → q = 0) → (ticksOf false body).length = (hostSound H c norm).length ∨
        frameTime n d H.images.length * (1 - 1 / 2 ^ 49) ≤ soundTime b ((ticksOf false body).length + 1)) ∧
      ∀ j q : Nat, 1 ≤ q → c.everyN ∣ (j : Int) → frameTime n d j * (1 + 1 / 2 ^ 49) ≤ soundTime b (292 * q) →
        (∀ j' : Nat, j < j' → c.everyN ∣ (j' : Int) → soundTime b (292 * (q + 2) - 1) < frameTime n d j' * (1 - 1 / 2 ^ 49)) →
        292 * (q + 2) - 1 ≤ (ticksOf false body).length →
        ∃ u done rest u' todo r, body = done ++ rest ++ todo ∧ (ticksOf false done).length = 292 * q - 1 ∧ Player.Executes e s1 done u ∧
          (ticksOf false (done ++ rest)).length = 292 * (q + 2) - 1 ∧ Player.Executes e s1 (done ++ rest) u' ∧ u'.Reaches e s2 ∧
          ConvertedTo (hostGrabber H c) conv fs j r ∧ (wrongInAll .DHGR u.screens (pictureScreens r) ≤ 144 → ∀ (y : Fin 192) (x : Fin 560),
            screenDot .DHGR u'.screens y x = screenDot .DHGR (pictureScreens r) y x ∨
            c.palette ≠ .IIGS ∧ GreyPair (screenByte (bankOf u'.screens (x.val / 7 % 2 == 0)) y ⟨x.val / 14, by omega⟩)
              (screenByte (bankOf (pictureScreens r) (x.val / 7 % 2 == 0)) y ⟨x.val / 14, by omega⟩)) := by
  obtain ⟨t, thr', ops, bytes, h1, ⟨rgb, h2⟩, h3, h4, h5, h6, h7, h8, h9⟩ := seen_setup h hs hf ha hd hfiles hconv hdbl hrate hbit hg hlong hw
  obtain ⟨body, s1, s2, r0, r1, r2, r3, r4, r5⟩ := screen_run h6 ha h7 h8 hw.delivers hw.answers hw.never hw.stays hw.started hw.works hw.keys
  have hm' : (({ hostMovie H c tpf t with thr := thr' } : Movie)).mode = .DHGR := hmode
  rw [hm'] at r2 r5
  refine ⟨body, s1, s2, r1, r2, r3, r4, by rw [← r0]; exact seen_ticks hs hg h3 h5 h6 h7, ?_⟩
  intro j q hq hj hdue hnext hi
  rw [hmode] at h1
  rw [← r0] at hi
  obtain ⟨f, T, g1, g2, g3⟩ := C67_dhgr_small deltaE hd hsep dm0 c.palette rgb h2 _ hm' h1 h3 _ _ h6 _ _ _ h7 j q hj hq (h4 j _ (by omega) hdue) hi
    fun j' q1 q2 => h5 j' _ (by omega) (hnext j' q1 q2)
  obtain ⟨r, k1, k2⟩ := h9 j f T g1 g2
  rw [r0] at hi
  obtain ⟨u, done, todo, a1, a2, a3, -, a5⟩ := r5 (292 * q - 1) (by omega) (by omega)
  obtain ⟨u', done2, todo2, b1, b2, b3, b4, b5⟩ := r5 (292 * (q + 2) - 1) (by omega) hi
  obtain ⟨rest, rfl⟩ := ticks_prefix (a1.symm.trans b1) (by omega)
  refine ⟨u, done, rest, u', todo2, r, b1, a2, a3, b2, b3, b4, k1, ?_⟩
  have e0 : u.screens = ((ticksOf false ops).take (292 * q - 1)).foldl playTick blank :=
    Prod.ext (a5 false fun _ => rfl) (a5 true fun h => nomatch h)
  have e1 : u'.screens = ((ticksOf false ops).take (292 * (q + 2) - 1)).foldl playTick blank :=
    Prod.ext (b5 false fun _ => rfl) (b5 true fun h => nomatch h)
  have hne : c.mode = .HGR → ∀ bk : Bool, bk = false := fun h => by rw [hmode] at h; cases h
  have e2 : banks T = pictureScreens r := Prod.ext (k2 false fun h => hne h _) (k2 true fun h => hne h _)
  dsimp only at g3
  rw [← e0, ← e1, e2] at g3
  exact g3

/-! ### The hypotheses can be met -/

/-- Where the files of the pictures of `v.mp4` are. -/
def slideFiles (mode : VideoMode) : Grabber :=
  { filename := txt "v.mp4", mode, palette := .NTSC, images := [], readError := none, tool := fun _ _ fs => .ok fs }

/-- A converter that fills the screen with the first byte of the picture. -/
def slideTool (mode : VideoMode) (i : Nat) (args : List Text) (fs : FS) : Except PyErr FS :=
  let screen := demoScreen ((fs (args.getD 1 [])).getD [])
  match mode with
  | .HGR => .ok (fs.put ((slideFiles mode).path i (txt "C.BIN")) screen)
  | .DHGR => .ok ((fs.put ((slideFiles mode).path i (txt ".BIN")) screen).put ((slideFiles mode).path i (txt ".AUX")) screen)

/-- Silence of the given length, some pictures, a frame rate, and the files of the generator. -/
def slideHost (mode : VideoMode) (files : List (Text × EditTable)) (samples n d : Nat) (images : List (List U8)) : Host :=
  { demoHost with buffers := List.replicate samples [0#8, 0#8], rate := .ok (decText n ++ txt "/" ++ decText d), images, tool := slideTool mode, files }

def slideWords (mode : VideoMode) : List Text := [txt "--video_mode", mode.name, txt "--audio_norm", txt "1.5", txt "v.mp4"]

def slideSettings (mode : VideoMode) : Command := ⟨txt "v.mp4", none, .fin 0, some (.fin (3 / 2)), 14700, 2, mode, .NTSC⟩

theorem slide_sound (mode : VideoMode) (files : List (Text × EditTable)) (samples n d : Nat) (images : List (List U8)) :
    (hostSound (slideHost mode files samples n d images) (slideSettings mode) (.fin (3 / 2))).length = samples ∧
    (((slideHost mode files samples n d images).format (slideSettings mode).bitrate).stream (slideHost mode files samples n d images).rnd
      (slideHost mode files samples n d images).bad (.fin (3 / 2)) (slideHost mode files samples n d images).buffers).2 = none := by
  have key : ∀ k, ((demoHost.format (slideSettings mode).bitrate).stream demoHost.rnd demoHost.bad (.fin (3 / 2)) (List.replicate k [0#8, 0#8])).1.length = k ∧
      ((demoHost.format (slideSettings mode).bitrate).stream demoHost.rnd demoHost.bad (.fin (3 / 2)) (List.replicate k [0#8, 0#8])).2 = none := by
    have hd : (demoHost.format (slideSettings mode).bitrate).decode [0#8, 0#8] = .ok [0] := by
      show (demoHost.format 14700).decode [0#8, 0#8] = .ok [0]
      decide +kernel
    intro k
    induction k with
    | zero => exact ⟨rfl, rfl⟩
    | succ k ih =>
      rw [List.replicate_succ, Pcm.Format.stream, hd]
      simp only [List.map_cons, List.map_nil, List.length_append, List.length_cons, List.length_nil, ih.1, ih.2, and_true]
      omega
  exact key samples

theorem slide_local (mode : VideoMode) (files : List (Text × EditTable)) (samples n d : Nat) (images : List (List U8)) :
    LocalTool (hostGrabber (slideHost mode files samples n d images) (slideSettings mode)) := by
  intro i args fs fs' h q hq
  change slideTool mode i args fs = .ok fs' at h
  have hq' : ¬ OwnFile (slideFiles mode) i q := hq
  simp only [OwnFile, not_or] at hq'
  unfold slideTool at h
  cases mode with
  | HGR => cases h; exact put_other _ hq'.1 _
  | DHGR => cases h; rw [put_other _ hq'.2.2.1, put_other _ hq'.2.1]

theorem slide_converts (mode : VideoMode) (files : List (Text × EditTable)) (samples n d : Nat) (images : List (List U8)) :
    Converts (hostGrabber (slideHost mode files samples n d images) (slideSettings mode)) fun x => (demoScreen x, demoScreen x) := by
  intro i fs data hd
  have hp : ∀ sfx, (hostGrabber (slideHost mode files samples n d images) (slideSettings mode)).path i sfx = (slideFiles mode).path i sfx := fun _ => rfl
  rw [hp] at hd
  have hne : (slideFiles mode).path i (txt ".BIN") ≠ (slideFiles mode).path i (txt ".AUX") := fun h =>
    absurd (Grabber.path_inj suffix_bin suffix_aux h).2 (by decide)
  cases mode with
  | HGR =>
    refine ⟨fs.put ((slideFiles .HGR).path i (txt "C.BIN")) (demoScreen data), ?_, put_same _ _ _, fun q hq => put_other _ hq _⟩
    show slideTool .HGR i [_, (slideFiles .HGR).path i (txt ".bmp"), _, _, _] fs = _
    unfold slideTool
    simp only [List.getD_cons_succ, List.getD_cons_zero, hd, Option.getD_some]
  | DHGR =>
    refine ⟨(fs.put ((slideFiles .DHGR).path i (txt ".BIN")) (demoScreen data)).put ((slideFiles .DHGR).path i (txt ".AUX")) (demoScreen data), ?_,
      (put_other _ hne _).trans (put_same _ _ _), put_same _ _ _, fun q h1 h2 => (put_other _ h2 _).trans (put_other _ h1 _)⟩
    show slideTool .DHGR i [_, (slideFiles .DHGR).path i (txt ".bmp"), _, _, _, _] fs = _
    unfold slideTool
    simp only [List.getD_cons_succ, List.getD_cons_zero, hd, Option.getD_some]

theorem slide_separate (mode : VideoMode) (files : List (Text × EditTable)) (samples n d : Nat) (images : List (List U8)) :
    Separate (slideHost mode files samples n d images) (slideSettings mode) := by
  have hn := (C78_names (slideFiles mode) none (.inl rfl)).1
  refine ⟨?_, fun i h => (hn i _ h).1 rfl, slide_local mode files samples n d images⟩
  intro i fs x
  have hc : ∀ q, OwnFile (slideFiles mode) i q → q ≠ outFilename none (txt "v.mp4") := fun q hq => (hn i q hq).1
  have e0 := hc _ (.inl rfl)
  have e1 := hc _ (.inr (.inr (.inr rfl)))
  have e2 := hc _ (.inr (.inl rfl))
  have e3 := hc _ (.inr (.inr (.inl rfl)))
  have hx : ∀ y : Text, (FS.put fs (outFilename none (txt "v.mp4")) x) ((slideFiles mode).path i (txt ".bmp")) = fs ((slideFiles mode).path i (txt ".bmp")) :=
    fun _ => put_other _ e1 _
  cases mode with
  | HGR =>
    show slideTool .HGR i [_, (slideFiles .HGR).path i (txt ".bmp"), _, _, _] (FS.put fs (outFilename none (txt "v.mp4")) x) =
      Except.map _ (slideTool .HGR i [_, (slideFiles .HGR).path i (txt ".bmp"), _, _, _] fs)
    unfold slideTool
    simp only [List.getD_cons_succ, List.getD_cons_zero, put_other _ e1, Except.map]
    rw [put_comm _ e0.symm]
    rfl
  | DHGR =>
    show slideTool .DHGR i [_, (slideFiles .DHGR).path i (txt ".bmp"), _, _, _, _] (FS.put fs (outFilename none (txt "v.mp4")) x) =
      Except.map _ (slideTool .DHGR i [_, (slideFiles .DHGR).path i (txt ".bmp"), _, _, _, _] fs)
    unfold slideTool
    simp only [List.getD_cons_succ, List.getD_cons_zero, put_other _ e1, Except.map]
    rw [put_comm _ e2.symm, put_comm _ e3.symm]
    rfl

theorem slide_smooth (mode : VideoMode) (files : List (Text × EditTable)) (ht : HasTable files mode .NTSC) (samples n d : Nat) (images : List (List U8))
    (him : ∀ im ∈ images, (im.headD 0#8).toNat < 0x80) :
    Smooth (slideHost mode files samples n d images) (slideSettings mode) (.fin (3 / 2)) (fun _ => none) := by
  have hconv := slide_converts mode files samples n d images
  have hitems := oneByOne_items hconv (hostGrabber (slideHost mode files samples n d images) (slideSettings mode)).images 0 (fun _ => none) (Nat.zero_le _) rfl
    (filesAt_zero _ _ _)
  have hkept : ∀ i, ¬ Kept (hostGrabber (slideHost mode files samples n d images) (slideSettings mode)) (fun _ => none) i := by
    intro i h
    cases mode with
    | HGR => exact h rfl
    | DHGR => exact h.1 rfl
  refine ⟨rfl, (by decide : (2 : Int) ≠ 0), ⟨(by decide : Flt.fin 0 ≠ .negInf), fun q hq => by cases hq; exact le_refl _⟩, ⟨(slide_sound mode files samples n d images).2, rfl⟩,
    ht, hitems.2 rfl fun i item _ _ hg => ?_, fun hm f hf m hfm p o => ?_⟩
  · obtain ⟨im, -, rfl⟩ := hg.2 (hkept i)
    exact itemOf_good (demoScreen_length im) fun _ => demoScreen_length im
  · change mode = .DHGR at hm
    subst hm
    obtain ⟨j, hj⟩ := List.getElem?_of_mem hf
    obtain ⟨item, h1, h2⟩ := hitems.1 j f hj
    obtain ⟨im, h3, rfl⟩ := h1.2 (hkept _)
    obtain ⟨a, x0, x1, x2⟩ : ∃ a, f.aux = some a ∧ Shows f.main (demoScreen im) ∧ Shows a (demoScreen im) := itemOf_frame h2
    have hb : Shows m (demoScreen im) := by
      rcases hfm with rfl | h
      · exact x1
      · cases x0.symm.trans h; exact x2
    rw [List.eq_of_mem_replicate (List.mem_of_getElem? (hb.2.2 p o))]
    exact him im (List.mem_of_getElem? h3)

theorem slide_starts (mode : VideoMode) (files : List (Text × EditTable)) (samples n d : Nat) (hn : n ≠ 0) (hd : d ≠ 0) (images : List (List U8)) :
    Starts (slideHost mode files samples n d images) (slideWords mode) (slideSettings mode) (.fin (3 / 2)) (14700 / (n / d)) := by
  refine ⟨(C77_command_line _ _ _).1 (by cases mode <;> rfl), ?_, .inl rfl, ⟨_, n / d, rfl, ?_, ?_⟩, rfl⟩
  · show (demoHost.format 14700).normalization demoHost.rnd (some (.fin (3 / 2))) demoHost.analysed = _
    decide +kernel
  · exact (C73_rate id rfl n d).1 (show (d : Rat) ≠ 0 by exact_mod_cast hd)
  · show ticksPerFrame id 14700 ((n : Rat) / d) = _
    unfold ticksPerFrame
    have : ((n : Rat) / d) ≠ 0 := by
      have h1 : (n : Rat) ≠ 0 := by exact_mod_cast hn
      have h2 : (d : Rat) ≠ 0 := by exact_mod_cast hd
      exact div_ne_zero h1 h2
    simp [this]

theorem double_id : Double id := by
  refine ⟨rfl, fun x h _ => ?_⟩
  have : (0 : Rat) ≤ x / 2 ^ 53 := div_nonneg (le_trans (by positivity) h) (by positivity)
  show x - x / 2 ^ 53 ≤ x ∧ x ≤ x + x / 2 ^ 53
  constructor <;> linarith

/-- The file is transcoded, served and played. -/
theorem slide_watches {H : Host} {argv : List Text} {c : Command} {norm : Flt} {tpf : Rat} {fs : FS} (h1 : Starts H argv c norm tpf) (h2 : Smooth H c norm fs)
    (h3 : Separate H c) (ha : H.addr = playerAddr) : ∃ e s, Watches H argv fs c e s := by
  obtain ⟨t, ops, bytes, -, -, -, ⟨s0, h0⟩, h⟩ := C80_good h1 h2 h3 (by rw [ha]; exact player_small)
  obtain ⟨k, p, r1, r2⟩ := exists_still (fun n s hr => (h n s hr).1) _ 0 s0 h0 (Nat.le_add_left _ _)
  obtain ⟨-, -, ⟨d, hd, -⟩, -⟩ := h k p r1
  obtain ⟨srv, h3, h4⟩ := served_once d
  refine ⟨Player.linkEnv (srv.received 7) (fun _ => 1) fun _ => some Player.stEstablished, Player.sampleMach 0x800 (Player.coldChip true),
    ⟨⟨k, p, srv, 7, r1, r2, by rw [hd]; exact h3, h4, rfl⟩, fun t => ⟨t, Nat.le_refl _, Nat.one_pos⟩, fun t => ⟨t, Nat.le_refl _, .inl rfl⟩, fun t => ?_, .inl fun t => ?_,
      Player.sample_started true, rfl, .inl ⟨(by decide : (0#8).getLsbD 7 = false), fun _ _ => rfl⟩⟩⟩
  · show some Player.stEstablished ≠ some Player.stClosed; decide
  · show some Player.stEstablished ≠ some Player.stCloseWait; decide

/-- C83_hgr, C83_hgr_small: one picture per second and 8000 samples (of 14700 per second); after 7800 of them the screen shows the first picture. -/
example : ∃ files argv e s, makeDataTables plainDifference (fun _ _ => 0) = .ok files ∧
    Watches (slideHost .HGR files 8000 1 1 [[0x2a#8]]) argv (fun _ => none) (slideSettings .HGR) e s ∧
    ∃ s1 done u, s.Reaches e s1 ∧ Player.Executes e s1 done u ∧ (ticksOf false done).length = 7800 ∧
      ∀ (y : Fin 192) (x : Fin 560), x ≠ 0 → screenDot .HGR u.screens y x = screenDot .HGR (pictureScreens (demoScreen [0x2a#8], demoScreen [0x2a#8])) y x := by
  obtain ⟨files, hf, hft⟩ := C79_made plainDifference_ok.1 (fun _ _ => 0)
  have h1 := slide_starts .HGR files 8000 1 1 (by decide) (by decide) [[0x2a#8]]
  have h2 := slide_smooth .HGR files ((hft _ _).2 (by decide)) 8000 1 1 [[0x2a#8]] (by decide)
  have h3 := slide_separate .HGR files 8000 1 1 [[0x2a#8]]
  obtain ⟨e, s, hw⟩ := slide_watches h1 h2 h3 rfl
  refine ⟨files, _, e, s, hf, hw, ?_⟩
  have hlen := (slide_sound .HGR files 8000 1 1 [[0x2a#8]]).1
  obtain ⟨body, s1, s2, r1, -, r3, -, r5, r6⟩ := C83_hgr h1 h2 h3 rfl rfl plainDifference_ok.1 plainDifference_ok.2 hf (slide_converts .HGR files 8000 1 1 [[0x2a#8]]) double_id
    (n := 1) (d := 1) (b := 14700) rfl rfl (by constructor <;> norm_num) (by rw [hlen]; norm_num) hw
  have hticks : 7800 ≤ (ticksOf false body).length := by
    rcases r5 (fun q hq => by cases hq; rfl) with h | h
    · rw [hlen] at h; omega
    · have h' : (14699 : Rat) < ((ticksOf false body).length + 1 : Nat) := by
        have e1 : frameTime 1 1 (slideHost .HGR files 8000 1 1 [[0x2a#8]]).images.length = 1 := by
          show frameTime 1 1 1 = 1
          norm_num [frameTime]
        rw [e1] at h
        unfold soundTime at h
        rw [le_div_iff₀ (by norm_num)] at h
        refine lt_of_lt_of_le ?_ h
        norm_num
      have : 14699 < (ticksOf false body).length + 1 := by exact_mod_cast h'
      omega
  have hnext : ∀ j' : Nat, 0 < j' → (2 : Int) ∣ (j' : Int) → soundTime 14700 7800 < frameTime 1 1 j' * (1 - 1 / 2 ^ 49) := by
    intro j' hj _
    have : (1 : Rat) ≤ j' := by exact_mod_cast hj
    unfold frameTime soundTime
    norm_num
    linarith
  obtain ⟨u, done, todo, r, -, d2, d3, -, d5, d6⟩ := r6 0 7800 (dvd_zero _) (by norm_num [frameTime, soundTime]) hnext hticks
  refine ⟨s1, done, u, r1, d3, d2, fun y x hx => ?_⟩
  obtain ⟨im, k1, rfl⟩ := d5.2 fun h => h rfl
  cases k1
  rcases d6 y x with h | ⟨h, -⟩
  · exact h
  · exact absurd h hx

/-- C83_dhgr: about a picture per second and 31000 samples; the third picture, after the block of tick 29200. -/
example : ∃ files argv e s, makeDataTables plainDifference (fun _ _ => 0) = .ok files ∧
    Watches (slideHost .DHGR files 31000 29400 29199 [[0x2a#8], [0x2b#8], [0x2c#8]]) argv (fun _ => none) (slideSettings .DHGR) e s ∧
    ∃ s1 done u, s.Reaches e s1 ∧ Player.Executes e s1 done u ∧ (ticksOf false done).length = 29199 ∧
      ∃ rest u', Player.Executes e s1 (done ++ rest) u' ∧ (ticksOf false (done ++ rest)).length = 29783 ∧
      (wrongInAll .DHGR u.screens (pictureScreens (demoScreen [0x2c#8], demoScreen [0x2c#8])) ≤ 144 → ∀ (y : Fin 192) (x : Fin 560),
        screenDot .DHGR u'.screens y x = screenDot .DHGR (pictureScreens (demoScreen [0x2c#8], demoScreen [0x2c#8])) y x) := by
  obtain ⟨files, hf, hft⟩ := C79_made plainDifference_ok.1 (fun _ _ => 0)
  have h1 := slide_starts .DHGR files 31000 29400 29199 (by decide) (by decide) [[0x2a#8], [0x2b#8], [0x2c#8]]
  have h2 := slide_smooth .DHGR files ((hft _ _).2 (by decide)) 31000 29400 29199 [[0x2a#8], [0x2b#8], [0x2c#8]] (by decide)
  have h3 := slide_separate .DHGR files 31000 29400 29199 [[0x2a#8], [0x2b#8], [0x2c#8]]
  obtain ⟨e, s, hw⟩ := slide_watches h1 h2 h3 rfl
  refine ⟨files, _, e, s, hf, hw, ?_⟩
  have hlen := (slide_sound .DHGR files 31000 29400 29199 [[0x2a#8], [0x2b#8], [0x2c#8]]).1
  obtain ⟨body, s1, s2, r1, -, r3, -, r5, r6⟩ := C83_dhgr h1 h2 h3 rfl rfl plainDifference_ok.1 plainDifference_ok.2 hf (slide_converts .DHGR files 31000 29400 29199 [[0x2a#8], [0x2b#8], [0x2c#8]]) double_id
    (n := 29400) (d := 29199) (b := 14700) rfl rfl (by constructor <;> norm_num) (by rw [hlen]; norm_num) hw
  have hticks : 29783 ≤ (ticksOf false body).length := by
    rcases r5 (fun q hq => by cases hq; rfl) with h | h
    · rw [hlen] at h; omega
    · have h' : (43798 : Rat) < ((ticksOf false body).length + 1 : Nat) := by
        have e1 : frameTime 29400 29199 (slideHost .DHGR files 31000 29400 29199 [[0x2a#8], [0x2b#8], [0x2c#8]]).images.length = 3 * 29199 / 29400 := by
          show frameTime 29400 29199 3 = _
          norm_num [frameTime]
        rw [e1] at h
        unfold soundTime at h
        rw [le_div_iff₀ (by norm_num)] at h
        refine lt_of_lt_of_le ?_ h
        norm_num
      have : 43798 < (ticksOf false body).length + 1 := by exact_mod_cast h'
      omega
  have hnext : ∀ j' : Nat, 2 < j' → (2 : Int) ∣ (j' : Int) → soundTime 14700 (292 * (100 + 2) - 1) < frameTime 29400 29199 j' * (1 - 1 / 2 ^ 49) := by
    intro j' hj h2j
    have hj4 : 4 ≤ j' := by
      have : (2 : Int) ∣ j' := h2j
      omega
    have : (4 : Rat) ≤ j' := by exact_mod_cast hj4
    unfold frameTime soundTime
    rw [div_lt_iff₀ (by norm_num)]
    have e : (j' : Rat) * (29199 : Nat) / (29400 : Nat) * (1 - 1 / 2 ^ 49) * (14700 : Nat) = j' * (29199 * (1 - 1 / 2 ^ 49) / 2) := by norm_num; ring
    rw [e]
    refine lt_of_lt_of_le (b := (4 : Rat) * (29199 * (1 - 1 / 2 ^ 49) / 2)) (by norm_num) ?_
    gcongr
  obtain ⟨u, done, rest, u', todo, r, -, d2, d3, d4, d5, -, d7, d8⟩ := r6 2 100 (by decide) (by decide) (by norm_num [frameTime, soundTime]) hnext hticks
  obtain ⟨im, k1, rfl⟩ := d7.2 fun h => h.1 rfl
  cases k1
  refine ⟨s1, done, u, r1, d3, d2, rest, u', d5, d4, fun hle y x => ?_⟩
  rcases d8 hle y x with h | ⟨-, h⟩
  · exact h
  · exfalso
    have hb : ∀ bk (y : Fin 192) (c : Fin 40), screenByte (bankOf (pictureScreens (demoScreen [0x2c#8], demoScreen [0x2c#8])) bk) y c = 0x2c := by
      intro bk y c
      have hp : ∀ (p : Fin 32) (o : Fin 256), filled (demoScreen [0x2c#8]) p o = 0x2c := by
        intro p o
        unfold filled demoScreen
        rw [List.getD_eq_getElem?_getD, List.getElem?_replicate, if_pos (by omega)]
        rfl
      cases bk <;> exact hp _ _
    rw [hb] at h
    rcases h with ⟨-, h⟩ | ⟨-, h⟩ <;> exact absurd h (by decide)

end IIVision
