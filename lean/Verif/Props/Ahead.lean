import Verif.Proofs.Ahead
import Verif.Props.Buffered
import Verif.Props.Pace
import Verif.Proofs.Convert

/-! C90: the pictures are converted at most eleven ahead of the sound. -/

namespace IIVision

open IIVision.Spec

/-- **C90.** At every moment, in every interleaving, whatever the disk does: while the output file has `d` bytes, and with a buffer of `size` bytes, no file of picture `k` (counted from 0) has been touched
if picture `k - 11` is due later than after `(d + size) / 7` samples. -/
theorem C90_untouched {H : Host} {argv : List Text} {fs : FS} {c : Command} {norm : Flt} {tpf : Rat} (h : Starts H argv c norm tpf)
    (hn : ∀ i, ¬ OwnFile (hostGrabber H c) i (outFilename c.output c.input)) (hl : LocalTool (hostGrabber H c)) {size : Nat} {dev : Device} {n : Nat} {s : Session}
    (hw : Working H argv fs size dev n s) {d : List U8} (hd : s.prog.disk (outFilename c.output c.input) = some d) {k : Nat} {q : Text} (hq : OwnFile (hostGrabber H c) k q) (hk : 11 ≤ k)
    (hlate : (d.length + size) / 7 < tickThreshold H.double tpf (k - 11)) : s.prog.disk q = fs q := by
  obtain ⟨P, s0, v, hl0, -, hP, -⟩ := starts_launch (fs := fs) h
  obtain ⟨P', s0', hl1, hs⟩ := hw
  cases hl0.symm.trans hl1
  have hN : P.name = outFilename c.output c.input := by rw [hP]
  have hG : P.grabber = hostGrabber H c := by rw [hP]
  have hT : P.movie.thr = tickThreshold H.double tpf := by rw [hP]
  rw [← hG] at hq hn hl
  rw [← hN] at hd hn
  have hA := (AheadS.launch hl0 hn size).steps hn hl hs
  have hf : s.fileLength P.name = d.length := by unfold Session.fileLength; rw [hd]; rfl
  refine hA.prog.files k q hq ?_
  by_contra hlt
  have := hA.prog.taken (k - 11) (by omega)
  rw [hf, hT] at this
  omega

/-- **C90.** The same with times: at `n' / d'` pictures and `b` samples per second, if the time of picture `k - 11` is later than that of the last sample that fits into the bytes of the output file and its buffer, at seven
bytes each, no file of picture `k` has been touched. -/
theorem C90_times {H : Host} {argv : List Text} {fs : FS} {c : Command} {norm : Flt} {tpf : Rat} (h : Starts H argv c norm tpf)
    (hn : ∀ i, ¬ OwnFile (hostGrabber H c) i (outFilename c.output c.input)) (hl : LocalTool (hostGrabber H c)) 
    (hdbl : Double H.double) {n' d' b : Nat} (hrate : H.rate = .ok (decText n' ++ txt "/" ++ decText d')) (hbit : c.bitrate = b) (hg : GoodRates n' d' b) {size : Nat} {dev : Device} {n : Nat} {s : Session}
    (hw : Working H argv fs size dev n s) {d : List U8} (hd : s.prog.disk (outFilename c.output c.input) = some d) {k : Nat} {q : Text} (hq : OwnFile (hostGrabber H c) k q) (hk : 11 ≤ k) (hk' : k ≤ 2 ^ 48)
    (hlate : soundTime b ((d.length + size) / 7) < frameTime n' d' (k - 11) * (1 - 1 / 2 ^ 49)) : s.prog.disk q = fs q := by
  refine C90_untouched h hn hl hw hd hq hk ?_
  generalize (d.length + size) / 7 = t at hlate ⊢
  obtain ⟨text, rate, h1, h2, h3⟩ := h.pace
  cases hrate.symm.trans h1
  rw [hbit] at h3
  have hnn : (0 : Rat) < n' := by exact_mod_cast hg.n1
  have hb : (0 : Rat) < b := by exact_mod_cast hg.b1
  have hdd : (0 : Rat) < d' := by exact_mod_cast hg.d1
  have hk1 : 1 ≤ k - 11 := by
    by_contra hlt
    have : k - 11 = 0 := by omega
    rw [this] at hlate
    have : (0 : Rat) ≤ soundTime b t := by unfold soundTime; positivity
    simp [frameTime] at hlate
    linarith
  by_contra hle
  have hle : tickThreshold H.double tpf (k - 11) ≤ t := by omega
  unfold tickThreshold at hle
  rw [threshold_le] at hle
  have hnear := (abs_le.mp (threshold_near hdbl hg h2 h3 hk1 (by omega)).abs).1
  generalize H.double (tpf * H.double ((k - 11 : Nat) : Rat)) = x at hle hnear
  unfold soundTime frameTime at hlate
  have hm : (0 : Rat) ≤ ((k - 11 : Nat) : Rat) := by positivity
  generalize ((k - 11 : Nat) : Rat) = m at hnear hlate hm
  have hy : (0 : Rat) ≤ b * d' / n' * m := by positivity
  have e : m * d' / n' = (b * d' / n' * m) / b := by field_simp
  rw [e, div_mul_eq_mul_div, div_lt_div_iff_of_pos_right hb] at hlate
  generalize (b * d' / n' * m : Rat) = y at hnear hlate hy
  have : y * (1 - 1 / 2 ^ 49) ≤ x := by
    have : y / 2 ^ 50 ≤ y / 2 ^ 49 := by gcongr <;> norm_num
    linarith
  linarith

/-- **C90.** With a size limit of `m` megabytes: however long the video is, no file of picture `k` is ever touched if picture `k - 11` is due later than after the samples
that fit into that many bytes and ten more. -/
theorem C90_limit {H : Host} {argv : List Text} {fs : FS} {c : Command} {norm : Flt} {tpf : Rat} (h : Starts H argv c norm tpf)
    (hn : ∀ i, ¬ OwnFile (hostGrabber H c) i (outFilename c.output c.input)) (hl : LocalTool (hostGrabber H c)) {m : Rat} (hm : c.maxMb = .fin m) (h0 : 0 < m)
    {size : Nat} {dev : Device} {n : Nat} {s : Session} (hw : Working H argv fs size dev n s) {k : Nat} {q : Text} (hq : OwnFile (hostGrabber H c) k q) (hk : 11 ≤ k)
    (hlate : ⌈1048576 * m⌉₊ + 10 < 7 * tickThreshold H.double tpf (k - 11)) : s.prog.disk q = fs q := by
  obtain ⟨P, s0, v, hl0, -, hP, -⟩ := starts_launch (fs := fs) h
  obtain ⟨P', s0', hl1, hs⟩ := hw
  cases hl0.symm.trans hl1
  have hN : P.name = outFilename c.output c.input := by rw [hP]
  have hG : P.grabber = hostGrabber H c := by rw [hP]
  have hT : P.movie.thr = tickThreshold H.double tpf := by rw [hP]
  have hL : P.movie.limit = 1048576 * m := by
    rw [hP]; show limitNumber (maxBytes c.maxMb) = _
    rw [hm]; simp only [maxBytes, limitNumber]; norm_num
  rw [← hG] at hq hn hl
  rw [← hN] at hn
  have hA := ((LimitS.launch hl0 hn (L := ⌈1048576 * m⌉₊ + 10)).steps hn hl (by rw [hL]; positivity) (fun pos hp => by
    rw [hL, ← Nat.lt_ceil] at hp; omega) hs).ahead
  refine hA.files k q hq ?_
  by_contra hlt
  have := hA.taken (k - 11) (by omega)
  rw [hT] at this
  omega

theorem kept_of_item {G : Grabber} {fs : FS} {i : Nat} {item : Item} (h : ItemFrom G fs i item) : Kept G fs i := by
  unfold ItemFrom at h
  unfold Kept
  cases hm : G.mode with
  | HGR => rw [hm] at h; simp only at h ⊢; rw [h.1]; simp
  | DHGR =>
    rw [hm] at h
    simp only at h ⊢
    obtain ⟨h1, a, h2, h3⟩ := h
    rw [h1, h3]; simp

/-- **C90.** The bound is sharp: if all goes well and there are eleven pictures, they can all have been converted before the first one is taken. -/
theorem C90_sharp {G : Grabber} (hl : LocalTool G) {fs : FS} (hok : (wholeVideo G fs).2 = .ends) (hlen : 11 ≤ G.images.length) :
    ∃ s, G.Steps 21 (G.start fs) s ∧ s.out = [] ∧ ∀ k, k < 11 → Kept G s.fs k := by
  have conv : ∀ {i : Nat} {f : FS} {im : List U8} {rest : List (List U8)}, (oneByOne G i f (im :: rest)).2 = .ends →
      ∃ f' item, G.decode f i im = .ok (f', item) ∧ (oneByOne G (i + 1) f' rest).2 = .ends := by
    intro i f im rest h
    unfold oneByOne at h
    split at h
    · cases h
    · rename_i f' item hd
      split at h
      · cases h
      · exact ⟨f', item, hd, h⟩
  have key : ∀ j, j ≤ 10 → ∃ f q, G.Steps (2 * j) (G.start fs) ⟨f, .fetch j (G.images.drop j), q, .get, []⟩ ∧ q.length = j ∧
      (oneByOne G j f (G.images.drop j)).2 = .ends ∧ ∀ k, k < j → ∃ item, ItemFrom G f k item := by
    intro j
    induction j with
    | zero => intro _; exact ⟨fs, [], .zero _, rfl, hok, fun k hk => absurd hk (Nat.not_lt_zero k)⟩
    | succ j ih =>
      intro hj
      obtain ⟨f, q, h1, h2, h3, h4⟩ := ih (by omega)
      obtain ⟨im, rest, him⟩ : ∃ im rest, G.images.drop j = im :: rest := by
        cases hd : G.images.drop j with
        | nil => have := congrArg List.length hd; simp at this; omega
        | cons im rest => exact ⟨im, rest, rfl⟩
      have hrest : G.images.drop (j + 1) = rest := by rw [← List.drop_drop, him]; rfl
      rw [him] at h1 h3
      obtain ⟨f', item, hd, he⟩ := conv h3
      refine ⟨f', q ++ [some item], .succ (.succ h1 (.worker (t := ⟨f', .put item j rest, q, .get, []⟩) ?_)) (.worker ?_), by simp [h2], by rw [hrest]; exact he, ?_⟩
      · simp only [Grabber.workerStep, hd]
      · simp only [Grabber.workerStep]
        rw [if_pos (by rw [h2]; simp only [queueMax]; omega), hrest]
      · intro k hk
        by_cases hk' : k = j
        · rw [hk']; exact ⟨item, (decode_ok hd).1⟩
        · obtain ⟨it, hi⟩ := h4 k (by omega)
          exact ⟨it, ItemFrom.decode hl hd hk' hi⟩
  obtain ⟨f, q, h1, h2, h3, h4⟩ := key 10 (le_refl _)
  obtain ⟨im, rest, him⟩ : ∃ im rest, G.images.drop 10 = im :: rest := by
    cases hd : G.images.drop 10 with
    | nil => have := congrArg List.length hd; simp at this; omega
    | cons im rest => exact ⟨im, rest, rfl⟩
  rw [him] at h1 h3
  obtain ⟨f', item, hd, -⟩ := conv h3
  refine ⟨⟨f', .put item 10 rest, q, .get, []⟩, .succ h1 (.worker (by simp only [Grabber.workerStep, hd])), rfl, ?_⟩
  intro k hk
  by_cases hk' : k = 10
  · rw [hk']; exact kept_of_item (decode_ok hd).1
  · obtain ⟨it, hi⟩ := h4 k (by omega)
    exact kept_of_item (ItemFrom.decode hl hd hk' hi)

/-! ### The hypotheses can be met -/

/-- Thirty pictures. -/
def longHost : Host := { demoHost with images := List.replicate 30 [1#8], tool := (demo (List.replicate 30 [1#8])).tool }

theorem long_starts : Starts longHost demoWords demoSettings (.fin (3 / 2)) 490 := by
  obtain ⟨h1, h2, h2', h3, -⟩ := demo_starts
  exact ⟨h1, h2, h2', h3, rfl⟩

theorem long_video : (wholeVideo (hostGrabber longHost demoSettings) (fun _ => none)).2 = .ends :=
  (demo_video (List.replicate 30 [1#8]) [] none (List.replicate 30 [1#8]) 0 (fun _ => none) (by decide) (fun _ _ => rfl)).2.1

/-- C90_sharp: eleven of the thirty pictures can be converted before one is taken. -/
example : ∃ s, (hostGrabber longHost demoSettings).Steps 21 ((hostGrabber longHost demoSettings).start fun _ => none) s ∧ s.out = [] ∧ ∀ k, k < 11 → Kept (hostGrabber longHost demoSettings) s.fs k :=
  C90_sharp (demo_local _) long_video (by decide)

def limitWords : List Text := [txt "--audio_norm", txt "1.5", txt "--max_output_mb", txt "1.5", txt "v.mp4"]

theorem limit_starts : Starts longHost limitWords { demoSettings with maxMb := .fin (3 / 2) } (.fin (3 / 2)) 490 := by
  obtain ⟨-, h2, h2', h3, -⟩ := demo_starts
  exact ⟨(C77_command_line _ _ _).1 rfl, h2, h2', h3, rfl⟩

/-- C90_limit: with `--max_output_mb 1.5` a picture 480 would never be touched. -/
example {n : Nat} {s : Session} {fs : FS} (hw : Working longHost limitWords fs 4096 (fun _ => .ok 2) n s) :
    s.prog.disk (txt "v/DHGR/NTSC/00000480.BIN") = fs (txt "v/DHGR/NTSC/00000480.BIN") := by
  refine C90_limit (k := 480) limit_starts (fun i h => ((C78_names (hostGrabber longHost demoSettings) none (.inl rfl)).1 i _ h).1 rfl) (demo_local _) rfl (by norm_num) hw (.inr (.inl ?_)) (by decide) ?_
  · decide +kernel
  · have h1 : tickThreshold longHost.double 490 (480 - 11) = 229810 := by decide +kernel
    have h2 : ⌈(1048576 * (3 / 2) : Rat)⌉₊ ≤ 1572864 := Nat.ceil_le.2 (by norm_num)
    rw [h1]; omega

/-- C90_untouched: at the start, with a buffer of 4096 bytes, and as long as there are less than 2764 bytes in the file, picture 13 is untouched. -/
example {n : Nat} {s : Session} (hw : Working longHost demoWords (fun _ => none) 4096 (fun _ => .ok 2) n s) {d : List U8} (hd : s.prog.disk (txt "v.a2m") = some d)
    (hl : d.length < 2764) : s.prog.disk (txt "v/DHGR/NTSC/00000013.BIN") = none := by
  refine C90_untouched (k := 13) long_starts (fun i h => ((C78_names (hostGrabber longHost demoSettings) none (.inl rfl)).1 i _ h).1 rfl) (demo_local _) hw (d := d) hd (.inr (.inl ?_)) (by decide) ?_
  · decide +kernel
  · have : tickThreshold longHost.double 490 (13 - 11) = 980 := by decide +kernel
    rw [this]; omega

end IIVision
