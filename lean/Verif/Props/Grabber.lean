import Verif.Proofs.Cache

/-! C42-C45, C54: converting the frames of a video in a background thread, the files it uses. -/

namespace IIVision
open Spec

/-- **C42.** In every state that the two threads can get into: the queue holds at most 10
entries; the frames yielded so far are the first ones a simple loop (`wholeVideo`) would yield, in
the same order; at most four steps per picture and four more are possible at all.  When nothing
can run any more, exactly the frames of the simple loop have been yielded, and if it ends then so
did the generator. -/
theorem C42_frames {G : Grabber} {fs : FS} {n : Nat} {s : GState} (h : G.Steps n (G.start fs) s) :
    s.queue.length ≤ 10 ∧ s.out <+: (wholeVideo G fs).1 ∧ n ≤ 4 * G.images.length + 4 ∧
    (Stopped G s → s.out = (wholeVideo G fs).1 ∧
      match (wholeVideo G fs).2 with
      | .ends => s.consumer = .finished ∧ s.worker = .done
      | .raises e => s.consumer = .raised e
      | .hangs e => s.consumer = .get ∧ s.queue = [] ∧ s.worker = .dead e) := by
  have hi := gInv_steps h
  have hw := steps_weight h
  refine ⟨hi.len, ?_, ?_, ?_⟩
  · cases hc : s.consumer with
    | get => rw [← hi.active (.inl hc)]; exact ⟨_, rfl⟩
    | yielded => rw [← hi.active (.inr hc)]; exact ⟨_, rfl⟩
    | join => rw [← (hi.over (.inl hc)).1]; exact List.prefix_refl _
    | finished => rw [← (hi.over (.inr hc)).1]; exact List.prefix_refl _
    | raised e => rw [← hi.raised e hc]; exact List.prefix_refl _
  · simp only [Grabber.start, GState.weight, Worker.weight, Consumer.weight, List.length_nil] at hw
    omega
  · intro hst
    rcases stopped_cases hi hst with hc | ⟨e, hc⟩ | ⟨hc, hq, e, hwk⟩
    · have := hi.over (.inr hc)
      rw [← this.1]
      exact ⟨rfl, hc, this.2⟩
    · rw [← hi.raised e hc]
      exact ⟨rfl, hc⟩
    · have ha := hi.active (.inl hc)
      rw [hq, hwk] at ha
      simp only [queued, Grabber.toCome, List.append_nil] at ha
      rw [← ha]
      exact ⟨rfl, hc, hq, hwk⟩

/-- **C42**, all goes well: if no picture fails, every execution comes to its end with one frame
per picture and both threads finished. -/
theorem C42_complete {G : Grabber} {fs : FS} (hok : (wholeVideo G fs).2 = .ends) {n : Nat} {s : GState}
    (h : G.Steps n (G.start fs) s) :
    (∃ t, G.Step s t) ∨
      (s.consumer = .finished ∧ s.worker = .done ∧ s.out = (wholeVideo G fs).1 ∧
        s.out.length = G.images.length) := by
  by_cases hst : ∃ t, G.Step s t
  · exact .inl hst
  · have h4 := (C42_frames h).2.2.2 hst
    rw [hok] at h4
    exact .inr ⟨h4.2.1, h4.2.2, h4.1, by rw [h4.1]; exact oneByOne_length hok⟩

/-- **C43.** (Defect.)  If the conversion of picture `k` raises — in the worker thread — after the
pictures before it went well, then in every execution the caller gets the `k` frames before it and
then waits forever: it is never told, neither by an exception nor by the end of the frames. -/
theorem C43_failure_is_lost {G : Grabber} {fs : FS} {e : PyErr} (hbad : (wholeVideo G fs).2 = .hangs e)
    {n : Nat} {s : GState} (h : G.Steps n (G.start fs) s) :
    s.consumer ≠ .finished ∧ (∀ e', s.consumer ≠ .raised e') ∧
    (Stopped G s → s.consumer = .get ∧ s.queue = [] ∧ s.out = (wholeVideo G fs).1) := by
  have hi := gInv_steps h
  refine ⟨?_, ?_, ?_⟩
  · intro hc
    have := (hi.over (.inr hc)).1
    rw [← this] at hbad
    simp at hbad
  · intro e' hc
    have := hi.raised e' hc
    rw [← this] at hbad
    simp at hbad
  · intro hst
    have h4 := (C42_frames h).2.2.2 hst
    rw [hbad] at h4
    exact ⟨h4.2.1, h4.2.2.1, h4.1⟩

/-- **C43**, seen from the worker: once it has died the frames never end, whatever happens next. -/
theorem C43_dead_worker {G : Grabber} {fs : FS} {n : Nat} {s : GState} (h : G.Steps n (G.start fs) s)
    {e : PyErr} (hd : s.worker = .dead e) :
    s.consumer ≠ .finished ∧ s.consumer ≠ .join ∧
    (Stopped G s → s.consumer = .get ∨ ∃ e', s.consumer = .raised e') := by
  have hi := gInv_steps h
  have hno : ¬(s.consumer = .join ∨ s.consumer = .finished) := by
    intro hj
    have := (hi.over hj).2
    rw [hd] at this
    simp at this
  refine ⟨fun hc => hno (.inr hc), fun hc => hno (.inl hc), fun hst => ?_⟩
  rcases stopped_cases hi hst with hc | hc | hc
  · exact absurd (.inr hc) hno
  · exact .inr hc
  · exact .inl hc.1

/-- **C44.** Whatever files a crashed run has left behind, and whatever bmp2dhr does: every frame
yielded shows the contents that the files of its picture had at some moment of this run, and these
files had exactly 8192 bytes. -/
theorem C44_complete_files {G : Grabber} {fs : FS} {n : Nat} {s : GState}
    (h : G.Steps n (G.start fs) s) (i : Nat) (f : Frame) (hf : s.out[i]? = some f) :
    ∃ m t, m ≤ n ∧ G.Steps m (G.start fs) t ∧ FromFiles G t.fs i f := by
  obtain ⟨items, ho⟩ := orig_steps h
  obtain ⟨item, h1, h2⟩ := ho.out i f hf
  obtain ⟨m, t, h3, h4, h5⟩ := ho.origin i item h1
  exact ⟨m, t, h3, h4, h5.frame h2⟩

/-- A truncated file cannot be made into a frame. -/
theorem truncated_item {G : Grabber} {fs : FS} {i : Nat} (h : Truncated G fs i) :
    ∃ item, ItemFrom G fs i item ∧ item.toFrame = .error .valueError := by
  unfold Truncated at h
  unfold ItemFrom
  cases hm : G.mode with
  | HGR =>
    rw [hm] at h
    obtain ⟨d, h1, h2⟩ := h
    exact ⟨⟨d, none⟩, ⟨h1, rfl⟩, by simp [Item.toFrame, mapOfBytes_bad h2, bind, Except.bind]⟩
  | DHGR =>
    rw [hm] at h
    obtain ⟨d, d', h1, h2, h3⟩ := h
    refine ⟨⟨d, some d'⟩, ⟨h1, d', rfl, h2⟩, ?_⟩
    by_cases hd : d.length = 8192
    · have hd' : d'.length ≠ 8192 := h3.resolve_left (fun h => h hd)
      obtain ⟨m, hm'⟩ := mapOfBytes_good hd
      simp [Item.toFrame, hm', mapOfBytes_bad hd', bind, Except.bind]
    · simp [Item.toFrame, mapOfBytes_bad hd, bind, Except.bind]

/-- **C44.** A file of the wrong size is never used, but it is not made again either: if one is
left behind for picture `i`, then neither frame `i` nor any later one is ever yielded; if the files
of the pictures before it are good, the caller gets these `i` frames and a ValueError. -/
theorem C44_truncated {G : Grabber} (hl : LocalTool G) {fs : FS} {i : Nat} (hi : i < G.images.length)
    (ht : Truncated G fs i) {n : Nat} {s : GState} (h : G.Steps n (G.start fs) s) :
    s.out.length ≤ i ∧
    ((∀ j, j < i → ∃ f, FromFiles G fs j f) → Stopped G s →
      s.out.length = i ∧ s.consumer = .raised .valueError) := by
  obtain ⟨item, h1, h2⟩ := truncated_item ht
  have hle : s.out.length ≤ i := by
    by_cases hlt : i < s.out.length
    · have := cached_used hl h1 h (List.getElem?_eq_getElem hlt)
      rw [h2] at this
      simp at this
    · omega
  refine ⟨hle, ?_⟩
  intro hgood hst
  -- the simple loop yields i frames and raises
  have hone : ∀ k, k ≤ i → (oneByOne G (i - k) fs (G.images.drop (i - k))).1.length = k ∧
      (oneByOne G (i - k) fs (G.images.drop (i - k))).2 = .raises .valueError := by
    intro k
    induction k with
    | zero =>
      intro _
      rw [Nat.sub_zero, List.drop_eq_getElem_cons hi]
      simp only [oneByOne, h1.decoded, h2]
      exact ⟨rfl, trivial⟩
    | succ k ih =>
      intro hk
      have hlt : i - (k + 1) < G.images.length := by omega
      obtain ⟨f, hf⟩ := hgood (i - (k + 1)) (by omega)
      have hitem : ∃ it f', ItemFrom G fs (i - (k + 1)) it ∧ it.toFrame = .ok f' := by
        unfold FromFiles at hf
        unfold ItemFrom
        cases hm : G.mode with
        | HGR =>
          rw [hm] at hf
          obtain ⟨_, d, h3, h4⟩ := hf
          obtain ⟨m, hm'⟩ := mapOfBytes_good h4.1
          exact ⟨⟨d, none⟩, ⟨m, none⟩, ⟨h3, rfl⟩,
            by simp [Item.toFrame, hm', bind, Except.bind, pure, Except.pure]⟩
        | DHGR =>
          rw [hm] at hf
          obtain ⟨a, d, d', _, h3, h4, h5, h6⟩ := hf
          obtain ⟨m, hm'⟩ := mapOfBytes_good h4.1
          obtain ⟨m2, hm2⟩ := mapOfBytes_good h6.1
          exact ⟨⟨d, some d'⟩, ⟨m, some m2⟩, ⟨h3, d', rfl, h5⟩,
            by simp [Item.toFrame, hm', hm2, bind, Except.bind, pure, Except.pure]⟩
      obtain ⟨it, f', h3, h4⟩ := hitem
      rw [List.drop_eq_getElem_cons hlt]
      simp only [oneByOne, h3.decoded, h4]
      rw [show i - (k + 1) + 1 = i - k by omega]
      have := ih (by omega)
      exact ⟨by simp only [List.length_cons, this.1], this.2⟩
  have h0 := hone i (Nat.le_refl _)
  simp only [Nat.sub_self, List.drop_zero] at h0
  have h4 := (C42_frames h).2.2.2 hst
  rw [show (wholeVideo G fs).2 = .raises .valueError from h0.2] at h4
  exact ⟨by rw [h4.1]; exact h0.1, h4.2⟩

/-- **C54.** The converted files are a cache: after a run that came to its end, a further run for
the same directory and mode does not change any file, does not need bmp2dhr (`G'.tool` is
arbitrary) and yields the frames of the first run.  (Defect: it does so whatever its pictures are:
nothing ties the files to the video, so a different video of the same name, or with another
extension, see C45, gets the frames of the first one.) -/
theorem C54_cache {G G' : Grabber} (hdir : G'.dir = G.dir) (hmode : G'.mode = G.mode) (hl : LocalTool G)
    {fs : FS} {n : Nat} {s : GState} (h : G.Steps n (G.start fs) s) (hfin : s.consumer = .finished)
    (hlen : G'.images.length ≤ G.images.length) (hr : G'.readError = none)
    {m : Nat} {t : GState} (h' : G'.Steps m (G'.start s.fs) t) :
    t.fs = s.fs ∧ (Stopped G' t → t.consumer = .finished ∧ t.out = s.out.take G'.images.length) := by
  obtain ⟨items, ho⟩ := orig_steps h
  have hi := gInv_steps h
  have hover := hi.over (.inr hfin)
  have hN : items.length = G.images.length := by
    have := ho.made
    rw [hover.2] at this
    exact this
  have hout : s.out.length = G.images.length := by
    have h1 : s.out = (wholeVideo G fs).1 := by rw [← hover.1]
    have h2 : (wholeVideo G fs).2 = .ends := by rw [← hover.1]
    rw [h1]; exact oneByOne_length h2
  have hpath : ∀ j sfx, G'.path j sfx = G.path j sfx := by
    intro j sfx
    simp only [Grabber.path, hdir]
  have hitems : ∀ (j : Nat) (item : Item), items[j]? = some item → ItemFrom G' s.fs j item := by
    intro j item hj
    have := ho.still hl j item hj
    unfold ItemFrom at this ⊢
    simpa only [hmode, hpath] using this
  have hwhole : wholeVideo G' s.fs = (s.out.take G'.images.length, .ends) := by
    have := oneByOne_cached hr (frames := s.out) (by omega) hitems ho.out G'.images 0 (by omega)
    simpa [wholeVideo] using this
  refine ⟨files_kept ?_ h', ?_⟩
  · intro j hj
    have hlt : j < items.length := by omega
    exact ⟨items[j], hitems j _ (List.getElem?_eq_getElem hlt)⟩
  · intro hst
    have h4 := (C42_frames h').2.2.2 hst
    rw [hwhole] at h4
    exact ⟨h4.2.1, h4.1⟩

/-! ### Examples -/

/-- A screen full of the first byte of a picture. -/
def demoScreen (image : List U8) : List U8 := List.replicate 8192 (image.headD 0#8)

theorem demoScreen_length (im : List U8) : (demoScreen im).length = 8192 := List.length_replicate

/-- A conversion of `v.mp4` with a bmp2dhr that makes `demoScreen`s. -/
def demo (images : List (List U8)) : Grabber where
  filename := txt "v.mp4"
  mode := .DHGR
  palette := .NTSC
  images := images
  readError := none
  tool := fun i args fs =>
    let screen := demoScreen ((fs (args.getD 1 [])).getD [])
    .ok ((fs.put (txt "v/DHGR/NTSC" ++ 47 :: dec08 i ++ txt ".BIN") screen).put
      (txt "v/DHGR/NTSC" ++ 47 :: dec08 i ++ txt ".AUX") screen)

theorem demo_path (images : List (List U8)) (i : Nat) (sfx : Text) :
    (demo images).path i sfx = txt "v/DHGR/NTSC" ++ 47 :: dec08 i ++ sfx := by
  have hd : (demo images).dir = txt "v/DHGR/NTSC" := (by decide : outputDir (txt "v.mp4") .DHGR .NTSC = txt "v/DHGR/NTSC")
  simp only [Grabber.path, hd]

theorem demo_local (images : List (List U8)) : LocalTool (demo images) := by
  intro i args fs fs' h q hq
  simp only [OwnFile, demo_path, not_or] at hq
  simp only [demo] at h
  injection h with h
  subst h
  simp only [FS.put]
  rw [if_neg hq.2.2.1, if_neg hq.2.1]

attribute [local irreducible] demoScreen in
theorem demo_decode (im : List U8) (images : List (List U8)) (j : Nat) (fs : FS)
    (hno : fs ((demo images).path j (txt ".BIN")) = none) :
    ∃ fs', (demo images).decode fs j im = .ok (fs', ⟨demoScreen im, some (demoScreen im)⟩) := by
  have hne1 : (demo images).path j (txt ".bmp") ≠ (demo images).path j (txt ".AUX") := fun h =>
    absurd (Grabber.path_inj suffix_bmp suffix_aux h).2 (by decide)
  have hne2 : (demo images).path j (txt ".bmp") ≠ (demo images).path j (txt ".BIN") := fun h =>
    absurd (Grabber.path_inj suffix_bmp suffix_bin h).2 (by decide)
  have hne3 : (demo images).path j (txt ".BIN") ≠ (demo images).path j (txt ".AUX") := fun h =>
    absurd (Grabber.path_inj suffix_bin suffix_aux h).2 (by decide)
  have htool : ∀ args fs, (demo images).tool j args fs =
      .ok ((fs.put ((demo images).path j (txt ".BIN")) (demoScreen ((fs (args.getD 1 [])).getD []))).put
        ((demo images).path j (txt ".AUX")) (demoScreen ((fs (args.getD 1 [])).getD []))) := by
    intro args fs
    simp only [demo_path]
    rfl
  have hh : ¬(fs.has ((demo images).path j (txt ".BIN")) && fs.has ((demo images).path j (txt ".AUX"))) = true := by
    simp [FS.has, hno]
  show ∃ fs', (demo images).dhgrDecode fs j im = _
  simp only [Grabber.dhgrDecode, if_neg hh, Grabber.convert, htool, bind, Except.bind]
  generalize (demo images).path j (txt ".bmp") = pbmp at *
  generalize (demo images).path j (txt ".BIN") = pbin at *
  generalize (demo images).path j (txt ".AUX") = paux at *
  simp [FS.remove, FS.put, FS.read, hne1, hne2, hne3, hne1.symm, hne2.symm, pure, Except.pure]

/-- Converting three pictures from scratch goes well. -/
theorem demo_ends (images l : List (List U8)) (idx : Nat) (fs : FS)
    (h : ∀ j, idx ≤ j → fs ((demo images).path j (txt ".BIN")) = none) :
    (oneByOne (demo images) idx fs l).2 = .ends := by
  induction l generalizing idx fs with
  | nil => rfl
  | cons im l ih =>
    obtain ⟨fs', hd⟩ := demo_decode im images idx fs (h idx (Nat.le_refl _))
    obtain ⟨m, hm⟩ := mapOfBytes_good (d := demoScreen im) (demoScreen_length im)
    simp only [oneByOne, hd, Item.toFrame, hm, bind, Except.bind, pure, Except.pure]
    refine ih (idx + 1) fs' fun j hj => ?_
    rw [decode_local (demo_local images) hd]
    · exact h j (by omega)
    · intro ho
      have := ownFile_inj ho (.inr (.inl rfl) : OwnFile (demo images) j _)
      omega

/-- C42_frames, C42_complete, C44_complete_files: a video of three pictures, from an empty
directory, yields three frames. -/
theorem demo_run (images : List (List U8)) :
    ∃ n s, (demo images).Steps n ((demo images).start fun _ => none) s ∧
      s.consumer = .finished ∧ s.out.length = images.length := by
  obtain ⟨n, s, h1, h2⟩ := exists_stopped (demo images) ((demo images).start fun _ => none)
  rcases C42_complete (demo_ends images images 0 _ (fun _ _ => rfl)) h1 with h | h
  · exact absurd h h2
  · exact ⟨n, s, h1, h.1, h.2.2.2⟩

example : ∃ n s, (demo [[1#8], [2#8], [3#8]]).Steps n ((demo [[1#8], [2#8], [3#8]]).start fun _ => none) s ∧
    s.consumer = .finished ∧ s.out.length = 3 ∧
    ∀ f, s.out[1]? = some f → ∃ m t, m ≤ n ∧
      (demo [[1#8], [2#8], [3#8]]).Steps m ((demo [[1#8], [2#8], [3#8]]).start fun _ => none) t ∧
      FromFiles (demo [[1#8], [2#8], [3#8]]) t.fs 1 f := by
  obtain ⟨n, s, h1, h2, h3⟩ := demo_run [[1#8], [2#8], [3#8]]
  exact ⟨n, s, h1, h2, h3, fun f hf => C44_complete_files h1 1 f hf⟩

/-- C54_cache: a second video of the same name, with two other pictures and no bmp2dhr
installed, gets the first two frames of the first one. -/
example : ∃ (G G' : Grabber) (n : Nat) (s : GState), G.Steps n (G.start fun _ => none) s ∧ s.consumer = .finished ∧
    G'.filename = txt "v.mov" ∧ G.filename = txt "v.mp4" ∧ G'.images = [[9#8], [8#8]] ∧
    G.images = [[1#8], [2#8], [3#8]] ∧
    ∃ m t, G'.Steps m (G'.start s.fs) t ∧ t.consumer = .finished ∧ t.out = s.out.take 2 := by
  obtain ⟨n, s, h1, h2, h3⟩ := demo_run [[1#8], [2#8], [3#8]]
  let G' : Grabber :=
    { demo [[9#8], [8#8]] with filename := txt "v.mov", tool := fun _ _ _ => .error .fileNotFound }
  obtain ⟨m, t, h4, h5⟩ := exists_stopped G' (G'.start s.fs)
  have hdir : G'.dir = (demo [[1#8], [2#8], [3#8]]).dir :=
    (by decide : outputDir (txt "v.mov") .DHGR .NTSC = outputDir (txt "v.mp4") .DHGR .NTSC)
  have := C54_cache hdir rfl (demo_local _) h1 h2 (by decide) rfl h4
  exact ⟨_, G', n, s, h1, h2, rfl, rfl, rfl, rfl, m, t, h4, (this.2 h5).1, (this.2 h5).2⟩

/-- C43: bmp2dhr is not installed. -/
example : ∃ (G : Grabber) (n : Nat) (s : GState), G.Steps n (G.start fun _ => none) s ∧ s.worker = .dead .fileNotFound ∧
    (wholeVideo G fun _ => none).2 = .hangs .fileNotFound ∧ Stopped G s ∧ s.consumer = .get := by
  let G : Grabber := { demo [[9#8], [8#8]] with tool := fun _ _ _ => .error .fileNotFound }
  have hbad : (wholeVideo G fun _ => none) = ([], .hangs .fileNotFound) := rfl
  obtain ⟨n, s, h1, h2⟩ := exists_stopped G (G.start fun _ => none)
  have h4 := (C42_frames h1).2.2.2 h2
  rw [hbad] at h4
  exact ⟨G, n, s, h1, h4.2.2.2, by rw [hbad], h2, h4.2.1⟩

/-- C44_truncated: an empty file is left behind for picture 1, good ones for picture 0. -/
example : ∃ (G : Grabber) (fs : FS), LocalTool G ∧ 1 < G.images.length ∧ Truncated G fs 1 ∧
    ∀ j, j < 1 → ∃ f, FromFiles G fs j f := by
  let G := demo [[1#8], [2#8], [3#8]]
  let fs : FS := fun q => if q = G.path 1 (txt ".BIN") then some [] else some (demoScreen [7#8])
  have hlen : (demoScreen [7#8]).length = 8192 := demoScreen_length _
  have hne : G.path 1 (txt ".AUX") ≠ G.path 1 (txt ".BIN") := fun h =>
    absurd (Grabber.path_inj suffix_aux suffix_bin h).2 (by decide)
  refine ⟨G, fs, demo_local _, by decide, ⟨[], demoScreen [7#8], if_pos rfl, if_neg hne, .inl (by decide)⟩, ?_⟩
  intro j hj
  have hj0 : j = 0 := by omega
  subst hj0
  have hne1 : G.path 0 (txt ".AUX") ≠ G.path 1 (txt ".BIN") := fun h =>
    absurd (Grabber.path_inj suffix_aux suffix_bin h).1 (by decide)
  have hne2 : G.path 0 (txt ".BIN") ≠ G.path 1 (txt ".BIN") := fun h =>
    absurd (Grabber.path_inj suffix_bin suffix_bin h).1 (by decide)
  obtain ⟨m, hm⟩ := mapOfBytes_good hlen
  exact ⟨⟨m, some m⟩, m, _, _, rfl, if_neg hne2, mapOfBytes_ok hm, if_neg hne1, mapOfBytes_ok hm⟩

/-! ### Names -/

/-- **C45.** For an input whose name has an extension, the default output file is the name with the
extension replaced by `a2m`, and the directory of the converted frames is the name without
extension, the mode and the palette. -/
theorem C45_names (base ext : Text) (h : 46 ∉ ext) (m : VideoMode) (p : Palette) :
    outFilename none (base ++ txt "." ++ ext) = base ++ txt ".a2m" ∧
    outputDir (base ++ txt "." ++ ext) m p = base ++ txt "/" ++ m.name ++ txt "/" ++ p.name := by
  have he : base ++ txt "." ++ ext = base ++ 46 :: ext := by simp [txt]
  rw [he, outFilename_ext h, outputDir_ext h]
  exact ⟨rfl, by simp [txt]⟩

/-- **C45.** Inputs with different names before the extension have different default outputs;
different inputs (apart from the extension), modes or palettes have different directories, and no
converted file, or temporary file, of one is one of the other. -/
theorem C45_apart (b b' e e' : Text) (h : 46 ∉ e) (h' : 46 ∉ e') (m m' : VideoMode) (p p' : Palette) :
    (outFilename none (b ++ txt "." ++ e) = outFilename none (b' ++ txt "." ++ e') ↔ b = b') ∧
    (outputDir (b ++ txt "." ++ e) m p = outputDir (b' ++ txt "." ++ e') m' p' ↔
      b = b' ∧ m = m' ∧ p = p') ∧
    (∀ G G' : Grabber, G.filename = b ++ txt "." ++ e → G.mode = m → G.palette = p →
      G'.filename = b' ++ txt "." ++ e' → G'.mode = m' → G'.palette = p' →
      ∀ i i' q, OwnFile G i q → OwnFile G' i' q → b = b' ∧ m = m' ∧ p = p' ∧ i = i') := by
  have hdir : outputDir (b ++ txt "." ++ e) m p = outputDir (b' ++ txt "." ++ e') m' p' →
      b = b' ∧ m = m' ∧ p = p' := by
    intro heq
    have he : ∀ x y : Text, x ++ txt "." ++ y = x ++ 46 :: y := by intro x y; simp [txt]
    rw [he, he, outputDir_ext h, outputDir_ext h'] at heq
    exact dir_inj heq
  refine ⟨?_, ⟨hdir, ?_⟩, ?_⟩
  · rw [(C45_names b e h m p).1, (C45_names b' e' h' m' p').1]
    exact ⟨fun heq => List.append_cancel_right heq, fun heq => by rw [heq]⟩
  · rintro ⟨rfl, rfl, rfl⟩
    rw [(C45_names b e h m p).2, (C45_names b e' h' m p).2]
  · intro G G' h1 h2 h3 h4 h5 h6 i i' q hq hq'
    have hx : ∀ (K : Grabber) k, OwnFile K k q → ∃ s, Suffix s ∧ q = K.dir ++ 47 :: dec08 k ++ s := by
      rintro K k (h | h | h | h)
      · exact ⟨_, suffix_cbin, h⟩
      · exact ⟨_, suffix_bin, h⟩
      · exact ⟨_, suffix_aux, h⟩
      · exact ⟨_, suffix_bmp, h⟩
    obtain ⟨s, hs, hqs⟩ := hx G i hq
    obtain ⟨s', hs', hqs'⟩ := hx G' i' hq'
    rw [hqs] at hqs'
    obtain ⟨hd, hi, _⟩ := file_inj hs hs' hqs'
    simp only [Grabber.dir, h1, h2, h3, h4, h5, h6] at hd
    obtain ⟨r1, r2, r3⟩ := hdir hd
    exact ⟨r1, r2, r3, hi⟩

/-- **C45.** The files of picture `i` of an input are named by its eight-digit decimal number (zeros in front), in the directory
of frames: `.bmp` for the picture itself, `.bin`, `.BIN` and `.AUX` for its conversion; so, up to a hundred million pictures, they sort
in the order of the pictures. -/
theorem C45_numbers (G : Grabber) (i : Nat) (hi : i < 100000000) (suffix : Text) :
    ∃ d : List Nat, G.path i suffix = outputDir G.filename G.mode G.palette ++ txt "/" ++ d.map (· + 48) ++ suffix ∧
      d.length = 8 ∧ (∀ x ∈ d, x < 10) ∧ d.foldl (fun a x => 10 * a + x) 0 = i := by
  refine ⟨(dec08 i).map (· - 48), ?_, by rw [List.length_map]; exact dec08_length hi, fun x hx => ?_, ?_⟩
  · have : ((dec08 i).map (· - 48)).map (· + 48) = dec08 i := by
      rw [List.map_map]
      conv => rhs; rw [← List.map_id (dec08 i)]
      refine List.map_congr_left fun c hc => ?_
      have := (dec08_digit hc).1
      show c - 48 + 48 = c
      omega
    rw [this]
    simp [Grabber.path, Grabber.dir, txt]
  · obtain ⟨c, hc, rfl⟩ := List.mem_map.mp hx
    have := dec08_digit hc
    omega
  · rw [List.foldl_map]
    exact decValue_dec08 i

/-- C45_numbers: file names. -/
example (G : Grabber) (h : G.filename = txt "v.mp4") (hm : G.mode = .DHGR) (hp : G.palette = .NTSC) :
    G.path 120 (txt ".AUX") = txt "v/DHGR/NTSC/00000120.AUX" := by
  have : dec08 120 = txt "00000120" := by simp [dec08, decText, txt]
  unfold Grabber.path Grabber.dir; rw [h, hm, hp, this]; decide

/-- **C45.** (Findings.)  A name without a dot gives the output file `a2m` in the current directory
and a directory of frames at the root of the file system, whatever the name is; an input that ends
in `.a2m` is its own default output. -/
theorem C45_no_extension (f base : Text) (h : 46 ∉ f) (m : VideoMode) (p : Palette) :
    outFilename none f = txt "a2m" ∧ outputDir f m p = txt "/" ++ m.name ++ txt "/" ++ p.name ∧
    outFilename none (base ++ txt ".a2m") = base ++ txt ".a2m" := by
  refine ⟨?_, ?_, ?_⟩
  · simp [outFilename, pieces_plain h, pyJoin]
  · simp [outputDir, pieces_plain h, pyJoin, txt]
  · have he : base ++ txt ".a2m" = base ++ 46 :: txt "a2m" := rfl
    conv => lhs; rw [he]
    exact outFilename_ext (by decide) base

/-- C45_names, C45_apart: names as a user would give them; the dot may also be one of a
directory. -/
example : outFilename none (txt "films/a.b.mp4") = txt "films/a.b.a2m" ∧
    outputDir (txt "films/a.b.mp4") .DHGR .NTSC = txt "films/a.b/DHGR/NTSC" ∧
    outFilename none (txt "films.v1/movie") = txt "films.a2m" ∧ 46 ∉ txt "mp4" ∧
    outFilename (some (txt "x")) (txt "a.mp4") = txt "x" ∧
    outputDir (txt "movie") .HGR .IIGS = txt "/HGR/IIGS" := by decide

end IIVision
