import Verif.Props.Grabber
import Verif.Proofs.Convert

/-! C70: a run with a converter that does its job shows the pictures of this video. -/

namespace IIVision
open Spec

/-- **C70.** With a converter that does its job, frame `i` shows the conversion of picture `i` of
this video — not of what an interrupted run may have left in the bitmap file, nor of another
picture — except if all result files of that picture were there before the run: then it shows
these. -/
theorem C70_frames {G : Grabber} {conv : List U8 → List U8 × List U8} (hc : Converts G conv)
    {fs : FS} {n : Nat} {s : GState} (h : G.Steps n (G.start fs) s)
    (i : Nat) (f : Frame) (hf : s.out[i]? = some f) :
    (Kept G fs i → FromFiles G fs i f) ∧
    (¬Kept G fs i → ∃ picture, G.images[i]? = some picture ∧ Pictured G.mode (conv picture) f) := by
  have hpre := (C42_frames h).2.1
  obtain ⟨rest, hrest⟩ := hpre
  have hlt : i < s.out.length := (List.getElem?_eq_some_iff.mp hf).1
  have hw : (wholeVideo G fs).1[i]? = some f := by
    rw [← hrest, List.getElem?_append_left hlt]; exact hf
  obtain ⟨item, h1, h2⟩ := (oneByOne_items hc G.images 0 fs (Nat.zero_le _) rfl (filesAt_zero G conv fs)).1 i f hw
  rw [Nat.zero_add] at h1
  refine ⟨fun hk => (h1.1 hk).frame h2, fun hk => ?_⟩
  obtain ⟨im, h3, h4⟩ := h1.2 hk
  subst h4
  exact ⟨im, h3, itemOf_frame h2⟩

/-- **C70.** When the frames have come to their end, each picture whose results were not there has
its conversion in the result files and no bitmap file; no other file has changed. -/
theorem C70_files {G : Grabber} {conv : List U8 → List U8 × List U8} (hc : Converts G conv)
    {fs : FS} {n : Nat} {s : GState} (h : G.Steps n (G.start fs) s) (hfin : s.consumer = .finished) :
    (∀ i picture, G.images[i]? = some picture → ¬Kept G fs i → Finished G i (conv picture) s.fs) ∧
    (∀ q, (∀ i, i < G.images.length → ¬Kept G fs i → ¬Touched G i q) → s.fs q = fs q) := by
  obtain ⟨k, h1, h2⟩ := filesAt_steps hc h
  rw [((gInv_steps h).over (.inr hfin)).2] at h1
  have h1 : k = G.images.length := h1
  subst h1
  refine ⟨fun i im hi hk => h2.done i im (List.getElem?_eq_some_iff.mp hi).1 hi hk, fun q hq => h2.other q hq⟩

/-- **C70.** If moreover the reader does not fail, the conversions have the size of a screen and
so have the result files that were there, then every execution that cannot go on has delivered one
frame per picture and ended. -/
theorem C70_complete {G : Grabber} {conv : List U8 → List U8 × List U8} (hc : Converts G conv)
    (hr : G.readError = none)
    (hsize : ∀ picture ∈ G.images, (conv picture).1.length = 8192 ∧ (conv picture).2.length = 8192)
    {fs : FS} (hkept : ∀ i, i < G.images.length → Kept G fs i → ∃ f, FromFiles G fs i f)
    {n : Nat} {s : GState} (h : G.Steps n (G.start fs) s) (hst : Stopped G s) :
    s.consumer = .finished ∧ s.out.length = G.images.length := by
  have hends : (wholeVideo G fs).2 = .ends := by
    refine (oneByOne_items hc G.images 0 fs (Nat.zero_le _) rfl (filesAt_zero G conv fs)).2 hr ?_
    intro i item _ hi hg
    by_cases hk : Kept G fs i
    · obtain ⟨f, hf⟩ := hkept i hi hk
      exact fromFiles_item hf (hg.1 hk)
    · obtain ⟨im, h3, h4⟩ := hg.2 hk
      subst h4
      have := hsize im (List.mem_of_getElem? h3)
      exact itemOf_good this.1 fun _ => this.2
  rcases C42_complete hends h with h1 | h1
  · exact absurd h1 hst
  · exact ⟨h1.1, h1.2.2.2⟩

/-! ### Examples -/

/-- The converter of `demo` does its job. -/
theorem demo_converts (images : List (List U8)) :
    Converts (demo images) fun d => (demoScreen d, demoScreen d) := by
  intro i fs data hd
  refine ⟨_, rfl, ?_⟩
  have hne : (demo images).path i (txt ".BIN") ≠ (demo images).path i (txt ".AUX") := fun h =>
    absurd (Grabber.path_inj suffix_bin suffix_aux h).2 (by decide)
  have harg : (commandLine ((demo images).path i (txt ".bmp")) .DHGR .NTSC).getD 1 [] =
    (demo images).path i (txt ".bmp") := rfl
  show (_ ∧ _ ∧ _)
  simp only [show (demo images).mode = .DHGR from rfl, show (demo images).palette = .NTSC from rfl, harg, hd,
    Option.getD_some, ← demo_path images]
  refine ⟨?_, ?_, fun q h1 h2 => ?_⟩
  · simp only [FS.put, if_neg hne, if_true]
  · simp only [FS.put, if_true]
  · simp only [FS.put, if_neg h1, if_neg h2]

/-- C70_frames, C70_files, C70_complete: an interrupted run has left a bitmap of something else
for picture 1, half of the results of picture 2 and complete results of picture 0.  The new run
shows the old results for picture 0, and the pictures themselves for 1 and 2. -/
example : ∃ (G : Grabber) (fs : FS) (n : Nat) (s : GState),
    G.images = [[1#8], [2#8], [3#8]] ∧ fs (G.path 1 (txt ".bmp")) = some [9#8] ∧
    fs (G.path 2 (txt ".BIN")) = some (demoScreen [8#8]) ∧
    G.Steps n (G.start fs) s ∧ s.consumer = .finished ∧
    (∃ f, s.out[0]? = some f ∧ Shows f.main (demoScreen [7#8])) ∧
    (∃ f, s.out[1]? = some f ∧ Shows f.main (demoScreen [2#8])) ∧
    (∃ f, s.out[2]? = some f ∧ Shows f.main (demoScreen [3#8])) ∧
    s.fs (G.path 1 (txt ".bmp")) = none := by
  let G := demo [[1#8], [2#8], [3#8]]
  let fs : FS := fun q =>
    if q = G.path 0 (txt ".BIN") then some (demoScreen [7#8]) else
    if q = G.path 0 (txt ".AUX") then some (demoScreen [7#8]) else
    if q = G.path 1 (txt ".bmp") then some [9#8] else
    if q = G.path 2 (txt ".BIN") then some (demoScreen [8#8]) else none
  have ne : ∀ {i j : Nat} {a b : Text}, Suffix a → Suffix b → (i ≠ j ∨ a ≠ b) → G.path i a ≠ G.path j b := by
    intro i j a b ha hb hne h
    obtain ⟨h1, h2⟩ := Grabber.path_inj ha hb h
    rcases hne with hne | hne
    · exact hne h1
    · exact hne h2
  have f1 : fs (G.path 0 (txt ".BIN")) = some (demoScreen [7#8]) := if_pos rfl
  have f2 : fs (G.path 0 (txt ".AUX")) = some (demoScreen [7#8]) :=
    (if_neg (ne suffix_aux suffix_bin (.inr (by decide)))).trans (if_pos rfl)
  have f3 : fs (G.path 1 (txt ".bmp")) = some [9#8] :=
    ((if_neg (ne suffix_bmp suffix_bin (.inl (by decide)))).trans
      (if_neg (ne suffix_bmp suffix_aux (.inl (by decide))))).trans (if_pos rfl)
  have f4 : fs (G.path 2 (txt ".BIN")) = some (demoScreen [8#8]) :=
    (((if_neg (ne suffix_bin suffix_bin (.inl (by decide)))).trans
      (if_neg (ne suffix_bin suffix_aux (.inl (by decide))))).trans
      (if_neg (ne suffix_bin suffix_bmp (.inl (by decide))))).trans (if_pos rfl)
  have f5 : ∀ i, i ≠ 0 → fs (G.path i (txt ".AUX")) = none := fun i hi =>
    (((if_neg (ne suffix_aux suffix_bin (.inl hi))).trans
      (if_neg (ne suffix_aux suffix_aux (.inl hi)))).trans
      (if_neg (ne suffix_aux suffix_bmp (.inr (by decide))))).trans
      (if_neg (ne suffix_aux suffix_bin (.inr (by decide))))
  have hc := demo_converts [[1#8], [2#8], [3#8]]
  have hn : ∀ i, i ≠ 0 → ¬Kept G fs i := fun i hi hk => hk.2 (f5 i hi)
  have hk0 : Kept G fs 0 := ⟨by rw [f1]; simp, by rw [f2]; simp⟩
  obtain ⟨n, s, h1, h2⟩ := exists_stopped G (G.start fs)
  have h3 := C70_complete hc rfl (fun p _ => ⟨demoScreen_length p, demoScreen_length p⟩) (fs := fs)
    (fun i _ hk => by
      by_cases hi : i = 0
      · subst hi
        obtain ⟨m, hm⟩ := mapOfBytes_good (demoScreen_length [7#8])
        exact ⟨⟨m, some m⟩, m, _, _, rfl, f1, mapOfBytes_ok hm, f2, mapOfBytes_ok hm⟩
      · exact absurd hk (hn i hi)) h1 h2
  have hlen : s.out.length = 3 := h3.2
  have frame : ∀ i im, i ≠ 0 → i < 3 → G.images[i]? = some im →
      ∃ f, s.out[i]? = some f ∧ Shows f.main (demoScreen im) := by
    intro i im hi hi3 him
    have hf := List.getElem?_eq_getElem (l := s.out) (i := i) (by omega)
    obtain ⟨im', h4, _, _, h5, _⟩ := (C70_frames hc h1 i _ hf).2 (hn i hi)
    have : im' = im := by
      have h4 : G.images[i]? = some im' := h4
      rw [him] at h4
      injection h4 with h4
      exact h4.symm
    subst this
    exact ⟨_, hf, h5⟩
  refine ⟨G, fs, n, s, rfl, f3, f4, h1, h3.1, ?_, frame 1 _ (by decide) (by decide) rfl,
    frame 2 _ (by decide) (by decide) rfl, ?_⟩
  · have hf := List.getElem?_eq_getElem (l := s.out) (i := 0) (by omega)
    obtain ⟨_, d, _, _, h4, h5, _⟩ := (C70_frames hc h1 0 _ hf).1 hk0
    have h4 : fs (G.path 0 (txt ".BIN")) = some d := h4
    rw [f1] at h4
    injection h4 with h4
    subst h4
    exact ⟨_, hf, h5⟩
  · exact ((C70_files hc h1 h3.1).1 1 [2#8] rfl (hn 1 (by decide))).1

end IIVision
