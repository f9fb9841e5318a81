import Verif.Props.Entire
import Verif.Props.Convert
import Verif.Spec.Rerun

/-! Claim C82: killing the transcoder at any moment and starting it again. -/

namespace IIVision
open Spec

theorem kept_iff {G : Grabber} {fs : FS} {i : Nat} (r : List U8 × List U8) : Kept G fs i ↔ ∀ x ∈ results G i r, fs x.1 ≠ none := by
  unfold Kept results
  cases G.mode <;> simp

theorem results_touched {G : Grabber} {i : Nat} {r : List U8 × List U8} {x : Text × List U8} (h : x ∈ results G i r) : Touched G i x.1 := by
  unfold results at h
  unfold Touched
  cases hm : G.mode <;> rw [hm] at h
  · simp only [List.mem_singleton] at h; subst h; exact .inl rfl
  · simp only [List.mem_cons, List.not_mem_nil, or_false] at h
    rcases h with h | h <;> subst h
    · exact .inl rfl
    · exact .inr (.inl rfl)

theorem finished_results {G : Grabber} {i : Nat} {r : List U8 × List U8} {fs : FS} (h : Finished G i r fs) {x : Text × List U8} (hx : x ∈ results G i r) :
    fs x.1 = some x.2 := by
  unfold Finished at h
  unfold results at hx
  cases hm : G.mode <;> rw [hm] at h hx
  · simp only [List.mem_singleton] at hx; subst hx; exact h.2
  · simp only [List.mem_cons, List.not_mem_nil, or_false] at hx
    rcases hx with hx | hx <;> subst hx
    · exact h.2.1
    · exact h.2.2

/-- The disk `fs'` can stand for `fs`. -/
def Agree (G : Grabber) (conv : List U8 → List U8 × List U8) (fs fs' : FS) : Prop :=
  ∀ i im, G.images[i]? = some im → (Kept G fs i → ∀ x ∈ results G i (conv im), fs' x.1 = fs x.1) ∧
    (¬ Kept G fs i → ∀ x ∈ results G i (conv im), fs' x.1 = none ∨ fs' x.1 = some x.2)

theorem Agree.trans {G : Grabber} {conv : List U8 → List U8 × List U8} {a b c : FS} (h : Agree G conv a b) (h' : Agree G conv b c) : Agree G conv a c := by
  intro i im hi
  have kept : Kept G a i → Kept G b i := fun hk => (kept_iff (conv im)).2 fun x hx => by
    rw [(h i im hi).1 hk x hx]; exact (kept_iff (conv im)).1 hk x hx
  refine ⟨fun hk x hx => ((h' i im hi).1 (kept hk) x hx).trans ((h i im hi).1 hk x hx), fun hk x hx => ?_⟩
  by_cases hb : Kept G b i
  · rw [(h' i im hi).1 hb x hx]; exact (h i im hi).2 hk x hx
  · exact (h' i im hi).2 hb x hx

theorem results_fun {G : Grabber} {i : Nat} {r : List U8 × List U8} {q : Text} {d d' : List U8} (h : (q, d) ∈ results G i r) (h' : (q, d') ∈ results G i r) :
    d = d' := by
  have hne : G.path i (txt ".BIN") ≠ G.path i (txt ".AUX") := fun h => absurd (Grabber.path_inj suffix_bin suffix_aux h).2 (by decide)
  unfold results at h h'
  cases hm : G.mode <;> rw [hm] at h h'
  · simp only [List.mem_singleton, Prod.mk.injEq] at h h'; rw [h.2, h'.2]
  · simp only [List.mem_cons, List.not_mem_nil, or_false, Prod.mk.injEq] at h h'
    rcases h with ⟨h1, h2⟩ | ⟨h1, h2⟩ <;> rcases h' with ⟨h3, h4⟩ | ⟨h3, h4⟩
    · rw [h2, h4]
    · exact absurd (h1.symm.trans h3) hne
    · exact absurd (h3.symm.trans h1) hne
    · rw [h2, h4]

theorem results_not_bmp {G : Grabber} {i : Nat} {r : List U8 × List U8} {x : Text × List U8} (h : x ∈ results G i r) : x.1 ≠ G.path i (txt ".bmp") := by
  unfold results at h
  cases hm : G.mode <;> rw [hm] at h
  · simp only [List.mem_singleton] at h; subst h
    exact fun h => absurd (Grabber.path_inj suffix_cbin suffix_bmp h).2 (by decide)
  · simp only [List.mem_cons, List.not_mem_nil, or_false] at h
    rcases h with h | h <;> subst h
    · exact fun h => absurd (Grabber.path_inj suffix_bin suffix_bmp h).2 (by decide)
    · exact fun h => absurd (Grabber.path_inj suffix_aux suffix_bmp h).2 (by decide)

/-! ### The files along a run -/

theorem filesAt_worker {G : Grabber} {conv : List U8 → List U8 × List U8} (hc : Converts G conv) {fs0 : FS} {s t : GState} {k : Nat}
    (hw : s.worker.At G.images k) (hf : FilesAt G conv fs0 k s.fs) (hs : G.workerStep s = some t) :
    ∃ k, t.worker.At G.images k ∧ FilesAt G conv fs0 k t.fs := by
  obtain ⟨fs, w, q, c, out⟩ := s
  simp only at hw hf
  cases w with
  | fetch idx rest =>
    obtain ⟨h1, h2, h3⟩ := hw
    subst h1
    cases rest with
    | nil =>
      have hk := drop_nil h2 h3
      subst hk
      simp only [Grabber.workerStep] at hs
      split at hs <;> · injection hs with hs; subst hs; exact ⟨_, rfl, hf⟩
    | cons im rest =>
      obtain ⟨h4, h5, h6⟩ := drop_cons h3
      obtain ⟨fs', item, h7, h8, _⟩ := hf.decode hc h5
      simp only [Grabber.workerStep, h7] at hs
      injection hs with hs
      subst hs
      exact ⟨k + 1, ⟨rfl, h4, h6⟩, h8⟩
  | put item idx rest =>
    simp only [Grabber.workerStep] at hs
    split at hs
    · injection hs with hs; subst hs; exact ⟨k, hw, hf⟩
    · simp at hs
  | putEnd =>
    simp only [Grabber.workerStep] at hs
    split at hs
    · injection hs with hs; subst hs; exact ⟨k, hw, hf⟩
    · simp at hs
  | done => simp [Grabber.workerStep] at hs
  | dead e => simp [Grabber.workerStep] at hs

theorem filesAt_wsteps {P : Setup} {conv : List U8 → List U8 × List U8} (hc : Converts P.grabber conv) {fs0 : FS} {n : Nat} {s t : Prog}
    (h : WSteps P n s t) (h0 : ∃ k, s.g.worker.At P.grabber.images k ∧ FilesAt P.grabber conv fs0 k s.disk) :
    ∃ k, t.g.worker.At P.grabber.images k ∧ FilesAt P.grabber conv fs0 k t.disk := by
  induction h with
  | zero => exact h0
  | succ _ hst ih =>
    obtain ⟨k, h1, h2⟩ := ih h0
    cases hst with
    | worker hs =>
      unfold Prog.workerStep at hs
      split at hs
      · split at hs
        · rename_i g hg
          cases hs
          exact filesAt_worker hc h1 h2 hg
        · cases hs
      · cases hs
    | main hm => exact ⟨k, by rw [mainW_worker hm]; exact h1, by rw [mainW_disk hm]; exact h2⟩

/-- The launched program is the one that the command line describes. -/
theorem launch_grabber {H : Host} {argv : List Text} {fs : FS} {c : Command} {norm : Flt} {tpf : Rat} (h : Starts H argv c norm tpf) {P : Setup} {s0 : Prog}
    (hl : launch H argv fs = .ok (P, s0)) : P.grabber = hostGrabber H c ∧ P.name = outFilename c.output c.input := by
  obtain ⟨c', norm', text, rate, tpf', v, h1, -, -, -, -, -, -, hP, -⟩ := launch_parts hl
  have := (C77_command_line _ _ _).2 h.words
  cases h1.symm.trans this
  rw [hP]
  exact ⟨rfl, rfl⟩

/-- A state of a run: the files of the pictures. -/
theorem running_files {H : Host} {argv : List Text} {fs : FS} {c : Command} {norm : Flt} {tpf : Rat} (h : Starts H argv c norm tpf) (hf : Separate H c)
    (ha : ∀ x, H.addr x < 65536) {conv : List U8 → List U8 × List U8} (hc : Converts (hostGrabber H c) conv) {n : Nat} {s : Prog} (hr : Running H argv fs n s) :
    ∃ k fs', s.g.worker.At H.images k ∧ FilesAt (hostGrabber H c) conv fs k fs' ∧ ∀ i q, OwnFile (hostGrabber H c) i q → s.disk q = fs' q := by
  obtain ⟨P, s0, hl, hst⟩ := hr
  obtain ⟨hG, hN⟩ := launch_grabber h hl
  obtain ⟨c', norm', text, rate, tpf', v, -, -, -, -, -, -, -, hP, hs0⟩ := launch_parts hl
  generalize hx : ({ g := P.grabber.start fs, started := false, main := .running, coder := { phase := .new, audio := ((H.format c'.bitrate).stream H.rnd H.bad norm' H.buffers).1, frames := [], ticks := 0, frameNumber := 0, v, rng := ⟨H.tape, 0⟩, gen := none, target := none, lastBank := false }, pos := 0, aux := false, out := [] } : Prog) = x at hs0
  have haddr : P.movie.addr = H.addr := by rw [hP]
  rw [hs0] at hst
  obtain ⟨t, ht, rfl⟩ := (stepsW_iff (by rw [haddr]; exact ha) (by rw [hG, hN]; exact hf.blind) (by rw [hG, hN]; exact hf.name)).1 hst
  obtain ⟨k, k1, k2⟩ := filesAt_wsteps (conv := conv) (fs0 := fs) (by rw [hG]; exact hc) ht
    ⟨0, by subst hx; exact ⟨rfl, Nat.zero_le _, rfl⟩, by subst hx; exact filesAt_zero _ conv fs⟩
  refine ⟨k, t.disk, by rw [hG] at k1; exact k1, by rw [hG] at k2; exact k2, fun i q hq => put_other _ (fun e => ?_) _⟩
  rw [hN] at e
  exact hf.name i (e ▸ hq)

/-- What is left of one run: pictures that were complete. -/
theorem kept_left {H : Host} {argv : List Text} {fs fs' : FS} {c : Command} {norm : Flt} {tpf : Rat} (h : Starts H argv c norm tpf) (hf : Separate H c)
    (ha : ∀ x, H.addr x < 65536) {conv : List U8 → List U8 × List U8} (hc : Converts (hostGrabber H c) conv)
    {n : Nat} {s : Prog} (hr : Running H argv fs n s) (hl : LeftBy (hostGrabber H c) conv s fs')
    {i : Nat} {im : List U8} (hi : (hostGrabber H c).images[i]? = some im) (hk : Kept (hostGrabber H c) fs i) :
    ∀ x ∈ results (hostGrabber H c) i (conv im), fs' x.1 = fs x.1 := by
  obtain ⟨k, d, h1, h2, h3⟩ := running_files h hf ha hc hr
  have hlt : i < (hostGrabber H c).images.length := (List.getElem?_eq_some_iff.1 hi).1
  have hs : ∀ x ∈ results (hostGrabber H c) i (conv im), s.disk x.1 = fs x.1 := by
    intro x hx
    rw [h3 i x.1 (touched_own (results_touched hx))]
    exact h2.own (.inr hk) (results_touched hx)
  intro x hx
  rcases hl i x.1 hlt (touched_own (results_touched hx)) with e | ⟨im', rest, -, -, hnk, -⟩
  · rw [e, hs x hx]
  · refine absurd ((kept_iff (conv im)).2 fun y hy => ?_) hnk
    rw [hs y hy]
    exact (kept_iff (conv im)).1 hk y hy

/-- What is left of one run. -/
theorem agree_left {H : Host} {argv : List Text} {fs fs' : FS} {c : Command} {norm : Flt} {tpf : Rat} (h : Starts H argv c norm tpf) (hf : Separate H c)
    (ha : ∀ x, H.addr x < 65536) {conv : List U8 → List U8 × List U8} (hc : Converts (hostGrabber H c) conv)
    (hn : NoStrangeHalves (hostGrabber H c) conv fs) {n : Nat} {s : Prog} (hr : Running H argv fs n s) (hl : LeftBy (hostGrabber H c) conv s fs') :
    Agree (hostGrabber H c) conv fs fs' := by
  intro i im hi
  refine ⟨fun hk => kept_left h hf ha hc hr hl hi hk, fun hk x hx => ?_⟩
  obtain ⟨k, d, h1, h2, h3⟩ := running_files h hf ha hc hr
  have hlt : i < (hostGrabber H c).images.length := (List.getElem?_eq_some_iff.1 hi).1
  have hold : s.disk x.1 = none ∨ s.disk x.1 = some x.2 := by
    rw [h3 i x.1 (touched_own (results_touched hx))]
    by_cases hik : k ≤ i
    · rw [h2.own (.inl hik) (results_touched hx)]
      exact hn i im hi hk x.1 x.2 hx
    · exact .inr (finished_results (h2.done i im (Nat.not_le.1 hik) hi hk) hx)
  rcases hl i x.1 hlt (touched_own (results_touched hx)) with e | ⟨im', rest, -, hw, -, e | ⟨d', hd, e⟩⟩
  · rw [e]; exact hold
  · exact absurd e (results_not_bmp hx)
  · rw [hw] at h1
    obtain ⟨-, -, h1⟩ := h1
    obtain ⟨-, him, -⟩ := drop_cons h1
    cases hi.symm.trans him
    right
    rw [e, results_fun hd hx]

theorem interrupted_agree {G : Grabber} {conv : List U8 → List U8 × List U8} (hc : Converts G conv) {fs fs' : FS} (hi : Interrupted G conv fs fs')
    (hn : NoStrangeHalves G conv fs) : Agree G conv fs fs' := by
  induction hi with
  | never => exact fun i im hi => ⟨fun _ _ _ => rfl, fun hk x hx => hn i im hi hk x.1 x.2 hx⟩
  | @again fs1 fs2 H argv c norm tpf n s _ hst hG hsep ha hr hl ih =>
    subst hG
    refine ih.trans (agree_left hst hsep ha hc ?_ hr hl)
    intro i im hi hk q d hq
    by_cases h0 : Kept (hostGrabber H c) fs i
    · refine absurd ((kept_iff (conv im)).2 fun y hy => ?_) hk
      rw [(ih i im hi).1 h0 y hy]
      exact (kept_iff (conv im)).1 h0 y hy
    · exact (ih i im hi).2 h0 _ hq

/-! ### The pictures of a run -/

theorem itemFrom_unique {G : Grabber} {fs : FS} {i : Nat} {a b : Item} (h : ItemFrom G fs i a) (h' : ItemFrom G fs i b) : a = b := by
  unfold ItemFrom at h h'
  obtain ⟨a1, a2⟩ := a
  obtain ⟨b1, b2⟩ := b
  cases hm : G.mode <;> rw [hm] at h h'
  · obtain ⟨e1, e2⟩ := h; obtain ⟨e3, e4⟩ := h'
    simp only at e1 e2 e3 e4
    cases e1.symm.trans e3
    rw [e2, e4]
  · obtain ⟨e1, a, e2, e5⟩ := h; obtain ⟨e3, b, e4, e6⟩ := h'
    simp only at e1 e2 e3 e4
    cases e1.symm.trans e3
    cases e5.symm.trans e6
    rw [e2, e4]

theorem itemFrom_results {G : Grabber} {fs fs' : FS} {i : Nat} {r : List U8 × List U8} (h : ∀ x ∈ results G i r, fs' x.1 = fs x.1) (a : Item) :
    ItemFrom G fs' i a ↔ ItemFrom G fs i a := by
  unfold ItemFrom
  unfold results at h
  cases hm : G.mode <;> rw [hm] at h
  · simp only [List.mem_singleton, forall_eq] at h
    simp only [h]
  · simp only [List.mem_cons, List.not_mem_nil, or_false, forall_eq_or_imp, forall_eq] at h
    simp only [h.1, h.2]

theorem itemFrom_conv {G : Grabber} {fs : FS} {i : Nat} {r : List U8 × List U8} (h : ∀ x ∈ results G i r, fs x.1 = some x.2) :
    ItemFrom G fs i (itemOf G.mode r) := by
  unfold ItemFrom itemOf
  unfold results at h
  cases hm : G.mode <;> rw [hm] at h
  · exact ⟨h _ (.head _), rfl⟩
  · exact ⟨h _ (.head _), _, rfl, h _ (.tail _ (.head _))⟩

theorem oneByOne_agree {G : Grabber} {conv : List U8 → List U8 × List U8} (hc : Converts G conv) {fa fb : FS} (hab : Agree G conv fa fb) :
    ∀ (l : List (List U8)) (k : Nat) (a b : FS), k ≤ G.images.length → l = G.images.drop k → FilesAt G conv fa k a → FilesAt G conv fb k b →
      oneByOne G k a l = oneByOne G k b l := by
  intro l
  induction l with
  | nil => intro k a b _ _ _ _; rfl
  | cons im l ih =>
    intro k a b hk hl ha hb
    obtain ⟨h4, h5, h6⟩ := drop_cons hl
    obtain ⟨a', x, a1, a2, a3, a4⟩ := ha.decode hc h5
    obtain ⟨b', y, b1, b2, b3, b4⟩ := hb.decode hc h5
    have hxy : x = y := by
      by_cases hka : Kept G fa k
      · have hsame := (hab k im h5).1 hka
        have hkb : Kept G fb k := (kept_iff (conv im)).2 fun z hz => by rw [hsame z hz]; exact (kept_iff (conv im)).1 hka z hz
        exact itemFrom_unique (a3 hka) ((itemFrom_results hsame y).1 (b3 hkb))
      · rw [a4 hka]
        by_cases hkb : Kept G fb k
        · refine itemFrom_unique (itemFrom_conv fun z hz => ?_) (b3 hkb)
          rcases (hab k im h5).2 hka z hz with e | e
          · exact absurd e ((kept_iff (conv im)).1 hkb z hz)
          · exact e
        · rw [b4 hkb]
    subst hxy
    have := ih (k + 1) a' b' h4 h6 a2 b2
    simp only [oneByOne, a1, b1, this]

/-- **C82.** After any number of runs killed at any moment, also inside a conversion: every picture that was complete at the start still is what it was, each
result file of another picture is either not there or what the converter makes of this picture, and the pictures that a new run gets are those it would have got without
all this. -/
theorem C82_pictures {G : Grabber} {conv : List U8 → List U8 × List U8} (hc : Converts G conv) {fs fs' : FS} (hi : Interrupted G conv fs fs')
    (hn : NoStrangeHalves G conv fs) :
    wholeVideo G fs' = wholeVideo G fs ∧
    ∀ i picture, G.images[i]? = some picture →
      (Kept G fs i → ∀ q d, (q, d) ∈ results G i (conv picture) → fs' q = fs q) ∧
      (¬ Kept G fs i → ∀ q d, (q, d) ∈ results G i (conv picture) → fs' q = none ∨ fs' q = some d) := by
  have h := interrupted_agree hc hi hn
  exact ⟨(oneByOne_agree hc h _ 0 fs fs' (Nat.zero_le _) rfl (filesAt_zero _ _ _) (filesAt_zero _ _ _)).symm,
    fun i im hi => ⟨fun hk q d hq => (h i im hi).1 hk _ hq, fun hk q d hq => (h i im hi).2 hk _ hq⟩⟩

/-- **C82.** Whatever the words are: started again after any number of killed runs with the same pictures, the program comes to the same end and leaves the same output file as
if it had been run once, undisturbed, on the first disk. -/
theorem C82_rerun {H : Host} {argv : List Text} {c : Command} {norm : Flt} {tpf : Rat} (h : Starts H argv c norm tpf) (hf : Separate H c)
    (ha : ∀ x, H.addr x < 65536) {conv : List U8 → List U8 × List U8} (hc : Converts (hostGrabber H c) conv)
    {fs fs' : FS} (hi : Interrupted (hostGrabber H c) conv fs fs') (hn : NoStrangeHalves (hostGrabber H c) conv fs) :
    (∃ s, Running H argv fs' 0 s) ∧ ∀ n s n' s', Running H argv fs n s → Still H argv fs s → Running H argv fs' n' s' → Still H argv fs' s' →
      s'.main = s.main ∧ s'.disk (outFilename c.output c.input) = s.disk (outFilename c.output c.input) := by
  have hv := (C82_pictures hc hi hn).1
  refine ⟨(C80_starts H argv fs').2 ⟨c, norm, tpf, h⟩, ?_⟩
  intro n s n' s' h1 h2 h3 h4
  obtain ⟨P, s0, hl, -⟩ := id h1
  obtain ⟨P', s0', hl', -⟩ := id h3
  obtain ⟨hG, hN⟩ := launch_grabber h hl
  obtain ⟨hG', hN'⟩ := launch_grabber h hl'
  have same : P' = P ∧ s0'.coder = s0.coder := by
    obtain ⟨c1, norm1, text1, rate1, tpf1, v1, a1, a2, a3, a4, a5, a6, -, a7, a8⟩ := launch_parts hl
    obtain ⟨c2, norm2, text2, rate2, tpf2, v2, b1, b2, b3, b4, b5, b6, -, b7, b8⟩ := launch_parts hl'
    cases a1.symm.trans b1
    cases a2.symm.trans b2
    cases a3.symm.trans b3
    cases a4.symm.trans b4
    cases a5.symm.trans b5
    cases a6.symm.trans b6
    exact ⟨b7.trans a7.symm, by rw [a8, b8]; rfl⟩
  obtain ⟨rfl, hs0⟩ := same
  have hplain : Setup.plain P' fs' s0' = Setup.plain P' fs s0 := by
    unfold Setup.plain
    rw [hG, hv, hs0]
  have p1 := (C80_program hl ha (by rw [hG, hN]; exact hf.blind) (by rw [hG, hN]; exact hf.name) (by rw [hG]; exact hf.tool)).2 n s h1
  have p2 := (C80_program hl' ha (by rw [hG, hN]; exact hf.blind) (by rw [hG, hN]; exact hf.name) (by rw [hG]; exact hf.tool)).2 n' s' h3
  obtain ⟨-, ⟨d, d1, -, -, -, -, d2⟩, -⟩ := p1
  obtain ⟨-, ⟨d', e1, -, -, -, -, e2⟩, -⟩ := p2
  have d2 := d2 h2
  have e2 := e2 h4
  rw [hplain] at e2
  refine ⟨e2.2.trans d2.2.symm, ?_⟩
  rw [← hN, d1, e1]
  congr 1
  have hinj : Function.Injective (fun b : U8 => b.toNat) := fun a b hab => BitVec.eq_of_toNat_eq hab
  have : numbers d' = numbers d := e2.1.trans d2.1.symm
  exact hinj.list_map this

/-! ### A result file that has been cut short -/

theorem interrupted_kept {G : Grabber} {conv : List U8 → List U8 × List U8} (hc : Converts G conv) {fs fs' : FS} (hi : Interrupted G conv fs fs')
    {i : Nat} {im : List U8} (hm : G.images[i]? = some im) (hk : Kept G fs i) : ∀ x ∈ results G i (conv im), fs' x.1 = fs x.1 := by
  induction hi with
  | never => exact fun _ _ => rfl
  | @again fs1 fs2 H argv c norm tpf n s _ hst hG hsep ha hr hl ih =>
    subst hG
    intro x hx
    rw [← ih x hx]
    refine kept_left hst hsep ha hc hr hl hm ((kept_iff (conv im)).2 fun y hy => ?_) x hx
    rw [ih y hy]
    exact (kept_iff (conv im)).1 hk y hy

theorem truncated_kept {G : Grabber} {fs : FS} {i : Nat} (h : Truncated G fs i) : Kept G fs i := by
  unfold Truncated at h
  unfold Kept
  cases hm : G.mode <;> rw [hm] at h
  · obtain ⟨d, h1, -⟩ := h; simp [h1]
  · obtain ⟨d, d', h1, h2, -⟩ := h; simp [h1, h2]

theorem truncated_congr {G : Grabber} {fs fs' : FS} {i : Nat} {r : List U8 × List U8} (h : ∀ x ∈ results G i r, fs' x.1 = fs x.1) (ht : Truncated G fs i) :
    Truncated G fs' i := by
  unfold Truncated at ht ⊢
  unfold results at h
  cases hm : G.mode <;> rw [hm] at h ht
  · simp only [List.mem_singleton, forall_eq] at h
    simp only [h]; exact ht
  · simp only [List.mem_cons, List.not_mem_nil, or_false, forall_eq_or_imp, forall_eq] at h
    simp only [h.1, h.2]; exact ht

theorem oneByOne_torn {G : Grabber} {conv : List U8 → List U8 × List U8} (hc : Converts G conv) {fs : FS} {i : Nat} (ht : Truncated G fs i) (hi : i < G.images.length) :
    ∀ (l : List (List U8)) (k : Nat) (a : FS), k ≤ i → l = G.images.drop k → FilesAt G conv fs k a →
      k + (oneByOne G k a l).1.length ≤ i ∧ ∃ e, (oneByOne G k a l).2 = .raises e := by
  intro l
  induction l with
  | nil => intro k a hk hl _; have := drop_nil (by omega) hl; omega
  | cons im l ih =>
    intro k a hk hl ha
    obtain ⟨h4, h5, h6⟩ := drop_cons hl
    obtain ⟨a', x, a1, a2, a3, a4⟩ := ha.decode hc h5
    simp only [oneByOne, a1]
    cases hx : x.toFrame with
    | error e => exact ⟨by simpa using hk, e, rfl⟩
    | ok f =>
      simp only
      by_cases hki : k = i
      · subst hki
        obtain ⟨y, y1, y2⟩ := truncated_item ht
        rw [itemFrom_unique (a3 (truncated_kept ht)) y1, y2] at hx
        cases hx
      · obtain ⟨i1, i2⟩ := ih (k + 1) a' (by omega) h6 a2
        exact ⟨by simp only [List.length_cons]; omega, i2⟩

/-- **C82.** (A defect.) If the kill has cut a result file short, so that all result files of picture `i` are there but one does not have 8192 bytes, it stays so whatever runs
follow, and each of them gets an exception instead of this picture. -/
theorem C82_torn {G : Grabber} {conv : List U8 → List U8 × List U8} (hc : Converts G conv) {fs fs' : FS} (hi : Interrupted G conv fs fs')
    {i : Nat} (hlt : i < G.images.length) (ht : Truncated G fs i) :
    Truncated G fs' i ∧ (wholeVideo G fs').1.length ≤ i ∧ ∃ e, (wholeVideo G fs').2 = .raises e := by
  have ht' : Truncated G fs' i := truncated_congr (interrupted_kept hc hi (List.getElem?_eq_getElem hlt) (truncated_kept ht)) ht
  have h := oneByOne_torn hc ht' hlt G.images 0 fs' (Nat.zero_le _) rfl (filesAt_zero _ _ _)
  rw [Nat.zero_add] at h
  exact ⟨ht', h⟩

/-! ### A half that comes from somewhere else -/

/-- A state in which the conversion thread is about to convert the first picture, or inside of it. -/
theorem exists_asking {H : Host} {argv : List Text} {fs : FS} {c : Command} {norm : Flt} {tpf : Rat} (h : Starts H argv c norm tpf) (hf : Separate H c)
    (ha : ∀ x, H.addr x < 65536) (h0 : H.double 0 = 0) (hm : c.maxMb = .fin 0) (hs : hostSound H c norm ≠ []) :
    ∃ s, Running H argv fs 2 s ∧ s.started = true ∧ s.g.worker = .fetch 0 H.images ∧ ∀ i q, OwnFile (hostGrabber H c) i q → s.disk q = fs q := by
  obtain ⟨P, s0, v, hl, -, hP, hc⟩ := starts_launch (fs := fs) h
  have hG : P.grabber = hostGrabber H c := by rw [hP]
  have hN : P.name = outFilename c.output c.input := by rw [hP]
  obtain ⟨c', norm', text, rate, tpf', v', -, -, -, -, -, -, -, -, hs0⟩ := launch_parts hl
  generalize hx : ({ g := P.grabber.start fs, started := false, main := .running, coder := { phase := .new, audio := ((H.format c'.bitrate).stream H.rnd H.bad norm' H.buffers).1, frames := [], ticks := 0, frameNumber := 0, v := v', rng := ⟨H.tape, 0⟩, gen := none, target := none, lastBank := false }, pos := 0, aux := false, out := [] } : Prog) = x at hs0
  have e1 : x.main = .running := by subst hx; rfl
  have e2 : x.started = false := by subst hx; rfl
  have e3 : x.pos = 0 := by subst hx; rfl
  have e4 : x.aux = false := by subst hx; rfl
  have e5 : x.coder = s0.coder := by rw [hs0]; rfl
  have e6 : x.g = P.grabber.start fs := by subst hx; rfl
  have e7 : x.coder.phase = .new := by subst hx; rfl
  have e8 : x.coder.audio = hostSound H c norm := by rw [e5, hc]
  have e9 : x.coder.frameNumber = 0 := by subst hx; rfl
  clear hx
  have haddr : P.movie.addr = H.addr := by rw [hP]
  have hmode : P.movie.mode = c.mode := by rw [hP]
  have hlim : P.movie.limit = 0 := by rw [hP, hm]; simp [maxBytes, limitNumber]
  have hthr : P.movie.thr 0 = 0 := by rw [hP]; simp [tickThreshold, h0]; decide
  have hstop : P.movie.atLimit 0 = false := by unfold Movie.atLimit; rw [hlim]; rfl
  have hnext : P.next false { x.coder with frames := [] } = .ok (some (.header c.mode, { x.coder with frames := [], phase := .header })) := by
    have : Coder.nextT P.movie P.load false { x.coder with frames := [] } = .ok (some (.header c.mode, { x.coder with frames := [], phase := .header })) := by
      unfold Coder.nextT; simp only [e7, hmode]
    unfold Setup.next
    rw [this]
    cases P.soundEnd with
    | none => rfl
    | some e => simp only; rw [if_neg (fun hh => hh.1 e7)]
  have hack : P.movie.ackIfDue (0 + (Opcode.emit P.movie.addr (.header c.mode)).length) false =
      .ok ([], [], 0 + (Opcode.emit P.movie.addr (.header c.mode)).length, false) := by
    unfold Movie.ackIfDue
    rw [header_length]
    rfl
  have step1 : x.mainStepW P.movie P.next = some { x with main := .running, coder := { x.coder with frames := [], phase := .header }, pos := 0 + (Opcode.emit P.movie.addr (.header c.mode)).length, aux := false, out := x.out ++ Opcode.emit P.movie.addr (.header c.mode) ++ [] } := by
    unfold Prog.mainStepW
    rw [e1]
    simp only
    have : x.coder.needsFrame P.movie = false := by unfold Coder.needsFrame; rw [e7]
    rw [this, if_neg (by decide)]
    unfold Prog.resumeW
    rw [e4, hnext]
    simp only
    rw [e3, hstop, if_neg (by decide), hack]
  generalize hy : ({ x with main := .running, coder := { x.coder with frames := [], phase := .header }, pos := 0 + (Opcode.emit P.movie.addr (.header c.mode)).length, aux := false, out := x.out ++ Opcode.emit P.movie.addr (.header c.mode) ++ [] } : Prog) = y at step1
  have step2 : y.mainStepW P.movie P.next = some { y with started := true, main := .asking } := by
    have f1 : y.main = .running := by subst hy; rfl
    have f2 : y.started = false := by subst hy; exact e2
    have f3 : y.coder.needsFrame P.movie = true := by
      obtain ⟨a, l, hal⟩ := List.exists_cons_of_ne_nil hs
      subst hy
      unfold Coder.needsFrame
      simp only [e8, hal, e9, hthr]
      simp
    unfold Prog.mainStepW
    rw [f1]
    simp only
    rw [f3, f2, if_pos rfl, if_neg (by decide)]
  have steps : WSteps P 2 x { y with started := true, main := .asking } := .succ (.succ (.zero x) (.main step1)) (.main step2)
  refine ⟨Prog.save P.name { y with started := true, main := .asking }, ⟨P, s0, hl, ?_⟩, ?_⟩
  · rw [hs0]
    exact (stepsW_iff (by rw [haddr]; exact ha) (by rw [hG, hN]; exact hf.blind) (by rw [hG, hN]; exact hf.name)).2 ⟨_, steps, rfl⟩
  · have hg : y.g = P.grabber.start fs := by subst hy; exact e6
    refine ⟨rfl, ?_, fun i q hq => ?_⟩
    · show y.g.worker = _
      rw [hg, hG]
      rfl
    · have : q ≠ P.name := fun e => hf.name i (by rw [← hN, ← e]; exact hq)
      refine (put_other _ this _).trans ?_
      show y.g.fs q = fs q
      rw [hg]
      rfl

/-- **C82.** (A defect; why `NoStrangeHalves` is needed.) In double hi-res, if the first picture has a `.BIN` file from somewhere else but no `.AUX` file, a run can be killed such that every further
run mixes the two: the main half of the picture is from the old file and the other half is from this video. -/
theorem C82_mixed {H : Host} {argv : List Text} {fs : FS} {c : Command} {norm : Flt} {tpf : Rat} (h : Starts H argv c norm tpf) (hf : Separate H c)
    (ha : ∀ x, H.addr x < 65536) (h0 : H.double 0 = 0) (hm : c.maxMb = .fin 0) (hs : hostSound H c norm ≠ [])
    {conv : List U8 → List U8 × List U8} (hc : Converts (hostGrabber H c) conv) (hmode : c.mode = .DHGR) {picture : List U8} {rest : List (List U8)}
    (him : H.images = picture :: rest) {old : List U8} (hold : fs ((hostGrabber H c).path 0 (txt ".BIN")) = some old)
    (hnone : fs ((hostGrabber H c).path 0 (txt ".AUX")) = none) (hsize : old.length = 8192 ∧ (conv picture).2.length = 8192) :
    ∃ fs', Interrupted (hostGrabber H c) conv fs fs' ∧ ∀ fs'', Interrupted (hostGrabber H c) conv fs' fs'' →
      ∃ f more a, (wholeVideo (hostGrabber H c) fs'').1 = f :: more ∧ Shows f.main old ∧ f.aux = some a ∧ Shows a (conv picture).2 := by
  obtain ⟨s, h1, h2, h3, h4⟩ := exists_asking h hf ha h0 hm hs (fs := fs)
  generalize hG : hostGrabber H c = G at *
  have gm : G.mode = .DHGR := by rw [← hG]; exact hmode
  have gi : G.images = picture :: rest := by rw [← hG]; exact him
  have hne : G.path 0 (txt ".BIN") ≠ G.path 0 (txt ".AUX") := fun h => absurd (Grabber.path_inj suffix_bin suffix_aux h).2 (by decide)
  have dAux : s.disk (G.path 0 (txt ".AUX")) = none := by rw [h4 0 _ (.inr (.inr (.inl rfl)))]; exact hnone
  have dBin : s.disk (G.path 0 (txt ".BIN")) = some old := by rw [h4 0 _ (.inr (.inl rfl))]; exact hold
  have hres : (G.path 0 (txt ".AUX"), (conv picture).2) ∈ results G 0 (conv picture) := by
    unfold results; rw [gm]; exact .tail _ (.head _)
  have hleft : LeftBy G conv s (s.disk.put (G.path 0 (txt ".AUX")) (conv picture).2) := by
    intro i q hi hq
    by_cases e : q = G.path 0 (txt ".AUX")
    · right
      have : i = 0 := ownFile_inj hq (e ▸ (.inr (.inr (.inl rfl)) : OwnFile G 0 _))
      subst this
      refine ⟨picture, rest, h2, by rw [h3, him], fun hk => ?_, .inr ⟨_, by rw [e]; exact hres, by rw [e]; exact put_same _ _ _⟩⟩
      unfold Kept at hk
      rw [gm] at hk
      exact hk.2 dAux
    · exact .inl (put_other _ e _)
  refine ⟨_, .again (.never fs) h hG hf ha h1 hleft, fun fs'' hi => ?_⟩
  have b1 : (s.disk.put (G.path 0 (txt ".AUX")) (conv picture).2) (G.path 0 (txt ".BIN")) = some old := by rw [put_other _ hne]; exact dBin
  have b2 : (s.disk.put (G.path 0 (txt ".AUX")) (conv picture).2) (G.path 0 (txt ".AUX")) = some (conv picture).2 := put_same _ _ _
  have hk : Kept G (s.disk.put (G.path 0 (txt ".AUX")) (conv picture).2) 0 := by
    unfold Kept; rw [gm]; exact ⟨by simp [b1], by simp [b2]⟩
  have same := interrupted_kept hc hi (i := 0) (im := picture) (by rw [gi]; rfl) hk
  have c1 : fs'' (G.path 0 (txt ".BIN")) = some old := by
    rw [same (G.path 0 (txt ".BIN"), (conv picture).1) (by unfold results; rw [gm]; exact .head _)]; exact b1
  have c2 : fs'' (G.path 0 (txt ".AUX")) = some (conv picture).2 := by rw [same _ hres]; exact b2
  obtain ⟨m, hm1⟩ := mapOfBytes_good hsize.1
  obtain ⟨m', hm2⟩ := mapOfBytes_good hsize.2
  have hd : G.decode fs'' 0 picture = .ok (fs'', ⟨old, some (conv picture).2⟩) :=
    ItemFrom.decoded (by unfold ItemFrom; rw [gm]; exact ⟨c1, _, rfl, c2⟩) picture
  refine ⟨⟨m, some m'⟩, (oneByOne G 1 fs'' rest).1, m', ?_, mapOfBytes_ok hm1, rfl, mapOfBytes_ok hm2⟩
  unfold wholeVideo
  rw [gi]
  simp only [oneByOne, hd, Item.toFrame, hm1, hm2, bind, Except.bind, pure, Except.pure]

/-! ### The hypotheses can be met -/

/-- C82_pictures, C82_rerun: a run that is killed when the first picture has been half converted: its bitmap and one of two result files are there; then another one. -/
example : ∃ fs fs' fs'' : FS, Starts demoHost demoWords demoSettings (.fin (3 / 2)) 490 ∧ Separate demoHost demoSettings ∧
    Converts (hostGrabber demoHost demoSettings) (fun d => (demoScreen d, demoScreen d)) ∧
    NoStrangeHalves (hostGrabber demoHost demoSettings) (fun d => (demoScreen d, demoScreen d)) fs ∧
    fs' ((hostGrabber demoHost demoSettings).path 0 (txt ".bmp")) = some [99#8] ∧
    fs' ((hostGrabber demoHost demoSettings).path 0 (txt ".BIN")) = some (demoScreen [1#8]) ∧
    fs' ((hostGrabber demoHost demoSettings).path 0 (txt ".AUX")) = none ∧
    Interrupted (hostGrabber demoHost demoSettings) (fun d => (demoScreen d, demoScreen d)) fs fs' ∧
    Interrupted (hostGrabber demoHost demoSettings) (fun d => (demoScreen d, demoScreen d)) fs' fs'' := by
  have hstart := demo_starts
  have hsep := demo_separate
  have hconv : Converts (hostGrabber demoHost demoSettings) (fun d => (demoScreen d, demoScreen d)) := demo_converts _
  have hs : hostSound demoHost demoSettings (.fin (3 / 2)) ≠ [] := by decide +kernel
  have him : demoHost.images = [[1#8], [2#8], [3#8]] := rfl
  have gm : (hostGrabber demoHost demoSettings).mode = .DHGR := rfl
  obtain ⟨s, h1, h2, h3, h4⟩ := exists_asking hstart hsep player_small rfl rfl hs (fs := fun _ => none)
  generalize hG : hostGrabber demoHost demoSettings = G at *
  have n1 : G.path 0 (txt ".BIN") ≠ G.path 0 (txt ".AUX") := fun h => absurd (Grabber.path_inj suffix_bin suffix_aux h).2 (by decide)
  have n2 : G.path 0 (txt ".bmp") ≠ G.path 0 (txt ".AUX") := fun h => absurd (Grabber.path_inj suffix_bmp suffix_aux h).2 (by decide)
  have n3 : G.path 0 (txt ".bmp") ≠ G.path 0 (txt ".BIN") := fun h => absurd (Grabber.path_inj suffix_bmp suffix_bin h).2 (by decide)
  have hin : Interrupted G (fun d => (demoScreen d, demoScreen d)) (fun _ => none) ((s.disk.put (G.path 0 (txt ".bmp")) [99#8]).put (G.path 0 (txt ".BIN")) (demoScreen [1#8])) := by
    refine .again (.never _) hstart hG hsep player_small h1 ?_
    intro i q hi hq
    have hnk : ¬ Kept G s.disk 0 := by
      unfold Kept
      rw [gm]
      exact fun hk => hk.2 (h4 0 _ (.inr (.inr (.inl rfl))))
    by_cases e : q = G.path 0 (txt ".BIN")
    · have : i = 0 := ownFile_inj hq (e ▸ (.inr (.inl rfl) : OwnFile G 0 _))
      subst this
      exact .inr ⟨_, _, h2, h3, hnk, .inr ⟨_, by rw [e]; unfold results; rw [gm]; exact .head _, by rw [e]; exact put_same _ _ _⟩⟩
    · by_cases e' : q = G.path 0 (txt ".bmp")
      · have : i = 0 := ownFile_inj hq (e' ▸ (.inr (.inr (.inr rfl)) : OwnFile G 0 _))
        subst this
        exact .inr ⟨_, _, h2, h3, hnk, .inl e'⟩
      · exact .inl ((put_other _ e _).trans (put_other _ e' _))
  refine ⟨_, _, _, hstart, hsep, hconv, fun _ _ _ _ _ _ _ => .inl rfl, ?_, put_same _ _ _, ?_, hin, .never _⟩
  · rw [put_other _ n3]; exact put_same _ _ _
  · rw [put_other _ n1.symm, put_other _ n2.symm]; exact h4 0 _ (.inr (.inr (.inl rfl)))

/-- C82_torn: an empty file is left behind for picture 1. -/
example : ∃ fs : FS, Converts (hostGrabber demoHost demoSettings) (fun d => (demoScreen d, demoScreen d)) ∧ 1 < (hostGrabber demoHost demoSettings).images.length ∧
    Truncated (hostGrabber demoHost demoSettings) fs 1 :=
  ⟨fun _ => some [], demo_converts _, by decide, [], [], rfl, rfl, .inl (by decide)⟩

/-- C82_mixed: a main half of an other picture is there. -/
example : ∃ fs : FS, Starts demoHost demoWords demoSettings (.fin (3 / 2)) 490 ∧ Separate demoHost demoSettings ∧ demoHost.double 0 = 0 ∧ demoSettings.maxMb = .fin 0 ∧
    hostSound demoHost demoSettings (.fin (3 / 2)) ≠ [] ∧ Converts (hostGrabber demoHost demoSettings) (fun d => (demoScreen d, demoScreen d)) ∧
    demoHost.images = [1#8] :: [[2#8], [3#8]] ∧ fs ((hostGrabber demoHost demoSettings).path 0 (txt ".BIN")) = some (demoScreen [77#8]) ∧
    fs ((hostGrabber demoHost demoSettings).path 0 (txt ".AUX")) = none ∧ (demoScreen [77#8]).length = 8192 ∧ (demoScreen [1#8]).length = 8192 :=
  ⟨FS.put (fun _ => none) _ _, demo_starts, demo_separate, rfl, rfl, by decide +kernel, demo_converts _, rfl, put_same _ _ _,
    put_other _ (fun h => absurd (Grabber.path_inj suffix_aux suffix_bin h).2 (by decide)) _, demoScreen_length _, demoScreen_length _⟩

end IIVision
