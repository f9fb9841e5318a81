import Verif.Proofs.Cache
import Verif.Spec.Convert

/-! Lemmas about runs with a converter that does its job. -/

namespace IIVision
open Spec

theorem command_hgr {G : Grabber} (h : G.mode = .HGR) (bmp : Text) :
    txt "/usr/local/bin/bmp2dhr" :: bmp :: [txt "hgr", paletteArg G.palette, txt "D9"] =
      commandLine bmp G.mode G.palette := by
  rw [h]
  have h0 : decText 0 = [48] := by simp [decText]
  have h1 : decText 1 = [49] := by simp [decText]
  have h5 : decText 5 = [53] := by simp [decText]
  cases hp : G.palette <;>
    simp [commandLine, paletteArg, Palette.value, h0, h1, h5] <;> decide

theorem command_dhgr {G : Grabber} (h : G.mode = .DHGR) (bmp : Text) :
    txt "/usr/local/bin/bmp2dhr" :: bmp :: [txt "dhgr", paletteArg G.palette, txt "A", txt "D9"] =
      commandLine bmp G.mode G.palette := by
  rw [h]
  have h0 : decText 0 = [48] := by simp [decText]
  have h1 : decText 1 = [49] := by simp [decText]
  have h5 : decText 5 = [53] := by simp [decText]
  cases hp : G.palette <;>
    simp [commandLine, paletteArg, Palette.value, h0, h1, h5] <;> decide

theorem touched_own {G : Grabber} {i : Nat} {q : Text} (h : Touched G i q) : OwnFile G i q := by
  unfold Touched at h
  unfold OwnFile
  cases hm : G.mode <;> rw [hm] at h
  · rcases h with h | h
    · exact .inl h
    · exact .inr (.inr (.inr h))
  · exact .inr h

theorem convert_ok {G : Grabber} {conv : List U8 → List U8 × List U8} (hc : Converts G conv)
    (fs : FS) (i : Nat) (im : List U8) {args : List Text}
    (ha : txt "/usr/local/bin/bmp2dhr" :: G.path i (txt ".bmp") :: args =
      commandLine (G.path i (txt ".bmp")) G.mode G.palette) :
    ∃ fs', G.convert fs i im args = .ok fs' ∧ Finished G i (conv im) fs' ∧
      ∀ q, ¬Touched G i q → fs' q = fs q := by
  have hbmp : (fs.put (G.path i (txt ".bmp")) im) (G.path i (txt ".bmp")) = some im := by
    simp [FS.put]
  obtain ⟨fs1, h1, h2⟩ := hc i _ im hbmp
  have n1 : G.path i (txt ".bmp") ≠ G.path i (txt ".AUX") := fun h =>
    absurd (Grabber.path_inj suffix_bmp suffix_aux h).2 (by decide)
  have n2 : G.path i (txt ".bmp") ≠ G.path i (txt ".BIN") := fun h =>
    absurd (Grabber.path_inj suffix_bmp suffix_bin h).2 (by decide)
  have n3 : G.path i (txt ".bmp") ≠ G.path i (txt "C.BIN") := fun h =>
    absurd (Grabber.path_inj suffix_bmp suffix_cbin h).2 (by decide)
  have hthere : fs1 (G.path i (txt ".bmp")) = some im := by
    unfold Written at h2
    cases hm : G.mode <;> rw [hm] at h2
    · rw [h2.2 _ n3, hbmp]
    · rw [h2.2.2 _ n2 n1, hbmp]
  refine ⟨fun q => if q = G.path i (txt ".bmp") then none else fs1 q, ?_, ⟨if_pos rfl, ?_⟩, ?_⟩
  · simp only [Grabber.convert, bind, Except.bind, ha, h1, FS.remove, hthere]
  · unfold Written at h2
    cases hm : G.mode <;> rw [hm] at h2
    · simp only [if_neg n3.symm, h2.1]
    · simp only [if_neg n2.symm, if_neg n1.symm, h2.1, h2.2.1, and_self]
  · intro q hq
    unfold Touched at hq
    unfold Written at h2
    cases hm : G.mode <;> rw [hm] at h2 hq
    · have hq1 : q ≠ G.path i (txt "C.BIN") := fun h => hq (.inl h)
      have hq2 : q ≠ G.path i (txt ".bmp") := fun h => hq (.inr h)
      simp only [if_neg hq2, h2.2 _ hq1, FS.put]
    · have hq1 : q ≠ G.path i (txt ".BIN") := fun h => hq (.inl h)
      have hq3 : q ≠ G.path i (txt ".AUX") := fun h => hq (.inr (.inl h))
      have hq2 : q ≠ G.path i (txt ".bmp") := fun h => hq (.inr (.inr h))
      simp only [if_neg hq2, h2.2.2 _ hq1 hq3, FS.put]

/-- The item of a converted picture. -/
def itemOf (mode : VideoMode) (r : List U8 × List U8) : Item :=
  match mode with
  | .HGR => ⟨r.1, none⟩
  | .DHGR => ⟨r.1, some r.2⟩

theorem finished_item {G : Grabber} {i : Nat} {r : List U8 × List U8} {fs : FS}
    (h : Finished G i r fs) : ItemFrom G fs i (itemOf G.mode r) := by
  unfold Finished at h
  unfold ItemFrom itemOf
  cases hm : G.mode <;> rw [hm] at h
  · exact ⟨h.2, rfl⟩
  · exact ⟨h.2.1, _, rfl, h.2.2⟩

theorem kept_item {G : Grabber} {fs : FS} {i : Nat} (h : Kept G fs i) : ∃ item, ItemFrom G fs i item := by
  unfold Kept at h
  unfold ItemFrom
  cases hm : G.mode <;> rw [hm] at h
  · obtain ⟨d, hd⟩ := Option.ne_none_iff_exists'.mp h
    exact ⟨⟨d, none⟩, hd, rfl⟩
  · obtain ⟨d, hd⟩ := Option.ne_none_iff_exists'.mp h.1
    obtain ⟨a, ha⟩ := Option.ne_none_iff_exists'.mp h.2
    exact ⟨⟨d, some a⟩, hd, _, rfl, ha⟩

/-- Converting a picture whose results are not there. -/
theorem decode_new {G : Grabber} {conv : List U8 → List U8 × List U8} (hc : Converts G conv)
    (fs : FS) (i : Nat) (im : List U8) (hk : ¬Kept G fs i) :
    ∃ fs', G.decode fs i im = .ok (fs', itemOf G.mode (conv im)) ∧ Finished G i (conv im) fs' ∧
      ∀ q, ¬Touched G i q → fs' q = fs q := by
  cases hm : G.mode with
  | HGR =>
    obtain ⟨fs', h1, h2, h3⟩ := convert_ok hc fs i im (command_hgr hm _)
    refine ⟨fs', ?_, h2, h3⟩
    have hno : ¬fs.has (G.path i (txt "C.BIN")) = true := by
      intro h
      refine hk ?_
      unfold Kept
      rw [hm]
      intro h'
      simp [FS.has, h'] at h
    unfold Finished at h2
    rw [hm] at h2
    simp only [Grabber.decode, hm, reduceCtorEq, if_false, Grabber.hgrDecode, if_neg hno, h1, bind, Except.bind,
      FS.read, h2.2, pure, Except.pure, itemOf]
  | DHGR =>
    obtain ⟨fs', h1, h2, h3⟩ := convert_ok hc fs i im (command_dhgr hm _)
    refine ⟨fs', ?_, h2, h3⟩
    have hno : ¬(fs.has (G.path i (txt ".BIN")) && fs.has (G.path i (txt ".AUX"))) = true := by
      intro h
      refine hk ?_
      unfold Kept
      rw [hm]
      simp only [FS.has, Bool.and_eq_true, Option.isSome_iff_ne_none] at h
      exact h
    unfold Finished at h2
    rw [hm] at h2
    simp only [Grabber.decode, hm, if_true, Grabber.dhgrDecode, if_neg hno, h1, bind, Except.bind,
      FS.read, h2.2.1, h2.2.2, pure, Except.pure, itemOf]

/-- The files after the first `k` pictures, from the files `fs0`. -/
structure FilesAt (G : Grabber) (conv : List U8 → List U8 × List U8) (fs0 : FS) (k : Nat) (fs : FS) : Prop where
  done : ∀ i im, i < k → G.images[i]? = some im → ¬Kept G fs0 i → Finished G i (conv im) fs
  other : ∀ q, (∀ i, i < k → ¬Kept G fs0 i → ¬Touched G i q) → fs q = fs0 q

theorem touched_inj {G : Grabber} {i j : Nat} {q : Text} (h : Touched G i q) (h' : Touched G j q) : i = j :=
  ownFile_inj (touched_own h) (touched_own h')

theorem FilesAt.own {G : Grabber} {conv : List U8 → List U8 × List U8} {fs0 fs : FS} {k : Nat}
    (h : FilesAt G conv fs0 k fs) {i : Nat} (hi : k ≤ i ∨ Kept G fs0 i) {q : Text} (hq : Touched G i q) :
    fs q = fs0 q := by
  refine h.other q fun j hj hk ht => ?_
  have := touched_inj ht hq
  subst this
  rcases hi with hi | hi
  · omega
  · exact hk hi

theorem kept_congr {G : Grabber} {fs fs' : FS} {i : Nat} (h : ∀ q, Touched G i q → fs q = fs' q) :
    Kept G fs i ↔ Kept G fs' i := by
  unfold Kept
  unfold Touched at h
  cases hm : G.mode <;> rw [hm] at h
  · simp only [h _ (.inl rfl)]
  · simp only [h _ (.inl rfl), h _ (.inr (.inl rfl))]

theorem item_congr {G : Grabber} {fs fs' : FS} {i : Nat} (h : ∀ q, Touched G i q → fs q = fs' q) (item : Item) :
    ItemFrom G fs i item ↔ ItemFrom G fs' i item := by
  unfold ItemFrom
  unfold Touched at h
  cases hm : G.mode <;> rw [hm] at h
  · simp only [h _ (.inl rfl)]
  · simp only [h _ (.inl rfl), h _ (.inr (.inl rfl))]

theorem finished_congr {G : Grabber} {fs fs' : FS} {i : Nat} {r : List U8 × List U8}
    (h : ∀ q, Touched G i q → fs' q = fs q) (hf : Finished G i r fs) : Finished G i r fs' := by
  unfold Finished at hf ⊢
  unfold Touched at h
  cases hm : G.mode <;> rw [hm] at h hf
  · exact ⟨(h _ (.inr rfl)).trans hf.1, (h _ (.inl rfl)).trans hf.2⟩
  · exact ⟨(h _ (.inr (.inr rfl))).trans hf.1, (h _ (.inl rfl)).trans hf.2.1, (h _ (.inr (.inl rfl))).trans hf.2.2⟩

/-- One more picture. -/
theorem FilesAt.decode {G : Grabber} {conv : List U8 → List U8 × List U8} (hc : Converts G conv)
    {fs0 fs : FS} {k : Nat} (h : FilesAt G conv fs0 k fs) {im : List U8} (hk : G.images[k]? = some im) :
    ∃ fs' item, G.decode fs k im = .ok (fs', item) ∧ FilesAt G conv fs0 (k + 1) fs' ∧
      (Kept G fs0 k → ItemFrom G fs0 k item) ∧ (¬Kept G fs0 k → item = itemOf G.mode (conv im)) := by
  have hown : ∀ q, Touched G k q → fs q = fs0 q := fun q hq => h.own (.inl (Nat.le_refl _)) hq
  by_cases hkept : Kept G fs0 k
  · obtain ⟨item, hitem⟩ := kept_item hkept
    refine ⟨fs, item, ((item_congr hown item).mpr hitem).decoded im, ⟨?_, ?_⟩, fun _ => hitem,
      fun hn => absurd hkept hn⟩
    · intro i im' hi him hn
      by_cases hik : i = k
      · subst hik; exact absurd hkept hn
      · exact h.done i im' (by omega) him hn
    · intro q hq
      exact h.other q fun i hi => hq i (by omega)
  · obtain ⟨fs', h1, h2, h3⟩ := decode_new hc fs k im (fun h' => hkept ((kept_congr hown).mp h'))
    refine ⟨fs', _, h1, ⟨?_, ?_⟩, fun hn => absurd hn hkept, fun _ => rfl⟩
    · intro i im' hi him hn
      by_cases hik : i = k
      · subst hik
        rw [hk] at him
        injection him with him
        subst him
        exact h2
      · refine finished_congr (fun q hq => h3 q fun ht => hik (touched_inj hq ht)) ?_
        exact h.done i im' (by omega) him hn
    · intro q hq
      rw [h3 q (hq k (by omega) hkept)]
      exact h.other q fun i hi => hq i (by omega)

theorem filesAt_zero (G : Grabber) (conv : List U8 → List U8 × List U8) (fs : FS) : FilesAt G conv fs 0 fs :=
  ⟨fun _ _ h => absurd h (by omega), fun _ _ => rfl⟩

/-- The worker has handled `k` pictures. -/
def Worker.At (images : List (List U8)) : Worker → Nat → Prop
  | .fetch idx rest, k => k = idx ∧ idx ≤ images.length ∧ rest = images.drop idx
  | .put _ idx rest, k => k = idx + 1 ∧ idx + 1 ≤ images.length ∧ rest = images.drop (idx + 1)
  | .putEnd, k => k = images.length
  | .done, k => k = images.length
  | .dead _, k => k = images.length

theorem drop_cons {images rest : List (List U8)} {k : Nat} {im : List U8} (h : im :: rest = images.drop k) :
    k < images.length ∧ images[k]? = some im ∧ rest = images.drop (k + 1) := by
  have hlt : k < images.length := by
    have := congrArg List.length h
    simp only [List.length_cons, List.length_drop] at this
    omega
  rw [List.drop_eq_getElem_cons hlt] at h
  injection h with h1 h2
  exact ⟨hlt, by rw [List.getElem?_eq_getElem hlt, h1], h2⟩

theorem drop_nil {images : List (List U8)} {k : Nat} (hk : k ≤ images.length) (h : [] = images.drop k) :
    k = images.length := by
  have := congrArg List.length h
  simp only [List.length_nil, List.length_drop] at this
  omega

theorem filesAt_steps {G : Grabber} {conv : List U8 → List U8 × List U8} (hc : Converts G conv)
    {fs0 : FS} {n : Nat} {s : GState} (h : G.Steps n (G.start fs0) s) :
    ∃ k, s.worker.At G.images k ∧ FilesAt G conv fs0 k s.fs := by
  generalize hs0 : G.start fs0 = s0 at h
  induction h with
  | zero => subst hs0; exact ⟨0, ⟨rfl, Nat.zero_le _, rfl⟩, filesAt_zero G conv fs0⟩
  | succ _ hst ih =>
    obtain ⟨k, hw, hf⟩ := ih hs0
    rename_i s t _
    clear ih hs0
    obtain ⟨fs, w, q, c, out⟩ := s
    simp only at hw hf
    cases hst with
    | worker hs =>
      cases w with
      | fetch idx rest =>
        obtain ⟨h1, h2, h3⟩ := hw
        subst h1
        cases rest with
        | nil =>
          have hk := drop_nil h2 h3
          subst hk
          simp only [Grabber.workerStep] at hs
          split at hs <;> · injection hs with hs; subst hs; exact ⟨_, rfl, hf⟩
        | cons im rest =>
          obtain ⟨h4, h5, h6⟩ := drop_cons h3
          obtain ⟨fs', item, h7, h8, _⟩ := hf.decode hc h5
          simp only [Grabber.workerStep, h7] at hs
          injection hs with hs
          subst hs
          exact ⟨k + 1, ⟨rfl, h4, h6⟩, h8⟩
      | put item idx rest =>
        simp only [Grabber.workerStep] at hs
        split at hs
        · injection hs with hs; subst hs; exact ⟨k, hw, hf⟩
        · simp at hs
      | putEnd =>
        simp only [Grabber.workerStep] at hs
        split at hs
        · injection hs with hs; subst hs; exact ⟨k, hw, hf⟩
        · simp at hs
      | done => simp [Grabber.workerStep] at hs
      | dead e => simp [Grabber.workerStep] at hs
    | consumer hs =>
      have : t.fs = fs ∧ t.worker = w := by
        cases c with
        | get =>
          cases q with
          | nil => simp [GState.consumerStep] at hs
          | cons x q =>
            cases x with
            | none => simp only [GState.consumerStep] at hs; injection hs with hs; subst hs; exact ⟨rfl, rfl⟩
            | some it =>
              simp only [GState.consumerStep] at hs
              split at hs <;> · injection hs with hs; subst hs; exact ⟨rfl, rfl⟩
        | yielded => simp only [GState.consumerStep] at hs; injection hs with hs; subst hs; exact ⟨rfl, rfl⟩
        | join =>
          simp only [GState.consumerStep] at hs
          cases w <;> simp at hs <;> subst hs <;> exact ⟨rfl, rfl⟩
        | finished => simp [GState.consumerStep] at hs
        | raised e => simp [GState.consumerStep] at hs
      rw [this.1, this.2]
      exact ⟨k, hw, hf⟩

/-- The item of picture `i` is as expected. -/
def GoodItem (G : Grabber) (conv : List U8 → List U8 × List U8) (fs0 : FS) (i : Nat) (item : Item) : Prop :=
  (Kept G fs0 i → ItemFrom G fs0 i item) ∧
    (¬Kept G fs0 i → ∃ im, G.images[i]? = some im ∧ item = itemOf G.mode (conv im))

theorem oneByOne_items {G : Grabber} {conv : List U8 → List U8 × List U8} (hc : Converts G conv)
    {fs0 : FS} (l : List (List U8)) (k : Nat) (fs : FS) (hk : k ≤ G.images.length) (hl : l = G.images.drop k)
    (hf : FilesAt G conv fs0 k fs) :
    (∀ j f, (oneByOne G k fs l).1[j]? = some f → ∃ item, GoodItem G conv fs0 (k + j) item ∧ item.toFrame = .ok f) ∧
    (G.readError = none →
      (∀ i item, k ≤ i → i < G.images.length → GoodItem G conv fs0 i item → ∃ f, item.toFrame = .ok f) →
      (oneByOne G k fs l).2 = .ends) := by
  induction l generalizing k fs with
  | nil =>
    simp only [oneByOne]
    cases G.readError <;> simp
  | cons im l ih =>
    obtain ⟨h4, h5, h6⟩ := drop_cons hl
    obtain ⟨fs', item, h7, h8, h9, h10⟩ := hf.decode hc h5
    have hgood : GoodItem G conv fs0 k item := ⟨h9, fun hn => ⟨im, h5, h10 hn⟩⟩
    have ih' := ih (k + 1) fs' h4 h6 h8
    simp only [oneByOne, h7]
    cases ht : item.toFrame with
    | error e =>
      refine ⟨by simp, fun _ hall => ?_⟩
      obtain ⟨f, hf'⟩ := hall k item (Nat.le_refl _) h4 hgood
      rw [ht] at hf'
      simp at hf'
    | ok f =>
      refine ⟨?_, fun hr hall => ih'.2 hr fun i it hi => hall i it (by omega)⟩
      intro j g hj
      cases j with
      | zero =>
        simp only [List.getElem?_cons_zero, Option.some.injEq] at hj
        subst hj
        exact ⟨item, hgood, ht⟩
      | succ j =>
        simp only [List.getElem?_cons_succ] at hj
        have := ih'.1 j g hj
        rwa [show k + 1 + j = k + (j + 1) by omega] at this

theorem itemOf_frame {mode : VideoMode} {r : List U8 × List U8} {f : Frame} (h : (itemOf mode r).toFrame = .ok f) :
    Pictured mode r f := by
  obtain ⟨h1, h2⟩ := toFrame_ok h
  unfold Pictured
  cases mode with
  | HGR =>
    rcases h2 with h2 | ⟨a, b, h2, _⟩
    · exact ⟨h2.2, h1⟩
    · simp [itemOf] at h2
  | DHGR =>
    rcases h2 with h2 | ⟨a, b, h2, h3, h4⟩
    · simp [itemOf] at h2
    · simp only [itemOf, Option.some.injEq] at h2
      subst h2
      exact ⟨b, h3, h1, h4⟩

theorem itemOf_good {mode : VideoMode} {r : List U8 × List U8} (h1 : r.1.length = 8192)
    (h2 : mode = .DHGR → r.2.length = 8192) : ∃ f, (itemOf mode r).toFrame = .ok f := by
  obtain ⟨m, hm⟩ := mapOfBytes_good h1
  cases mode with
  | HGR => exact ⟨⟨m, none⟩, by simp [itemOf, Item.toFrame, hm, bind, Except.bind, pure, Except.pure]⟩
  | DHGR =>
    obtain ⟨a, ha⟩ := mapOfBytes_good (h2 rfl)
    exact ⟨⟨m, some a⟩, by simp [itemOf, Item.toFrame, hm, ha, bind, Except.bind, pure, Except.pure]⟩

/-- An item that comes from files that a frame can be made of. -/
theorem fromFiles_item {G : Grabber} {fs : FS} {i : Nat} {f : Frame} {item : Item} (hf : FromFiles G fs i f)
    (h : ItemFrom G fs i item) : ∃ f', item.toFrame = .ok f' := by
  obtain ⟨m, a⟩ := item
  unfold FromFiles at hf
  unfold ItemFrom at h
  cases hm : G.mode with
  | HGR =>
    rw [hm] at hf h
    obtain ⟨_, d, h3, h4⟩ := hf
    obtain ⟨h5, h6⟩ := h
    simp only at h5 h6
    rw [h3] at h5
    injection h5 with h5
    subst h5 h6
    obtain ⟨mm, hm'⟩ := mapOfBytes_good h4.1
    exact ⟨⟨mm, none⟩, by simp [Item.toFrame, hm', bind, Except.bind, pure, Except.pure]⟩
  | DHGR =>
    rw [hm] at hf h
    obtain ⟨b, d, d', _, h3, h4, h5, h6⟩ := hf
    obtain ⟨h7, c, h8, h9⟩ := h
    simp only at h7 h8
    rw [h3] at h7
    rw [h5] at h9
    injection h7 with h7
    injection h9 with h9
    subst h7 h8 h9
    obtain ⟨mm, hm'⟩ := mapOfBytes_good h4.1
    obtain ⟨m2, hm2⟩ := mapOfBytes_good h6.1
    exact ⟨⟨mm, some m2⟩, by simp [Item.toFrame, hm', hm2, bind, Except.bind, pure, Except.pure]⟩

end IIVision
