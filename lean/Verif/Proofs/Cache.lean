import Verif.Proofs.Grabber
import Verif.Proofs.Names

/-! Lemmas about the converted files. -/

namespace IIVision
open Spec

/-- The item is what the files of picture `i` contain. -/
def ItemFrom (G : Grabber) (fs : FS) (i : Nat) (item : Item) : Prop :=
  match G.mode with
  | .HGR => fs (G.path i (txt "C.BIN")) = some item.main ∧ item.aux = none
  | .DHGR => fs (G.path i (txt ".BIN")) = some item.main ∧
      ∃ a, item.aux = some a ∧ fs (G.path i (txt ".AUX")) = some a

theorem FS.read_ok {fs : FS} {q : Text} {d : List U8} (h : fs.read q = .ok d) : fs q = some d := by
  unfold FS.read at h
  cases hq : fs q with
  | none => rw [hq] at h; simp at h
  | some d' => rw [hq] at h; injection h with h; rw [h]

theorem decode_ok {G : Grabber} {fs fs' : FS} {i : Nat} {im : List U8} {item : Item}
    (h : G.decode fs i im = .ok (fs', item)) :
    ItemFrom G fs' i item ∧ (fs' = fs ∨ ∃ args, G.convert fs i im args = .ok fs') := by
  have hgr : ∀ fs1 : FS, (do
      let main ← fs1.read (G.path i (txt "C.BIN"))
      return (fs1, (⟨main, none⟩ : Item))) = Except.ok (fs', item) →
      fs' = fs1 ∧ fs' (G.path i (txt "C.BIN")) = some item.main ∧ item.aux = none := by
    intro fs1 h
    cases hd : fs1.read (G.path i (txt "C.BIN")) with
    | error e => rw [hd] at h; simp [bind, Except.bind] at h
    | ok d =>
      rw [hd] at h
      simp only [bind, Except.bind, pure, Except.pure, Except.ok.injEq, Prod.mk.injEq] at h
      obtain ⟨h1, h2⟩ := h
      subst h1 h2
      exact ⟨rfl, FS.read_ok hd, rfl⟩
  have dhgr : ∀ fs1 : FS, (do
      let main ← fs1.read (G.path i (txt ".BIN"))
      let aux ← fs1.read (G.path i (txt ".AUX"))
      return (fs1, (⟨main, some aux⟩ : Item))) = Except.ok (fs', item) →
      fs' = fs1 ∧ fs' (G.path i (txt ".BIN")) = some item.main ∧
        ∃ a, item.aux = some a ∧ fs' (G.path i (txt ".AUX")) = some a := by
    intro fs1 h
    cases hd : fs1.read (G.path i (txt ".BIN")) with
    | error e => rw [hd] at h; simp [bind, Except.bind] at h
    | ok d =>
      cases ha : fs1.read (G.path i (txt ".AUX")) with
      | error e => rw [hd, ha] at h; simp [bind, Except.bind] at h
      | ok a =>
        rw [hd, ha] at h
        simp only [bind, Except.bind, pure, Except.pure, Except.ok.injEq, Prod.mk.injEq] at h
        obtain ⟨h1, h2⟩ := h
        subst h1 h2
        exact ⟨rfl, FS.read_ok hd, a, rfl, FS.read_ok ha⟩
  unfold Grabber.decode at h
  unfold ItemFrom
  cases hm : G.mode with
  | HGR =>
    rw [hm] at h
    simp only [reduceCtorEq, if_false, Grabber.hgrDecode] at h
    by_cases hh : fs.has (G.path i (txt "C.BIN")) = true
    · rw [if_pos hh] at h
      obtain ⟨h1, h2⟩ := hgr fs h
      exact ⟨h2, .inl h1⟩
    · rw [if_neg hh] at h
      cases hc : G.convert fs i im [txt "hgr", paletteArg G.palette, txt "D9"] with
      | error e => rw [hc] at h; simp [bind, Except.bind] at h
      | ok fs1 =>
        rw [hc] at h
        obtain ⟨h1, h2⟩ := hgr fs1 h
        exact ⟨h2, .inr ⟨_, h1 ▸ hc⟩⟩
  | DHGR =>
    rw [hm] at h
    simp only [if_true, Grabber.dhgrDecode] at h
    by_cases hh : (fs.has (G.path i (txt ".BIN")) && fs.has (G.path i (txt ".AUX"))) = true
    · rw [if_pos hh] at h
      obtain ⟨h1, h2⟩ := dhgr fs h
      exact ⟨h2, .inl h1⟩
    · rw [if_neg hh] at h
      cases hc : G.convert fs i im [txt "dhgr", paletteArg G.palette, txt "A", txt "D9"] with
      | error e => rw [hc] at h; simp [bind, Except.bind] at h
      | ok fs1 =>
        rw [hc] at h
        obtain ⟨h1, h2⟩ := dhgr fs1 h
        exact ⟨h2, .inr ⟨_, h1 ▸ hc⟩⟩

theorem decode_from {G : Grabber} {fs fs' : FS} {i : Nat} {im : List U8} {item : Item}
    (h : G.decode fs i im = .ok (fs', item)) : ItemFrom G fs' i item := (decode_ok h).1

theorem convert_local {G : Grabber} (hl : LocalTool G) {fs fs' : FS} {i : Nat} {im : List U8}
    {args : List Text} (h : G.convert fs i im args = .ok fs') :
    ∀ q, ¬OwnFile G i q → fs' q = fs q := by
  intro q hq
  have hb : q ≠ G.path i (txt ".bmp") := fun e => hq (.inr (.inr (.inr e)))
  simp only [Grabber.convert, bind, Except.bind] at h
  split at h
  · simp at h
  · rename_i fs1 h1
    have h2 := hl _ _ _ _ h1 q hq
    unfold FS.remove at h
    split at h
    · simp at h
    · injection h with h
      subst h
      simp only [if_neg hb, h2, FS.put]

theorem decode_local {G : Grabber} (hl : LocalTool G) {fs fs' : FS} {i : Nat} {im : List U8}
    {item : Item} (h : G.decode fs i im = .ok (fs', item)) :
    ∀ q, ¬OwnFile G i q → fs' q = fs q := by
  rcases (decode_ok h).2 with h | ⟨args, h⟩
  · subst h; exact fun _ _ => rfl
  · exact convert_local hl h

theorem ItemFrom.decode {G : Grabber} (hl : LocalTool G) {fs fs' : FS} {i j : Nat} {im : List U8}
    {item item' : Item} (h : G.decode fs i im = .ok (fs', item)) (hne : j ≠ i)
    (hf : ItemFrom G fs j item') : ItemFrom G fs' j item' := by
  have hq : ∀ q, OwnFile G j q → fs' q = fs q := fun q hq =>
    decode_local hl h q fun hq' => hne (ownFile_inj hq hq')
  unfold ItemFrom at hf ⊢
  cases hm : G.mode with
  | HGR =>
    rw [hm] at hf
    exact ⟨(hq _ (.inl rfl)).trans hf.1, hf.2⟩
  | DHGR =>
    rw [hm] at hf
    obtain ⟨h1, a, h2, h3⟩ := hf
    exact ⟨(hq _ (.inr (.inl rfl))).trans h1, a, h2, (hq _ (.inr (.inr (.inl rfl)))).trans h3⟩

/-- If the files are there they are used. -/
theorem ItemFrom.decoded {G : Grabber} {fs : FS} {i : Nat} {item : Item} (h : ItemFrom G fs i item)
    (im : List U8) : G.decode fs i im = .ok (fs, item) := by
  obtain ⟨m, a⟩ := item
  unfold ItemFrom at h
  unfold Grabber.decode
  cases hm : G.mode with
  | HGR =>
    rw [hm] at h
    obtain ⟨h1, h2⟩ := h
    simp only at h1 h2
    subst h2
    simp [Grabber.hgrDecode, FS.has, h1, FS.read, bind, Except.bind, pure, Except.pure]
  | DHGR =>
    rw [hm] at h
    obtain ⟨h1, b, h2, h3⟩ := h
    simp only at h1 h2
    subst h2
    simp [Grabber.dhgrDecode, FS.has, h1, h3, FS.read, bind, Except.bind, pure, Except.pure]

theorem mapOfBytes_ok {d : List U8} {m : MemoryMap} (h : mapOfBytes d = .ok m) : Shows m d := by
  unfold mapOfBytes FlatMemoryMap.new at h
  simp only [true_or, not_true, if_false] at h
  by_cases hd : d.length = 8192
  · simp only [dif_pos hd, bind, Except.bind, FlatMemoryMap.toMemoryMap, MemoryMap.new, true_or, not_true,
      if_false, Option.getD_some] at h
    injection h with h
    subst h
    refine ⟨hd, rfl, fun p o => ?_⟩
    simp only
    rw [List.getElem?_eq_getElem]
  · simp [dif_neg hd, bind, Except.bind] at h

theorem mapOfBytes_bad {d : List U8} (h : d.length ≠ 8192) : mapOfBytes d = .error .valueError := by
  simp [mapOfBytes, FlatMemoryMap.new, h, bind, Except.bind]

theorem mapOfBytes_good {d : List U8} (h : d.length = 8192) : ∃ m, mapOfBytes d = .ok m := by
  simp [mapOfBytes, FlatMemoryMap.new, h, bind, Except.bind, FlatMemoryMap.toMemoryMap, MemoryMap.new]

theorem toFrame_ok {item : Item} {f : Frame} (h : item.toFrame = .ok f) :
    Shows f.main item.main ∧
      ((item.aux = none ∧ f.aux = none) ∨ ∃ a b, item.aux = some a ∧ f.aux = some b ∧ Shows b a) := by
  obtain ⟨m, a⟩ := item
  simp only [Item.toFrame, bind, Except.bind, pure, Except.pure] at h
  cases hm : mapOfBytes m with
  | error e => rw [hm] at h; simp at h
  | ok mm =>
    rw [hm] at h
    cases a with
    | none =>
      injection h with h
      subst h
      exact ⟨mapOfBytes_ok hm, .inl ⟨rfl, rfl⟩⟩
    | some a =>
      simp only at h
      cases ha : mapOfBytes a with
      | error e => rw [ha] at h; simp at h
      | ok aa =>
        rw [ha] at h
        injection h with h
        subst h
        exact ⟨mapOfBytes_ok hm, .inr ⟨a, aa, rfl, rfl, mapOfBytes_ok ha⟩⟩

theorem ItemFrom.frame {G : Grabber} {fs : FS} {i : Nat} {item : Item} {f : Frame}
    (h : ItemFrom G fs i item) (hf : item.toFrame = .ok f) : FromFiles G fs i f := by
  obtain ⟨h1, h2⟩ := toFrame_ok hf
  unfold ItemFrom at h
  unfold FromFiles
  cases hm : G.mode with
  | HGR =>
    rw [hm] at h
    obtain ⟨h3, h4⟩ := h
    rcases h2 with ⟨_, h5⟩ | ⟨a, b, h5, _⟩
    · exact ⟨h5, _, h3, h1⟩
    · rw [h4] at h5; simp at h5
  | DHGR =>
    rw [hm] at h
    obtain ⟨h3, a, h4, h5⟩ := h
    rcases h2 with ⟨h6, _⟩ | ⟨a', b, h6, h7, h8⟩
    · rw [h4] at h6; simp at h6
    · rw [h4] at h6
      injection h6 with h6
      subst h6
      exact ⟨b, _, a, h7, h3, h1, h5, h8⟩

/-- The item in the worker's hands. -/
def Worker.held : Worker → List Item
  | .put item _ _ => [item]
  | _ => []

/-- The worker has made `k` items of a video of `N` pictures. -/
def Worker.Made (N : Nat) : Worker → Nat → Prop
  | .fetch idx rest, k => k = idx ∧ idx + rest.length = N
  | .put _ idx rest, k => k = idx + 1 ∧ idx + 1 + rest.length = N
  | .putEnd, k => k = N
  | .done, k => k = N
  | .dead _, k => k ≤ N

/-- The items made so far, where they come from and where they went. -/
structure Orig (G : Grabber) (fs0 : FS) (n : Nat) (s : GState) (items : List Item) : Prop where
  made : s.worker.Made G.images.length items.length
  origin : ∀ (j : Nat) (item : Item), items[j]? = some item →
    ∃ m t, m ≤ n ∧ G.Steps m (G.start fs0) t ∧ ItemFrom G t.fs j item
  still : LocalTool G → ∀ (j : Nat) (item : Item), items[j]? = some item → ItemFrom G s.fs j item
  out : ∀ (j : Nat) (f : Frame), s.out[j]? = some f → ∃ item, items[j]? = some item ∧ item.toFrame = .ok f
  active : s.consumer = .get ∨ s.consumer = .yielded →
    items.drop s.out.length = s.queue.filterMap id ++ s.worker.held ∧ s.out.length ≤ items.length

theorem orig_start (G : Grabber) (fs : FS) : Orig G fs 0 (G.start fs) [] := by
  refine ⟨?_, ?_, ?_, ?_, ?_⟩ <;> simp [Grabber.start, Worker.Made, Worker.held]

theorem Orig.worker {G : Grabber} {fs0 : FS} {n : Nat} {s t : GState} {items : List Item}
    (hst : G.Steps n (G.start fs0) s) (h : Orig G fs0 n s items) (hs : G.workerStep s = some t) :
    ∃ items', Orig G fs0 (n + 1) t items' := by
  have hstep := hs
  obtain ⟨fs, w, q, c, out⟩ := s
  obtain ⟨hmade, horig, hstill, hout, hact⟩ := h
  simp only at hmade horig hstill hout hact
  have hor : ∀ (j : Nat) (item : Item), items[j]? = some item →
      ∃ m t, m ≤ n + 1 ∧ G.Steps m (G.start fs0) t ∧ ItemFrom G t.fs j item := by
    intro j item hj
    obtain ⟨m, t, h1, h2, h3⟩ := horig j item hj
    exact ⟨m, t, by omega, h2, h3⟩
  cases w with
  | fetch idx rest =>
    cases rest with
    | nil =>
      simp only [Grabber.workerStep] at hs
      simp only [Worker.Made, List.length_nil] at hmade
      cases hr : G.readError with
      | none =>
        rw [hr] at hs; injection hs with hs; subst hs
        exact ⟨items, by simp only [Worker.Made]; omega, hor, hstill, hout,
          by simpa [Worker.held] using hact⟩
      | some e =>
        rw [hr] at hs; injection hs with hs; subst hs
        exact ⟨items, by simp only [Worker.Made]; omega, hor, hstill, hout,
          by simpa [Worker.held] using hact⟩
    | cons image rest =>
      simp only [Grabber.workerStep] at hs
      simp only [Worker.Made, List.length_cons] at hmade
      cases hd : G.decode fs idx image with
      | error e =>
        rw [hd] at hs; injection hs with hs; subst hs
        exact ⟨items, by simp only [Worker.Made]; omega, hor, hstill, hout,
          by simpa [Worker.held] using hact⟩
      | ok r =>
        obtain ⟨fs', item⟩ := r
        rw [hd] at hs; injection hs with hs; subst hs
        refine ⟨items ++ [item], ?_, ?_, ?_, ?_, ?_⟩
        · simp only [Worker.Made, List.length_append, List.length_singleton]; omega
        · intro j item' hj
          rw [List.getElem?_append] at hj
          split at hj
          · exact hor j item' hj
          · rename_i hlt
            have hj0 : j = idx := by
              by_cases hjj : j - items.length = 0
              · omega
              · rw [List.getElem?_eq_none (by simp; omega)] at hj; simp at hj
            subst hj0
            rw [show j - items.length = 0 by omega] at hj
            simp at hj
            subst hj
            exact ⟨n + 1, _, Nat.le_refl _, .succ hst (.worker hstep), decode_from hd⟩
        · intro hl j item' hj
          rw [List.getElem?_append] at hj
          split at hj
          · rename_i hlt
            exact (hstill hl j item' hj).decode hl hd (by omega)
          · rename_i hlt
            have hj0 : j = idx := by
              by_cases hjj : j - items.length = 0
              · omega
              · rw [List.getElem?_eq_none (by simp; omega)] at hj; simp at hj
            subst hj0
            rw [show j - items.length = 0 by omega] at hj
            simp at hj
            subst hj
            exact decode_from hd
        · intro j f hj
          obtain ⟨item', h1, h2⟩ := hout j f hj
          refine ⟨item', ?_, h2⟩
          have hlt : j < items.length := by
            by_cases hh : j < items.length
            · exact hh
            · rw [List.getElem?_eq_none (by omega)] at h1; simp at h1
          rw [List.getElem?_append_left hlt]; exact h1
        · intro hc
          obtain ⟨h1, h2⟩ := hact hc
          simp only [Worker.held, List.append_nil] at h1 ⊢
          refine ⟨?_, by simp only [List.length_append]; omega⟩
          rw [List.drop_append_of_le_length h2, h1]
  | put item idx rest =>
    simp only [Grabber.workerStep] at hs
    simp only [Worker.Made] at hmade
    split at hs
    · injection hs with hs; subst hs
      refine ⟨items, by simp only [Worker.Made]; omega, hor, hstill, hout, ?_⟩
      intro hc
      obtain ⟨h1, h2⟩ := hact hc
      exact ⟨by simpa [Worker.held] using h1, h2⟩
    · simp at hs
  | putEnd =>
    simp only [Grabber.workerStep] at hs
    simp only [Worker.Made] at hmade
    split at hs
    · injection hs with hs; subst hs
      refine ⟨items, by simp only [Worker.Made]; omega, hor, hstill, hout, ?_⟩
      intro hc
      obtain ⟨h1, h2⟩ := hact hc
      exact ⟨by simpa [Worker.held] using h1, h2⟩
    · simp at hs
  | done => simp [Grabber.workerStep] at hs
  | dead e => simp [Grabber.workerStep] at hs

theorem Orig.consumerStep {G : Grabber} {fs0 : FS} {n : Nat} {s t : GState} {items : List Item}
    (h : Orig G fs0 n s items) (hs : s.consumerStep = some t) : Orig G fs0 (n + 1) t items := by
  obtain ⟨fs, w, q, c, out⟩ := s
  obtain ⟨hmade, horig, hstill, hout, hact⟩ := h
  simp only at hmade horig hstill hout hact
  have hor : ∀ (j : Nat) (item : Item), items[j]? = some item →
      ∃ m t, m ≤ n + 1 ∧ G.Steps m (G.start fs0) t ∧ ItemFrom G t.fs j item := by
    intro j item hj
    obtain ⟨m, t, h1, h2, h3⟩ := horig j item hj
    exact ⟨m, t, by omega, h2, h3⟩
  cases c with
  | get =>
    cases q with
    | nil => simp [GState.consumerStep] at hs
    | cons x q =>
      cases x with
      | none =>
        simp only [GState.consumerStep] at hs
        injection hs with hs; subst hs
        exact ⟨hmade, hor, hstill, hout, by simp⟩
      | some item =>
        simp only [GState.consumerStep] at hs
        obtain ⟨h1, h2⟩ := hact (.inl rfl)
        simp only [List.filterMap_cons, id, List.cons_append] at h1
        have hget : items[out.length]? = some item := by
          have : (items.drop out.length)[0]? = some item := by rw [h1]; rfl
          simpa using this
        cases hf : item.toFrame with
        | ok f =>
          rw [hf] at hs; injection hs with hs; subst hs
          refine ⟨hmade, hor, hstill, ?_, ?_⟩
          · intro j g hj
            simp only [List.getElem?_append] at hj
            split at hj
            · exact hout j g hj
            · by_cases hjj : j - out.length = 0
              · rw [hjj] at hj
                simp at hj
                subst hj
                have : j = out.length := by omega
                subst this
                exact ⟨item, hget, hf⟩
              · rw [List.getElem?_eq_none (by simp; omega)] at hj; simp at hj
          · intro _
            have hlt : out.length < items.length := by
              by_cases hh : out.length < items.length
              · exact hh
              · rw [List.getElem?_eq_none (by omega)] at hget; simp at hget
            simp only [List.length_append, List.length_singleton]
            refine ⟨?_, hlt⟩
            rw [← List.drop_drop, h1]
            rfl
        | error e =>
          rw [hf] at hs; injection hs with hs; subst hs
          exact ⟨hmade, hor, hstill, hout, by simp⟩
  | yielded =>
    simp only [GState.consumerStep] at hs
    injection hs with hs; subst hs
    exact ⟨hmade, hor, hstill, hout, fun _ => hact (.inr rfl)⟩
  | join =>
    simp only [GState.consumerStep] at hs
    cases w <;> simp at hs <;> subst hs <;> exact ⟨hmade, hor, hstill, hout, by simp⟩
  | finished => simp [GState.consumerStep] at hs
  | raised e => simp [GState.consumerStep] at hs

theorem orig_steps {G : Grabber} {fs0 : FS} {n : Nat} {s : GState}
    (h : G.Steps n (G.start fs0) s) : ∃ items, Orig G fs0 n s items := by
  generalize hs0 : G.start fs0 = s0 at h
  induction h with
  | zero => subst hs0; exact ⟨[], orig_start G fs0⟩
  | succ hst hstep ih =>
    subst hs0
    obtain ⟨items, ho⟩ := ih rfl
    cases hstep with
    | worker hw => exact ho.worker hst hw
    | consumer hc => exact ⟨items, ho.consumerStep hc⟩

end IIVision

namespace IIVision
open Spec

theorem ItemFrom.unique {G : Grabber} {fs : FS} {i : Nat} {item item' : Item}
    (h : ItemFrom G fs i item) (h' : ItemFrom G fs i item') : item = item' := by
  obtain ⟨m, a⟩ := item
  obtain ⟨m', a'⟩ := item'
  unfold ItemFrom at h h'
  cases hm : G.mode with
  | HGR =>
    rw [hm] at h h'
    obtain ⟨h1, h2⟩ := h
    obtain ⟨h3, h4⟩ := h'
    simp only at h1 h2 h3 h4
    subst h2 h4
    rw [h1] at h3
    injection h3 with h3
    rw [h3]
  | DHGR =>
    rw [hm] at h h'
    obtain ⟨h1, b, h2, h3⟩ := h
    obtain ⟨h4, b', h5, h6⟩ := h'
    simp only at h1 h2 h4 h5
    subst h2 h5
    rw [h1] at h4
    injection h4 with h4
    rw [h3] at h6
    injection h6 with h6
    rw [h4, h6]

/-- Only conversions change files. -/
theorem step_fs {G : Grabber} {s t : GState} (h : G.Step s t) :
    t.fs = s.fs ∨ ∃ idx im rest item, s.worker = .fetch idx (im :: rest) ∧
      G.decode s.fs idx im = .ok (t.fs, item) := by
  obtain ⟨fs, w, q, c, out⟩ := s
  cases h with
  | worker hs =>
    cases w with
    | fetch idx rest =>
      cases rest with
      | nil =>
        simp only [Grabber.workerStep] at hs
        split at hs <;> · injection hs with hs; subst hs; exact .inl rfl
      | cons image rest =>
        simp only [Grabber.workerStep] at hs
        cases hd : G.decode fs idx image with
        | error e => rw [hd] at hs; injection hs with hs; subst hs; exact .inl rfl
        | ok r =>
          obtain ⟨fs', it⟩ := r
          rw [hd] at hs; injection hs with hs; subst hs
          exact .inr ⟨idx, image, rest, it, rfl, hd⟩
    | put it idx rest =>
      simp only [Grabber.workerStep] at hs
      split at hs
      · injection hs with hs; subst hs; exact .inl rfl
      · simp at hs
    | putEnd =>
      simp only [Grabber.workerStep] at hs
      split at hs
      · injection hs with hs; subst hs; exact .inl rfl
      · simp at hs
    | done => simp [Grabber.workerStep] at hs
    | dead e => simp [Grabber.workerStep] at hs
  | consumer hs =>
    refine .inl ?_
    cases c with
    | get =>
      cases q with
      | nil => simp [GState.consumerStep] at hs
      | cons x q =>
        cases x with
        | none => simp only [GState.consumerStep] at hs; injection hs with hs; subst hs; rfl
        | some it =>
          simp only [GState.consumerStep] at hs
          split at hs <;> · injection hs with hs; subst hs; rfl
    | yielded => simp only [GState.consumerStep] at hs; injection hs with hs; subst hs; rfl
    | join =>
      simp only [GState.consumerStep] at hs
      cases w <;> simp at hs <;> subst hs <;> rfl
    | finished => simp [GState.consumerStep] at hs
    | raised e => simp [GState.consumerStep] at hs

/-- Files that are there stay. -/
theorem ItemFrom.stays {G : Grabber} (hl : LocalTool G) {fs0 : FS} {i : Nat} {item : Item}
    (h0 : ItemFrom G fs0 i item) {n : Nat} {s : GState} (h : G.Steps n (G.start fs0) s) :
    ItemFrom G s.fs i item := by
  generalize hs0 : G.start fs0 = s0 at h
  induction h with
  | zero => subst hs0; exact h0
  | succ _ hst ih =>
    have ih := ih hs0
    rcases step_fs hst with h | ⟨idx, im, rest, it, _, hd⟩
    · rw [h]; exact ih
    · by_cases hi : i = idx
      · subst hi
        rw [ih.decoded im] at hd
        injection hd with hd
        injection hd with h1 _
        rw [← h1]; exact ih
      · exact ih.decode hl hd hi

/-- Whatever is in a file that is there is what is yielded. -/
theorem cached_used {G : Grabber} (hl : LocalTool G) {fs0 : FS} {i : Nat} {item : Item}
    (h0 : ItemFrom G fs0 i item) {n : Nat} {s : GState} (h : G.Steps n (G.start fs0) s) {f : Frame}
    (hf : s.out[i]? = some f) : item.toFrame = .ok f := by
  obtain ⟨items, ho⟩ := orig_steps h
  obtain ⟨it, h1, h2⟩ := ho.out i f hf
  have := (ho.still hl i it h1).unique (h0.stays hl h)
  rw [← this]; exact h2

theorem oneByOne_length {G : Grabber} {idx : Nat} {fs : FS} {l : List (List U8)}
    (h : (oneByOne G idx fs l).2 = .ends) : (oneByOne G idx fs l).1.length = l.length := by
  induction l generalizing idx fs with
  | nil => simp only [oneByOne]; split <;> rfl
  | cons im l ih =>
    simp only [oneByOne] at h ⊢
    split at h
    · simp at h
    · rename_i fs' item hd
      split at h
      · simp at h
      · rename_i f hf
        simp only [List.length_cons, ih h]

theorem oneByOne_cached {G : Grabber} (hr : G.readError = none) {fs : FS} {items : List Item}
    {frames : List Frame} (hlen : frames.length = items.length)
    (h : ∀ (j : Nat) (item : Item), items[j]? = some item → ItemFrom G fs j item)
    (hf : ∀ (j : Nat) (f : Frame), frames[j]? = some f → ∃ item, items[j]? = some item ∧ item.toFrame = .ok f)
    (l : List (List U8)) (idx : Nat) (hl : idx + l.length ≤ items.length) :
    oneByOne G idx fs l = ((frames.drop idx).take l.length, .ends) := by
  induction l generalizing idx with
  | nil => simp [oneByOne, hr]
  | cons im l ih =>
    simp only [List.length_cons] at hl
    have hlt : idx < frames.length := by omega
    obtain ⟨item, h1, h2⟩ := hf idx frames[idx] (List.getElem?_eq_getElem hlt)
    simp only [oneByOne, (h idx item h1).decoded im, h2, ih (idx + 1) (by omega)]
    rw [List.drop_eq_getElem_cons hlt]
    rfl

theorem files_kept {G : Grabber} {fs : FS}
    (h : ∀ j, j < G.images.length → ∃ item, ItemFrom G fs j item)
    {n : Nat} {s : GState} (hs : G.Steps n (G.start fs) s) : s.fs = fs := by
  generalize hs0 : G.start fs = s0 at hs
  induction hs with
  | zero => subst hs0; rfl
  | succ hst0 hst ih =>
    subst hs0
    have ih := ih rfl
    obtain ⟨items, ho⟩ := orig_steps hst0
    rcases step_fs hst with h1 | ⟨idx, im, rest, it, hw, hd⟩
    · rw [h1]; exact ih
    · have hmade := ho.made
      rw [hw] at hmade
      simp only [Worker.Made, List.length_cons] at hmade
      obtain ⟨item, hitem⟩ := h idx (by omega)
      rw [ih, hitem.decoded im] at hd
      injection hd with hd
      injection hd with h1 _
      exact h1.symm

/-- There is an execution that runs to the end, whatever has happened. -/
theorem exists_stopped (G : Grabber) (s : GState) : ∃ n t, G.Steps n s t ∧ Stopped G t := by
  suffices H : ∀ k n s0 s, G.Steps n s0 s → s.weight ≤ k → ∃ n t, G.Steps n s0 t ∧ Stopped G t from
    H s.weight 0 s s (.zero s) (Nat.le_refl _)
  intro k
  induction k with
  | zero =>
    intro n s0 s hs hw
    refine ⟨n, s, hs, ?_⟩
    rintro ⟨t, ht⟩
    have := step_weight ht
    omega
  | succ k ih =>
    intro n s0 s hs hw
    by_cases hst : ∃ t, G.Step s t
    · obtain ⟨t, ht⟩ := hst
      have := step_weight ht
      exact ih (n + 1) s0 t (.succ hs ht) (by omega)
    · exact ⟨n, s, hs, hst⟩

end IIVision
