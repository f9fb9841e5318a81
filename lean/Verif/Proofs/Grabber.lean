import Verif.Spec.Grabber

/-! Lemmas about the frame grabber. -/

namespace IIVision
open Spec

/-- What is still to come from the worker. -/
def Grabber.toCome (G : Grabber) (fs : FS) : Worker → List Frame × Outcome
  | .fetch idx rest => oneByOne G idx fs rest
  | .put item idx rest =>
    match item.toFrame with
    | .error e => ([], .raises e)
    | .ok f => (f :: (oneByOne G (idx + 1) fs rest).1, (oneByOne G (idx + 1) fs rest).2)
  | .putEnd => ([], .ends)
  | .done => ([], .ends)
  | .dead e => ([], .hangs e)

/-- What is still to come through the queue, followed by `r`. -/
def queued : List (Option Item) → List Frame × Outcome → List Frame × Outcome
  | [], r => r
  | none :: _, _ => ([], .ends)
  | some item :: q, r =>
    match item.toFrame with
    | .error e => ([], .raises e)
    | .ok f => (f :: (queued q r).1, (queued q r).2)

theorem queued_append (q q' : List (Option Item)) (r : List Frame × Outcome) :
    queued (q ++ q') r = queued q (queued q' r) := by
  induction q with
  | nil => rfl
  | cons x q ih =>
    cases x with
    | none => rfl
    | some i => simp only [List.cons_append, queued, ih]

/-- The invariant that relates the threads to `oneByOne`. -/
structure GInv (G : Grabber) (fs0 : FS) (s : GState) : Prop where
  len : s.queue.length ≤ queueMax
  sentinel : none ∈ s.queue → s.worker = .done
  isDone : s.worker = .done → s.consumer = .get ∨ s.consumer = .yielded → none ∈ s.queue
  active : s.consumer = .get ∨ s.consumer = .yielded →
    (s.out ++ (queued s.queue (G.toCome s.fs s.worker)).1,
      (queued s.queue (G.toCome s.fs s.worker)).2) = wholeVideo G fs0
  over : s.consumer = .join ∨ s.consumer = .finished →
    (s.out, Outcome.ends) = wholeVideo G fs0 ∧ s.worker = .done
  raised : ∀ e, s.consumer = .raised e → (s.out, Outcome.raises e) = wholeVideo G fs0

theorem gInv_start (G : Grabber) (fs : FS) : GInv G fs (G.start fs) := by
  refine ⟨by simp [Grabber.start], by simp [Grabber.start], by simp [Grabber.start], ?_,
    by simp [Grabber.start], by simp [Grabber.start]⟩
  intro _
  simp [Grabber.start, queued, Grabber.toCome, wholeVideo]

theorem GInv.worker {G : Grabber} {fs0 : FS} {s t : GState} (h : GInv G fs0 s)
    (hs : G.workerStep s = some t) : GInv G fs0 t := by
  obtain ⟨fs, w, q, c, out⟩ := s
  obtain ⟨hlen, hsen, hdone, hact, hover, hraised⟩ := h
  simp only at hlen hsen hdone hact hover hraised
  -- the worker is not done, so no sentinel is queued and the consumer is active or has raised
  have hq : none ∉ q := by
    intro hn
    have := hsen hn
    subst this
    simp [Grabber.workerStep] at hs
  have hc : ¬(c = .join ∨ c = .finished) := by
    intro hj
    have := (hover hj).2
    subst this
    simp [Grabber.workerStep] at hs
  -- in each case: `toCome` is unchanged after moving items into the queue
  have key : ∀ (fs' : FS) (w' : Worker) (q' : List (Option Item)),
      t = ⟨fs', w', q', c, out⟩ → q'.length ≤ queueMax → (none ∈ q' → w' = .done) →
      (w' = .done → none ∈ q') →
      queued q' (G.toCome fs' w') = queued q (G.toCome fs w) → GInv G fs0 t := by
    rintro fs' w' q' rfl h1 h2 h3 h4
    refine ⟨h1, h2, fun hw _ => h3 hw, ?_, fun hj => absurd hj hc, hraised⟩
    intro hcc
    simpa only [h4] using hact hcc
  cases w with
  | fetch idx rest =>
    cases rest with
    | nil =>
      simp only [Grabber.workerStep] at hs
      cases hr : G.readError with
      | none =>
        rw [hr] at hs
        injection hs with hs
        exact key _ _ _ hs.symm hlen (fun hn => absurd hn hq) (by simp)
          (by simp [Grabber.toCome, oneByOne, hr])
      | some e =>
        rw [hr] at hs
        injection hs with hs
        exact key _ _ _ hs.symm hlen (fun hn => absurd hn hq) (by simp)
          (by simp [Grabber.toCome, oneByOne, hr])
    | cons image rest =>
      simp only [Grabber.workerStep] at hs
      cases hd : G.decode fs idx image with
      | error e =>
        rw [hd] at hs
        injection hs with hs
        exact key _ _ _ hs.symm hlen (fun hn => absurd hn hq) (by simp)
          (by simp [Grabber.toCome, oneByOne, hd])
      | ok r =>
        obtain ⟨fs', item⟩ := r
        rw [hd] at hs
        injection hs with hs
        exact key _ _ _ hs.symm hlen (fun hn => absurd hn hq) (by simp)
          (by simp only [Grabber.toCome, oneByOne, hd]; cases item.toFrame <;> rfl)
  | put item idx rest =>
    simp only [Grabber.workerStep] at hs
    split at hs
    · injection hs with hs
      exact key _ _ _ hs.symm (by simp only [List.length_append, List.length_singleton]; omega)
        (fun hn => absurd hn (by simpa using hq)) (by simp)
        (by rw [queued_append]; rfl)
    · simp at hs
  | putEnd =>
    simp only [Grabber.workerStep] at hs
    split at hs
    · injection hs with hs
      exact key _ _ _ hs.symm (by simp only [List.length_append, List.length_singleton]; omega)
        (fun _ => rfl) (fun _ => by simp)
        (by rw [queued_append]; rfl)
    · simp at hs
  | done => simp [Grabber.workerStep] at hs
  | dead e => simp [Grabber.workerStep] at hs

theorem GInv.consumerStep {G : Grabber} {fs0 : FS} {s t : GState} (h : GInv G fs0 s)
    (hs : s.consumerStep = some t) : GInv G fs0 t := by
  obtain ⟨fs, w, q, c, out⟩ := s
  obtain ⟨hlen, hsen, hdone, hact, hover, hraised⟩ := h
  simp only at hlen hsen hdone hact hover hraised
  cases c with
  | get =>
    cases q with
    | nil => simp [GState.consumerStep] at hs
    | cons x q =>
      cases x with
      | none =>
        simp only [GState.consumerStep] at hs
        injection hs with hs
        subst hs
        have hw := hsen (by simp)
        have ha := hact (.inl rfl)
        simp only [queued] at ha
        refine ⟨by simp only [List.length_cons] at hlen ⊢; omega, fun _ => hw, by simp, by simp, ?_, by simp⟩
        intro _
        exact ⟨by simpa using ha, hw⟩
      | some item =>
        simp only [GState.consumerStep] at hs
        have ha := hact (.inl rfl)
        simp only [queued] at ha
        cases hf : item.toFrame with
        | ok f =>
          rw [hf] at hs ha
          injection hs with hs
          subst hs
          refine ⟨by simp only [List.length_cons] at hlen ⊢; omega, fun hn => hsen (by simp [hn]), ?_, ?_, by simp, by simp⟩
          · intro hw _
            have := hdone hw (.inl rfl)
            simpa using this
          · intro _
            simpa using ha
        | error e =>
          rw [hf] at hs ha
          injection hs with hs
          subst hs
          refine ⟨by simp only [List.length_cons] at hlen ⊢; omega, fun hn => hsen (by simp [hn]), by simp, by simp, by simp, ?_⟩
          intro e' he
          simp only [Consumer.raised.injEq] at he
          subst he
          simpa using ha
  | yielded =>
    simp only [GState.consumerStep] at hs
    injection hs with hs
    subst hs
    exact ⟨hlen, hsen, fun hw _ => hdone hw (.inr rfl), fun _ => hact (.inr rfl), by simp, by simp⟩
  | join =>
    have ho := hover (.inl rfl)
    have hw := ho.2
    subst hw
    simp only [GState.consumerStep] at hs
    injection hs with hs
    subst hs
    exact ⟨hlen, hsen, by simp, by simp, fun _ => ho, by simp⟩
  | finished => simp [GState.consumerStep] at hs
  | raised e => simp [GState.consumerStep] at hs

theorem gInv_steps {G : Grabber} {fs0 : FS} {n : Nat} {s : GState}
    (h : G.Steps n (G.start fs0) s) : GInv G fs0 s := by
  generalize hs0 : G.start fs0 = s0 at h
  induction h with
  | zero => subst hs0; exact gInv_start G fs0
  | succ _ hst ih =>
    cases hst with
    | worker hw => exact (ih hs0).worker hw
    | consumer hc => exact (ih hs0).consumerStep hc

/-- Steps the worker can still cause. -/
def Worker.weight : Worker → Nat
  | .fetch _ rest => 4 * rest.length + 4
  | .put _ _ rest => 4 * rest.length + 7
  | .putEnd => 3
  | .done => 0
  | .dead _ => 0

/-- Steps the consumer can still do without the queue. -/
def Consumer.weight : Consumer → Nat
  | .yielded => 1
  | .join => 1
  | _ => 0

/-- Decreases with every step. -/
def GState.weight (s : GState) : Nat := s.worker.weight + 2 * s.queue.length + s.consumer.weight

theorem step_weight {G : Grabber} {s t : GState} (h : G.Step s t) : t.weight < s.weight := by
  obtain ⟨fs, w, q, c, out⟩ := s
  cases h with
  | worker hs =>
    cases w with
    | fetch idx rest =>
      cases rest with
      | nil =>
        simp only [Grabber.workerStep] at hs
        split at hs <;> · injection hs with hs; subst hs; simp [GState.weight, Worker.weight]
      | cons image rest =>
        simp only [Grabber.workerStep] at hs
        split at hs <;>
        · injection hs with hs; subst hs
          simp [GState.weight, Worker.weight]
          try omega
    | put item idx rest =>
      simp only [Grabber.workerStep] at hs
      split at hs
      · injection hs with hs; subst hs
        simp only [GState.weight, Worker.weight, List.length_append, List.length_singleton]; omega
      · simp at hs
    | putEnd =>
      simp only [Grabber.workerStep] at hs
      split at hs
      · injection hs with hs; subst hs
        simp only [GState.weight, Worker.weight, List.length_append, List.length_singleton]; omega
      · simp at hs
    | done => simp [Grabber.workerStep] at hs
    | dead e => simp [Grabber.workerStep] at hs
  | consumer hs =>
    cases c with
    | get =>
      cases q with
      | nil => simp [GState.consumerStep] at hs
      | cons x q =>
        cases x with
        | none =>
          simp only [GState.consumerStep] at hs
          injection hs with hs; subst hs
          simp only [GState.weight, Consumer.weight, List.length_cons]; omega
        | some item =>
          simp only [GState.consumerStep] at hs
          split at hs <;>
          · injection hs with hs; subst hs
            simp only [GState.weight, Consumer.weight, List.length_cons]; omega
    | yielded =>
      simp only [GState.consumerStep] at hs
      injection hs with hs; subst hs
      simp [GState.weight, Consumer.weight]
    | join =>
      simp only [GState.consumerStep] at hs
      cases w <;> simp at hs <;> subst hs <;> simp [GState.weight, Consumer.weight]
    | finished => simp [GState.consumerStep] at hs
    | raised e => simp [GState.consumerStep] at hs

theorem steps_weight {G : Grabber} {n : Nat} {s t : GState} (h : G.Steps n s t) :
    n + t.weight ≤ s.weight := by
  induction h with
  | zero => omega
  | succ _ hst ih => have := step_weight hst; omega

/-- What it means that nothing can run any more. -/
theorem stopped_cases {G : Grabber} {fs0 : FS} {s : GState} (hi : GInv G fs0 s) (h : Stopped G s) :
    s.consumer = .finished ∨ (∃ e, s.consumer = .raised e) ∨
      (s.consumer = .get ∧ s.queue = [] ∧ ∃ e, s.worker = .dead e) := by
  obtain ⟨fs, w, q, c, out⟩ := s
  have hc : GState.consumerStep ⟨fs, w, q, c, out⟩ = none := by
    cases hx : GState.consumerStep ⟨fs, w, q, c, out⟩ with
    | none => rfl
    | some t => exact absurd ⟨t, .consumer hx⟩ h
  have hw : G.workerStep ⟨fs, w, q, c, out⟩ = none := by
    cases hx : G.workerStep ⟨fs, w, q, c, out⟩ with
    | none => rfl
    | some t => exact absurd ⟨t, .worker hx⟩ h
  cases c with
  | finished => exact .inl rfl
  | raised e => exact .inr (.inl ⟨e, rfl⟩)
  | yielded => simp [GState.consumerStep] at hc
  | join =>
    have := (hi.over (.inl rfl)).2
    simp only at this
    subst this
    simp [GState.consumerStep] at hc
  | get =>
    refine .inr (.inr ⟨rfl, ?_⟩)
    cases q with
    | cons x q =>
      simp only [GState.consumerStep] at hc
      cases x with
      | none => simp at hc
      | some item => cases hf : item.toFrame <;> simp [hf] at hc
    | nil =>
      refine ⟨rfl, ?_⟩
      cases w with
      | dead e => exact ⟨e, rfl⟩
      | done => exact absurd (hi.isDone rfl (.inl rfl)) (by simp)
      | putEnd => simp [Grabber.workerStep] at hw
      | put item idx rest => simp [Grabber.workerStep] at hw
      | fetch idx rest =>
        cases rest with
        | nil => simp only [Grabber.workerStep] at hw; split at hw <;> simp at hw
        | cons image rest => simp only [Grabber.workerStep] at hw; split at hw <;> simp at hw

end IIVision
