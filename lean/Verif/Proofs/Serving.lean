import Verif.Spec.Serving

/-! Invariants of the server of `Model/Serving.lean`. -/

namespace IIVision
open Spec

theorem at_same {α : Type} (f : Nat → α) (c : Nat) (v : α) : setAt f c v c = v := if_pos rfl

theorem at_other {α : Type} (f : Nat → α) {c x : Nat} (v : α) (h : x ≠ c) : setAt f c v x = f x := if_neg h

/-- What is true in every state the server gets to. -/
structure LiveOk (s : Live) : Prop where
  pending : ∀ c ∈ s.pending, s.status c = .waiting
  nodup : s.pending.Nodup
  current : ∀ c h, s.current = some (c, h) → s.status c = .served
  served : ∀ c, s.status c = .served → ∃ h, s.current = some (c, h)
  fresh : ∀ c, Unserved s c → s.received c = []
  reading : ∀ c i got, s.current = some (c, .reading i got) → s.received c = []

theorem liveOk_new (contents : Nat → List U8) (name : Option Nat) : LiveOk (Live.new contents name) :=
  ⟨nofun, List.nodup_nil, nofun, nofun, fun _ _ => rfl, nofun⟩

/-- The handler of client `c` ends. -/
theorem liveOk_end {s : Live} (h : LiveOk s) {c : Nat} {x : Handling} (hc : s.current = some (c, x)) {st : ConnStatus}
    (h1 : st ≠ .served) (h2 : st ≠ .absent) (h3 : st ≠ .waiting) : LiveOk { s with current := none, status := setAt s.status c st } := by
  have hs := h.current c x hc
  refine ⟨fun y hy => ?_, h.nodup, nofun, fun y hy => ?_, fun y hy => ?_, nofun⟩
  · have := h.pending y hy
    have hne : y ≠ c := fun e => by rw [e, hs] at this; cases this
    exact (at_other _ _ hne).trans this
  · by_cases hne : y = c
    · subst hne; exact absurd ((at_same _ _ _).symm.trans hy) h1
    · obtain ⟨z, hz⟩ := h.served y ((at_other _ _ hne).symm.trans hy)
      rw [hc] at hz
      exact absurd (congrArg Prod.fst (Option.some.inj hz)).symm hne
  · by_cases hne : y = c
    · subst hne
      exact (hy.elim (fun e => h2 ((at_same _ _ _).symm.trans e)) fun e => h3 ((at_same _ _ _).symm.trans e)).elim
    · refine h.fresh y ?_
      exact hy.imp (fun e => (at_other _ _ hne).symm.trans e) fun e => (at_other _ _ hne).symm.trans e

theorem liveOk_step {s t : Live} (h : LiveOk s) (st : s.Step t) : LiveOk t := by
  cases st with
  | connect c hc =>
    have hnp : c ∉ s.pending := fun hm => by have := h.pending c hm; rw [hc] at this; cases this
    refine ⟨fun y hy => ?_, ?_, fun y z hy => ?_, fun y hy => ?_, fun y hy => ?_, fun y i got hy => h.reading y i got hy⟩
    · by_cases hne : y = c
      · subst hne; exact at_same _ _ _
      · rcases List.mem_append.1 hy with hm | hm
        · exact (at_other _ _ hne).trans (h.pending y hm)
        · exact absurd (List.mem_singleton.1 hm) hne
    · exact List.nodup_append.2 ⟨h.nodup, by simp, fun a ha b hb e => hnp (by rw [← List.mem_singleton.1 hb, ← e]; exact ha)⟩
    · have hs := h.current y z hy
      exact (at_other _ _ (fun e => by rw [e, hc] at hs; cases hs)).trans hs
    · by_cases hne : y = c
      · subst hne; exact absurd ((at_same _ _ _).symm.trans hy) nofun
      · exact h.served y ((at_other _ _ hne).symm.trans hy)
    · by_cases hne : y = c
      · subst hne; exact h.fresh y (.inl hc)
      · refine h.fresh y ?_
        exact hy.imp (fun e => (at_other _ _ hne).symm.trans e) fun e => (at_other _ _ hne).symm.trans e
  | write i d => exact ⟨h.pending, h.nodup, h.current, h.served, h.fresh, h.reading⟩
  | link n => exact ⟨h.pending, h.nodup, h.current, h.served, h.fresh, h.reading⟩
  | accept c rest i hcur hp hn =>
    have hnd := hp ▸ h.nodup
    have hwait := h.pending c (by rw [hp]; exact .head _)
    refine ⟨fun y hy => ?_, hnd.of_cons, fun y z hy => ?_, fun y hy => ?_, fun y hy => ?_, fun y j got hy => ?_⟩
    · have hne : y ≠ c := fun e => (List.nodup_cons.1 hnd).1 (e ▸ hy)
      exact (at_other _ _ hne).trans (h.pending y (by rw [hp]; exact .tail _ hy))
    · cases hy; exact at_same _ _ _
    · by_cases hne : y = c
      · subst hne; exact ⟨_, rfl⟩
      · obtain ⟨z, hz⟩ := h.served y ((at_other _ _ hne).symm.trans hy)
        rw [hcur] at hz; cases hz
    · by_cases hne : y = c
      · subst hne; exact h.fresh y (.inr hwait)
      · refine h.fresh y ?_
        exact hy.imp (fun e => (at_other _ _ hne).symm.trans e) fun e => (at_other _ _ hne).symm.trans e
    · cases hy; exact h.fresh c (.inr hwait)
  | cannotOpen c rest hcur hp hn =>
    have hnd := hp ▸ h.nodup
    refine ⟨fun y hy => ?_, hnd.of_cons, fun y z hy => ?_, fun y hy => ?_, fun y hy => ?_, fun y j got hy => ?_⟩
    · have hne : y ≠ c := fun e => (List.nodup_cons.1 hnd).1 (e ▸ hy)
      exact (at_other _ _ hne).trans (h.pending y (by rw [hp]; exact .tail _ hy))
    · exact absurd (hcur.symm.trans hy) nofun
    · by_cases hne : y = c
      · subst hne; exact absurd ((at_same _ _ _).symm.trans hy) nofun
      · exact h.served y ((at_other _ _ hne).symm.trans hy)
    · by_cases hne : y = c
      · subst hne
        exact (hy.elim (fun e => absurd ((at_same _ _ _).symm.trans e) nofun) fun e => absurd ((at_same _ _ _).symm.trans e) nofun)
      · refine h.fresh y ?_
        exact hy.imp (fun e => (at_other _ _ hne).symm.trans e) fun e => (at_other _ _ hne).symm.trans e
    · exact absurd (hcur.symm.trans hy) nofun
  | read c i got k hcur hk hle =>
    have hs := h.current _ _ hcur
    refine ⟨h.pending, h.nodup, fun y z hy => by cases hy; exact hs, fun y hy => ?_, h.fresh, fun y j g hy => by cases hy; exact h.reading _ _ _ hcur⟩
    obtain ⟨z, hz⟩ := h.served y hy
    rw [hcur] at hz; cases hz; exact ⟨_, rfl⟩
  | eof c i got hcur hle =>
    have hs := h.current _ _ hcur
    refine ⟨h.pending, h.nodup, fun y z hy => by cases hy; exact hs, fun y hy => ?_, h.fresh, fun y j g hy => by cases hy⟩
    obtain ⟨z, hz⟩ := h.served y hy
    rw [hcur] at hz; cases hz; exact ⟨_, rfl⟩
  | unreadable c i got hcur => exact liveOk_end h hcur nofun nofun nofun
  | send c data k hcur hk hle =>
    have hs := h.current _ _ hcur
    refine ⟨h.pending, h.nodup, fun y z hy => by cases hy; exact hs, fun y hy => ?_, fun y hy => ?_, fun y j g hy => by cases hy⟩
    · obtain ⟨z, hz⟩ := h.served y hy
      rw [hcur] at hz; cases hz; exact ⟨_, rfl⟩
    · have hne : y ≠ c := fun e => by
        subst e
        exact hy.elim (fun e => absurd (hs.symm.trans e) nofun) fun e => absurd (hs.symm.trans e) nofun
      exact (at_other _ _ hne).trans (h.fresh y hy)
  | finish c hcur => exact liveOk_end h hcur nofun nofun nofun
  | broken c data hcur hne => exact liveOk_end h hcur nofun nofun nofun

theorem liveOk_run {R : Live → Live → Prop} {s t : Live} (h : LiveOk s) (r : LiveRun R s t) : LiveOk t := by
  induction r with
  | refl => exact h
  | step _ st _ ih => exact liveOk_step ih st

theorem liveOk_listening {s : Live} (h : Listening s) : LiveOk s := by
  obtain ⟨contents, name, r⟩ := h
  exact liveOk_run (liveOk_new _ _) r

/-- What client `c` has been sent, for a condition `Q` on what has been read of a file and a condition `F` on what has been read in all. -/
structure ClientOk (Q : Nat → List U8 → Prop) (F : List U8 → Prop) (c : Nat) (s : Live) : Prop where
  reading : ∀ i got, s.current = some (c, .reading i got) → Q i got
  sending : ∀ rest, s.current = some (c, .sending rest) → F (s.received c ++ rest)
  done : s.status c = .done → F (s.received c)
  failed : s.status c = .failed → s.received c = [] ∨ ∃ d, F d ∧ s.received c <+: d

theorem clientOk_unserved {Q : Nat → List U8 → Prop} {F : List U8 → Prop} {c : Nat} {s : Live} (h : LiveOk s) (hc : Unserved s c) : ClientOk Q F c s := by
  have : ∀ st, s.status c = st → st = .absent ∨ st = .waiting := fun st hst => hst ▸ hc
  exact ⟨fun i got hcur => (this _ (h.current _ _ hcur)).elim nofun nofun, fun i hcur => (this _ (h.current _ _ hcur)).elim nofun nofun,
    fun hd => (this _ hd).elim nofun nofun, fun hd => (this _ hd).elim nofun nofun⟩

theorem clientOk_step {Q Q' : Nat → List U8 → Prop} {F F' : List U8 → Prop} {c : Nat} {s t : Live} (hw : LiveOk s) (h : ClientOk Q F c s) (st : s.Step t)
    (hQ : ∀ i got, Q i got → Q' i got) (hF : ∀ d, F d → F' d) (hacc : ∀ i, s.name = some i → Q' i [])
    (hread : ∀ i got k, Q i got → 0 < k → got.length + k ≤ (s.contents i).length → Q' i (got ++ ((s.contents i).drop got.length).take k))
    (heof : ∀ i got, Q i got → (s.contents i).length ≤ got.length → F' got) : ClientOk Q' F' c t := by
  have hfail : s.status c = .failed → s.received c = [] ∨ ∃ d, F' d ∧ s.received c <+: d := fun e =>
    (h.failed e).imp id fun ⟨d, h1, h2⟩ => ⟨d, hF d h1, h2⟩
  have keep : ∀ {x : Nat} {st st' : ConnStatus}, x ≠ c → setAt s.status x st' c = st → s.status c = st := fun hne e => (at_other _ _ (Ne.symm hne)).symm.trans e
  cases st with
  | connect x hx =>
    refine ⟨fun i got e => hQ _ _ (h.reading i got e), fun rest e => hF _ (h.sending rest e), fun e => ?_, fun e => ?_⟩ <;> by_cases hne : x = c
    · subst hne; exact absurd ((at_same _ _ _).symm.trans e) nofun
    · exact hF _ (h.done (keep hne e))
    · subst hne; exact absurd ((at_same _ _ _).symm.trans e) nofun
    · exact hfail (keep hne e)
  | write i d => exact ⟨fun i got e => hQ _ _ (h.reading i got e), fun rest e => hF _ (h.sending rest e), fun e => hF _ (h.done e), hfail⟩
  | link n => exact ⟨fun i got e => hQ _ _ (h.reading i got e), fun rest e => hF _ (h.sending rest e), fun e => hF _ (h.done e), hfail⟩
  | accept x rest i hcur hp hn =>
    refine ⟨fun j got e => by cases e; exact hacc _ hn, nofun, fun e => ?_, fun e => ?_⟩ <;> by_cases hne : x = c
    · subst hne; exact absurd ((at_same _ _ _).symm.trans e) nofun
    · exact hF _ (h.done (keep hne e))
    · subst hne; exact absurd ((at_same _ _ _).symm.trans e) nofun
    · exact hfail (keep hne e)
  | cannotOpen x rest hcur hp hn =>
    refine ⟨fun j got e => hQ _ _ (h.reading j got e), fun r e => hF _ (h.sending r e), fun e => ?_, fun e => ?_⟩ <;> by_cases hne : x = c
    · subst hne; exact absurd ((at_same _ _ _).symm.trans e) nofun
    · exact hF _ (h.done (keep hne e))
    · subst hne; exact .inl (hw.fresh _ (.inr (hw.pending _ (by rw [hp]; exact .head _))))
    · exact hfail (keep hne e)
  | read x i got k hcur hk hle =>
    exact ⟨fun j g e => by cases e; exact hread _ _ _ (h.reading _ _ hcur) hk hle, nofun, fun e => hF _ (h.done e), hfail⟩
  | eof x i got hcur hle =>
    refine ⟨nofun, fun r e => ?_, fun e => hF _ (h.done e), hfail⟩
    cases e
    show F' (s.received _ ++ _)
    rw [hw.reading _ _ _ hcur, List.nil_append]
    exact heof _ _ (h.reading _ _ hcur) hle
  | unreadable x i got hcur =>
    refine ⟨nofun, nofun, fun e => ?_, fun e => ?_⟩ <;> by_cases hne : x = c
    · subst hne; exact absurd ((at_same _ _ _).symm.trans e) nofun
    · exact hF _ (h.done (keep hne e))
    · subst hne; exact .inl (hw.reading _ _ _ hcur)
    · exact hfail (keep hne e)
  | send x data k hcur hk hle =>
    have hs := hw.current _ _ hcur
    refine ⟨nofun, fun r e => ?_, fun e => ?_, fun e => ?_⟩
    · cases e
      show F' (setAt s.received _ _ _ ++ _)
      rw [at_same, List.append_assoc, List.take_append_drop]
      exact hF _ (h.sending _ hcur)
    · have hne : c ≠ x := fun e' => by subst e'; exact absurd (hs.symm.trans e) nofun
      show F' (setAt s.received _ _ _)
      rw [at_other _ _ hne]
      exact hF _ (h.done e)
    · have hne : c ≠ x := fun e' => by subst e'; exact absurd (hs.symm.trans e) nofun
      show setAt s.received _ _ _ = [] ∨ ∃ d, F' d ∧ setAt s.received _ _ _ <+: d
      rw [at_other _ _ hne]
      exact hfail e
  | finish x hcur =>
    refine ⟨nofun, nofun, fun e => ?_, fun e => ?_⟩ <;> by_cases hne : x = c
    · subst hne
      have := h.sending _ hcur
      rw [List.append_nil] at this
      exact hF _ this
    · exact hF _ (h.done (keep hne e))
    · subst hne; exact absurd ((at_same _ _ _).symm.trans e) nofun
    · exact hfail (keep hne e)
  | broken x data hcur hd =>
    refine ⟨nofun, nofun, fun e => ?_, fun e => ?_⟩ <;> by_cases hne : x = c
    · subst hne; exact absurd ((at_same _ _ _).symm.trans e) nofun
    · exact hF _ (h.done (keep hne e))
    · subst hne; exact .inr ⟨_, hF _ (h.sending _ hcur), List.prefix_append _ _⟩
    · exact hfail (keep hne e)

/-- In all cases: nothing, or a beginning of what has been read. -/
theorem clientOk_received {Q : Nat → List U8 → Prop} {F : List U8 → Prop} {c : Nat} {s : Live} (hw : LiveOk s) (h : ClientOk Q F c s) :
    s.received c = [] ∨ ∃ d, F d ∧ s.received c <+: d := by
  cases hc : s.status c with
  | absent => exact .inl (hw.fresh c (.inl hc))
  | waiting => exact .inl (hw.fresh c (.inr hc))
  | done => exact .inr ⟨_, h.done hc, List.prefix_refl _⟩
  | failed => exact h.failed hc
  | served =>
    obtain ⟨x, hx⟩ := hw.served c hc
    cases x with
    | reading i got => exact .inl (hw.reading c i got hx)
    | sending rest => exact .inr ⟨_, h.sending rest hx, List.prefix_append _ _⟩

/-- One more part of a file that has `got` at its beginning. -/
theorem prefix_read {got d : List U8} (h : got <+: d) (k : Nat) : got ++ (d.drop got.length).take k <+: d := by
  obtain ⟨r, rfl⟩ := h
  rw [List.drop_left]
  exact (List.prefix_append_right_inj _).2 (List.take_prefix _ _)

end IIVision
