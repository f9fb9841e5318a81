import Verif.Spec.Server

/-! C51: the server sends the file to every client. -/

namespace IIVision
open Spec

/-- What holds in every state of the server. -/
structure ServerInv (h : List (Option (List U8))) (s : Server) : Prop where
  file : s.file ∈ h
  status_pending : ∀ c, c ∈ s.pending ↔ s.status c = .waiting
  nodup : s.pending.Nodup
  served : ∀ c, s.status c = .served ↔ ∃ d, s.current = some (c, d)
  fresh : ∀ c, s.status c = .absent ∨ s.status c = .waiting → s.received c = []
  now : ∀ c d, s.current = some (c, d) → some (s.received c ++ d) ∈ h
  done : ∀ c, s.status c = .done → some (s.received c) ∈ h
  failed : ∀ c, s.status c = .failed → s.received c = [] ∨ ∃ d, some d ∈ h ∧ s.received c <+: d

theorem setAt_same {α : Type} (f : Nat → α) (c : Nat) (v : α) : setAt f c v c = v := if_pos rfl

theorem setAt_other {α : Type} (f : Nat → α) {c x : Nat} (v : α) (h : x ≠ c) : setAt f c v x = f x :=
  if_neg h

theorem ServerInv.mono {h h' : List (Option (List U8))} {s : Server} (hs : ∀ x ∈ h, x ∈ h')
    (i : ServerInv h s) : ServerInv h' s where
  file := hs _ i.file
  status_pending := i.status_pending
  nodup := i.nodup
  served := i.served
  fresh := i.fresh
  now := fun c d hc => hs _ (i.now c d hc)
  done := fun c hc => hs _ (i.done c hc)
  failed := fun c hc => (i.failed c hc).imp id (fun ⟨d, hd, hp⟩ => ⟨d, hs _ hd, hp⟩)

theorem ServerInv.step {h : List (Option (List U8))} {s t : Server} (i : ServerInv h s)
    (st : s.Step t) (hf : t.file ∈ h) : ServerInv h t := by
  cases st with
  | connect c hc =>
    refine ⟨i.file, ?_, ?_, ?_, ?_, ?_, ?_, ?_⟩
    · intro x
      by_cases hx : x = c
      · subst hx; simp [setAt_same]
      · simp [setAt_other _ _ hx, hx, i.status_pending]
    · rw [List.nodup_append]
      refine ⟨i.nodup, by simp, ?_⟩
      intro a ha b hb
      rw [List.mem_singleton] at hb
      subst hb
      intro e
      subst e
      rw [i.status_pending, hc] at ha
      cases ha
    · intro x
      by_cases hx : x = c
      · subst hx
        simp only [setAt_same]
        constructor
        · intro h; cases h
        · intro ⟨d, hd⟩
          have := (i.served x).2 ⟨d, hd⟩
          rw [hc] at this; cases this
      · simp only [setAt_other _ _ hx]; exact i.served x
    · intro x hx
      by_cases hxc : x = c
      · exact i.fresh x (.inl (by rw [hxc]; exact hc))
      · simp only [setAt_other _ _ hxc] at hx; exact i.fresh x hx
    · exact i.now
    · intro x hx
      by_cases hxc : x = c
      · subst hxc; simp only [setAt_same] at hx; cases hx
      · simp only [setAt_other _ _ hxc] at hx; exact i.done x hx
    · intro x hx
      by_cases hxc : x = c
      · subst hxc; simp only [setAt_same] at hx; cases hx
      · simp only [setAt_other _ _ hxc] at hx; exact i.failed x hx
  | edit f => exact ⟨hf, i.status_pending, i.nodup, i.served, i.fresh, i.now, i.done, i.failed⟩
  | accept c rest data hcur hpend hfile =>
    have hw : s.status c = .waiting := (i.status_pending c).1 (by rw [hpend]; exact .head _)
    have hnd := i.nodup
    rw [hpend, List.nodup_cons] at hnd
    have hnone : ∀ x, s.status x ≠ .served := fun x hx => by
      obtain ⟨d, hd⟩ := (i.served x).1 hx
      rw [hcur] at hd; cases hd
    refine ⟨i.file, ?_, hnd.2, ?_, ?_, ?_, ?_, ?_⟩
    · intro x
      by_cases hx : x = c
      · subst hx
        simp only [setAt_same]
        exact ⟨fun h => absurd h hnd.1, fun h => by cases h⟩
      · simp only [setAt_other _ _ hx, ← i.status_pending, hpend, List.mem_cons, hx, false_or]
    · intro x
      by_cases hx : x = c
      · subst hx; simp [setAt_same]
      · simp only [setAt_other _ _ hx, Option.some.injEq, Prod.mk.injEq]
        exact ⟨fun h => absurd h (hnone x), fun ⟨d, h, _⟩ => absurd h.symm hx⟩
    · intro x hx
      by_cases hxc : x = c
      · subst hxc; simp [setAt_same] at hx
      · simp only [setAt_other _ _ hxc] at hx; exact i.fresh x hx
    · intro x d hx
      simp only [Option.some.injEq, Prod.mk.injEq] at hx
      obtain ⟨rfl, rfl⟩ := hx
      simp only [i.fresh c (.inr hw), List.nil_append]
      rw [← hfile]
      exact i.file
    · intro x hx
      by_cases hxc : x = c
      · subst hxc; simp [setAt_same] at hx
      · simp only [setAt_other _ _ hxc] at hx; exact i.done x hx
    · intro x hx
      by_cases hxc : x = c
      · subst hxc; simp [setAt_same] at hx
      · simp only [setAt_other _ _ hxc] at hx; exact i.failed x hx
  | cannotOpen c rest hcur hpend hfile =>
    have hw : s.status c = .waiting := (i.status_pending c).1 (by rw [hpend]; exact .head _)
    have hnd := i.nodup
    rw [hpend, List.nodup_cons] at hnd
    refine ⟨i.file, ?_, hnd.2, ?_, ?_, i.now, ?_, ?_⟩
    · intro x
      by_cases hx : x = c
      · subst hx
        simp only [setAt_same]
        exact ⟨fun h => absurd h hnd.1, fun h => by cases h⟩
      · simp only [setAt_other _ _ hx, ← i.status_pending, hpend, List.mem_cons, hx, false_or]
    · intro x
      by_cases hx : x = c
      · subst hx; simp [setAt_same, hcur]
      · simp only [setAt_other _ _ hx]; exact i.served x
    · intro x hx
      by_cases hxc : x = c
      · subst hxc; simp [setAt_same] at hx
      · simp only [setAt_other _ _ hxc] at hx; exact i.fresh x hx
    · intro x hx
      by_cases hxc : x = c
      · subst hxc; simp [setAt_same] at hx
      · simp only [setAt_other _ _ hxc] at hx; exact i.done x hx
    · intro x hx
      by_cases hxc : x = c
      · subst hxc; exact .inl (i.fresh x (.inr hw))
      · simp only [setAt_other _ _ hxc] at hx; exact i.failed x hx
  | send c data k hcur hk hkl =>
    have hs : s.status c = .served := (i.served c).2 ⟨data, hcur⟩
    refine ⟨i.file, i.status_pending, i.nodup, ?_, ?_, ?_, ?_, ?_⟩
    · intro x
      by_cases hx : x = c
      · subst hx; simp [hs]
      · refine (i.served x).trans ?_
        simp only [hcur, Option.some.injEq, Prod.mk.injEq]
        exact ⟨fun ⟨d, h, _⟩ => absurd h.symm hx, fun ⟨d, h, _⟩ => absurd h.symm hx⟩
    · intro x hx
      have hxc : x ≠ c := by rintro rfl; rw [hs] at hx; simp at hx
      simp only [setAt_other _ _ hxc]; exact i.fresh x hx
    · intro x d hx
      simp only [Option.some.injEq, Prod.mk.injEq] at hx
      obtain ⟨rfl, rfl⟩ := hx
      simp only [setAt_same, List.append_assoc, List.take_append_drop]
      exact i.now c data hcur
    · intro x hx
      have hxc : x ≠ c := by rintro rfl; rw [hs] at hx; simp at hx
      simp only [setAt_other _ _ hxc]; exact i.done x hx
    · intro x hx
      have hxc : x ≠ c := by rintro rfl; rw [hs] at hx; simp at hx
      simp only [setAt_other _ _ hxc]; exact i.failed x hx
  | finish c hcur =>
    have hs : s.status c = .served := (i.served c).2 ⟨[], hcur⟩
    have hn := i.now c [] hcur
    rw [List.append_nil] at hn
    have hone : ∀ x, x ≠ c → s.status x ≠ .served := fun x hx hh => by
      obtain ⟨d, hd⟩ := (i.served x).1 hh
      rw [hcur] at hd
      simp only [Option.some.injEq, Prod.mk.injEq] at hd
      exact hx hd.1.symm
    refine ⟨i.file, ?_, i.nodup, ?_, ?_, fun x d hx => by simp at hx, ?_, ?_⟩
    · intro x
      by_cases hx : x = c
      · subst hx; simp [setAt_same, i.status_pending, hs]
      · simp only [setAt_other _ _ hx]; exact i.status_pending x
    · intro x
      by_cases hx : x = c
      · subst hx; simp [setAt_same]
      · simp only [setAt_other _ _ hx]
        exact ⟨fun h => absurd h (hone x hx), fun ⟨d, h⟩ => by cases h⟩
    · intro x hx
      by_cases hxc : x = c
      · subst hxc; simp [setAt_same] at hx
      · simp only [setAt_other _ _ hxc] at hx; exact i.fresh x hx
    · intro x hx
      by_cases hxc : x = c
      · subst hxc; exact hn
      · simp only [setAt_other _ _ hxc] at hx; exact i.done x hx
    · intro x hx
      by_cases hxc : x = c
      · subst hxc; simp [setAt_same] at hx
      · simp only [setAt_other _ _ hxc] at hx; exact i.failed x hx
  | broken c data hcur hne =>
    have hs : s.status c = .served := (i.served c).2 ⟨data, hcur⟩
    have hn := i.now c data hcur
    have hone : ∀ x, x ≠ c → s.status x ≠ .served := fun x hx hh => by
      obtain ⟨d, hd⟩ := (i.served x).1 hh
      rw [hcur] at hd
      simp only [Option.some.injEq, Prod.mk.injEq] at hd
      exact hx hd.1.symm
    refine ⟨i.file, ?_, i.nodup, ?_, ?_, fun x d hx => by simp at hx, ?_, ?_⟩
    · intro x
      by_cases hx : x = c
      · subst hx; simp [setAt_same, i.status_pending, hs]
      · simp only [setAt_other _ _ hx]; exact i.status_pending x
    · intro x
      by_cases hx : x = c
      · subst hx; simp [setAt_same]
      · simp only [setAt_other _ _ hx]
        exact ⟨fun h => absurd h (hone x hx), fun ⟨d, h⟩ => by cases h⟩
    · intro x hx
      by_cases hxc : x = c
      · subst hxc; simp [setAt_same] at hx
      · simp only [setAt_other _ _ hxc] at hx; exact i.fresh x hx
    · intro x hx
      by_cases hxc : x = c
      · subst hxc; simp [setAt_same] at hx
      · simp only [setAt_other _ _ hxc] at hx; exact i.done x hx
    · intro x hx
      by_cases hxc : x = c
      · subst hxc; exact .inr ⟨_, hn, List.prefix_append _ _⟩
      · simp only [setAt_other _ _ hxc] at hx; exact i.failed x hx

theorem serverInv_run {h : List (Option (List U8))} {s : Server} (r : ServerRun h s) :
    ServerInv h s := by
  induction r with
  | start file =>
    refine ⟨.head _, ?_, List.nodup_nil, ?_, fun _ _ => rfl, ?_, ?_, ?_⟩ <;> simp [Server.new]
  | step _ st hf ih => exact ih.step st (by rw [hf]; exact ih.file)
  | edit _ st _ ih =>
    exact (ih.mono (h' := _ ++ [_]) (fun x hx => List.mem_append_left _ hx)).step st
      (List.mem_append_right _ (.head _))

/-- **C51.** In every execution, with any number of clients connecting at any time, any sizes of the
single `send` calls, any connections breaking, and the file being replaced at any time: what a
client has received is at every moment the beginning of one version of the file; if its handler
has returned, it is a complete version.  A client whose turn has not come has received nothing. -/
theorem C51_verbatim {h : List (Option (List U8))} {s : Server} (r : ServerRun h s) (c : Nat) :
    (s.received c = [] ∨ ∃ d, some d ∈ h ∧ s.received c <+: d) ∧
    (s.status c = .done → some (s.received c) ∈ h) ∧
    (s.status c = .absent ∨ s.status c = .waiting → s.received c = []) := by
  have i := serverInv_run r
  refine ⟨?_, i.done c, i.fresh c⟩
  cases hc : s.status c with
  | absent => exact .inl (i.fresh c (.inl hc))
  | waiting => exact .inl (i.fresh c (.inr hc))
  | served =>
    obtain ⟨d, hd⟩ := (i.served c).1 hc
    exact .inr ⟨_, i.now c d hd, List.prefix_append _ _⟩
  | done => exact .inr ⟨_, i.done c hc, List.prefix_refl _⟩
  | failed => exact i.failed c hc

/-- **C51**, the file staying as it is: every client that was served to the end has received exactly
the file, any other one a beginning of it. -/
theorem C51_unchanged {file : List U8} {s : Server} (r : ServerRun [some file] s) (c : Nat) :
    s.received c <+: file ∧ (s.status c = .done → s.received c = file) := by
  obtain ⟨h1, h2, _⟩ := C51_verbatim r c
  constructor
  · rcases h1 with h1 | ⟨d, hd, hp⟩
    · rw [h1]; exact List.nil_prefix
    · simp only [List.mem_singleton, Option.some.injEq] at hd
      subst hd; exact hp
  · intro hd
    have := h2 hd
    simpa using this

/-- **C51.** The server does not get stuck by itself: in every state in which somebody is being
served or waiting there is a step of the server that brings the work forward: a `send` that leaves
less to send, the end of the handler when nothing is left, the turn of the next client when nobody
is being served. -/
theorem C51_progress (s : Server) :
    (∀ c d, s.current = some (c, d) → ∃ t, s.Step t ∧
      ((d ≠ [] ∧ ∃ d', t.current = some (c, d') ∧ d'.length < d.length) ∨
       (d = [] ∧ t.status c = .done ∧ t.current = none))) ∧
    (∀ c rest, s.current = none → s.pending = c :: rest → ∃ t, s.Step t ∧ t.pending = rest ∧
      (t.status c = .served ∨ (s.file = none ∧ t.status c = .failed))) := by
  constructor
  · intro c d hc
    by_cases hd : d = []
    · subst hd
      exact ⟨_, .finish s c hc, .inr ⟨rfl, setAt_same _ _ _, rfl⟩⟩
    · refine ⟨_, .send s c d 1 hc (by decide) (List.length_pos_iff.2 hd), .inl ⟨hd, _, rfl, ?_⟩⟩
      rw [List.length_drop]
      have := List.length_pos_iff.2 hd
      omega
  · intro c rest hc hp
    cases hf : s.file with
    | none => exact ⟨_, .cannotOpen s c rest hc hp hf, rfl, .inr ⟨rfl, setAt_same _ _ _⟩⟩
    | some d => exact ⟨_, .accept s c rest d hc hp hf, rfl, .inl (setAt_same _ _ _)⟩

/-- **C51.** (Defect.)  One client at a time: bytes only ever go to the client being served, so
while it neither reads nor goes away nobody else receives anything; its connection stays the
current one until it has all, or breaks. -/
theorem C51_one_at_a_time {s t : Server} (st : s.Step t) :
    (∀ c, t.received c ≠ s.received c → ∃ d, s.current = some (c, d)) ∧
    (∀ c d, s.current = some (c, d) → t.status c ≠ .done → t.status c ≠ .failed →
      ∃ d', t.current = some (c, d')) := by
  cases st with
  | connect c hc => exact ⟨fun c h => absurd rfl h, fun c d h _ _ => ⟨d, h⟩⟩
  | edit f => exact ⟨fun c h => absurd rfl h, fun c d h _ _ => ⟨d, h⟩⟩
  | accept c rest data hcur hpend hfile =>
    exact ⟨fun c h => absurd rfl h, fun c d h _ _ => by rw [hcur] at h; cases h⟩
  | cannotOpen c rest hcur hpend hfile =>
    exact ⟨fun c h => absurd rfl h, fun c d h _ _ => by rw [hcur] at h; cases h⟩
  | send c data k hcur hk hkl =>
    refine ⟨fun x h => ?_, fun x d h _ _ => ?_⟩
    · by_cases hx : x = c
      · subst hx; exact ⟨_, hcur⟩
      · exact absurd (setAt_other _ _ hx) h
    · rw [hcur] at h
      simp only [Option.some.injEq, Prod.mk.injEq] at h
      obtain ⟨rfl, rfl⟩ := h
      exact ⟨_, rfl⟩
  | finish c hcur =>
    refine ⟨fun c h => absurd rfl h, fun x d h hd _ => ?_⟩
    rw [hcur] at h
    simp only [Option.some.injEq, Prod.mk.injEq] at h
    obtain ⟨rfl, rfl⟩ := h
    exact absurd (setAt_same _ _ _) hd
  | broken c data hcur hne =>
    refine ⟨fun c h => absurd rfl h, fun x d h _ hf => ?_⟩
    rw [hcur] at h
    simp only [Option.some.injEq, Prod.mk.injEq] at h
    obtain ⟨rfl, rfl⟩ := h
    exact absurd (setAt_same _ _ _) hf

/-- A run: two clients connect, the first gets its three bytes in two pieces, the second is
accepted. -/
example : ∃ s, ServerRun [some [1, 2, 3]] s ∧ s.status 7 = .done ∧ s.received 7 = [1, 2, 3] ∧
    s.status 8 = .served ∧ s.received 8 = [] := by
  have r0 := ServerRun.start (some [1, 2, 3])
  have r1 := r0.step (.connect _ 7 rfl) rfl
  have r2 := r1.step (.connect _ 8 rfl) rfl
  have r3 := r2.step (.accept _ 7 [8] [1, 2, 3] rfl rfl rfl) rfl
  have r4 := r3.step (.send _ 7 [1, 2, 3] 2 rfl (by decide) (by decide)) rfl
  have r5 := r4.step (.send _ 7 [3] 1 rfl (by decide) (by decide)) rfl
  have r6 := r5.step (.finish _ 7 rfl) rfl
  have r7 := r6.step (.accept _ 8 [] [1, 2, 3] rfl rfl rfl) rfl
  exact ⟨_, r7, rfl, rfl, rfl, rfl⟩

end IIVision
