import Verif.Proofs.Buffered
import Verif.Props.Entire
import Verif.Proofs.Cache
import Verif.Proofs.Stream

/-! How far the conversion of the pictures can be ahead. -/

namespace IIVision

open IIVision.Spec

theorem bind_both {ε α β : Type} {P : Prop} {x : Except ε α} {f : α → Except ε β} {y : β} (h : x >>= f = .ok y) (k : ∀ a, x = .ok a ∧ f a = .ok y → P) : P := by
  cases x with
  | error e => cases h
  | ok a => exact k a ⟨rfl, h⟩

/-- What `next()` makes of the encoder, when it yields something. -/
theorem nextT_yields {M : Movie} {load : Except PyErr EditTable} {aux : Bool} {c c' : Coder} {op : Opcode}
    (h : Coder.nextT M load aux c = .ok (some (op, c'))) :
    c'.phase ≠ .new ∧ c'.frameNumber = c.frameNumber + (if c.needsFrame M then 1 else 0) ∧ c'.ticks = c.ticks + (if c.phase = .new then 0 else 1) ∧ (op.emit M.addr).length = 7 := by
  have hfn := (nextT_progress h).2
  by_cases hp : c.phase = .new
  · obtain ⟨ph, audio, frames, ticks, fn, v, rng, gen, target, lb⟩ := c
    simp only at hp
    subst hp
    unfold Coder.nextT at h
    simp only at h
    cases h
    exact ⟨by simp, hfn, by simp, frameOp_length M.addr (op := .header M.mode) trivial⟩
  · rw [if_neg hp]
    cases ha : c.audio with
    | nil => rw [nextT_nil hp ha] at h; cases h
    | cons au rest =>
      rw [nextT_cons hp ha, iterT_eq] at h
      have e1 : (c.entered aux rest).phase ≠ .new := by
        unfold Coder.entered
        split
        · intro h; cases h
        · exact hp
      have rest4 : ∀ c1 : Coder, Coder.restT load aux au c1 = .ok (some (op, c')) → SameInput c1 c' ∧ (op.emit M.addr).length = 7 := by
        intro c1 h1
        refine ⟨restT_same h1, ?_⟩
        unfold Coder.restT at h1
        refine bind_both h1 fun c2 h1 => ?_
        refine bind_both h1.2 fun r h2 => ?_
        obtain ⟨h2, h3⟩ := h2
        have hr : r = (op, c') := Option.some.inj (Except.ok.inj h3)
        subst hr
        unfold Coder.tickOpT at h2
        split at h2
        · cases h2
        · refine bind_both h2 fun x h2 => ?_
          refine bind_both h2.2 fun tp h2 => ?_
          refine bind_both h2.2 fun o h2 => ?_
          have : o = op := congrArg Prod.fst (Except.ok.inj h2.2)
          subst this
          have h4 := h2.1
          unfold Opcode.newTick at h4
          split at h4
          · cases h4
          · rename_i hl
            cases h4
            exact frameOp_length M.addr (op := .tick _ _ _ _) (by simpa [FrameOp] using hl)
      refine bind_both h fun r h => ?_
      obtain ⟨h1, h2⟩ := h
      have hsame : ∀ c1, r = some c1 → c1.phase = (c.entered aux rest).phase ∧ c1.ticks = c.ticks + 1 := by
        rintro c1 rfl
        unfold Coder.fetch at h1
        split at h1
        · split at h1
          · cases h1
          · refine bind_both h1 fun c2 h1 => ?_
            obtain ⟨h1, h3⟩ := h1
            cases h3
            obtain ⟨a1, a2, a3, a4⟩ := newFrame_same h1
            exact ⟨a1, a3.trans (congrArg (· + 1) (entered_ticks aux c rest))⟩
        · cases h1; exact ⟨rfl, congrArg (· + 1) (entered_ticks aux c rest)⟩
      cases r with
      | none => cases h2
      | some c1 =>
        obtain ⟨⟨b1, b2, b3, b4⟩, h7⟩ := rest4 c1 h2
        obtain ⟨s1, s2⟩ := hsame c1 rfl
        exact ⟨by rw [b1, s1]; exact e1, hfn, by rw [b3, s2], h7⟩

theorem next_yields {P : Setup} {aux : Bool} {c c' : Coder} {op : Opcode} (h : P.next aux c = .ok (some (op, c'))) :
    c'.phase ≠ .new ∧ c'.frameNumber = c.frameNumber + (if c.needsFrame P.movie then 1 else 0) ∧ c'.ticks = c.ticks + (if c.phase = .new then 0 else 1) ∧ (op.emit P.movie.addr).length = 7 := by
  unfold Setup.next at h
  split at h
  · split at h
    · cases h
    · exact nextT_yields h
  · exact nextT_yields h

/-- Pictures taken from the queue. -/
def GState.got (g : GState) : Nat :=
  g.out.length + match g.consumer with
    | .raised _ => 1
    | _ => 0

/-- The bytes in the output file. -/
def Session.fileLength (name : Text) (s : Session) : Nat := ((s.prog.disk name).getD []).length

/-- The state of the two threads: `L` is a number of bytes in the output file and its buffer. -/
structure AheadP (P : Setup) (fs : FS) (L : Nat) (s : Prog) : Prop where
  run : s.main = .running → s.g.consumer = (if s.started then .yielded else .get) ∧ s.g.out.length = s.coder.frameNumber ∧
    7 * (s.coder.ticks + if s.coder.phase = .new then 0 else 1) ≤ s.out.length
  ask : s.main = .asking → s.started = true ∧ (s.g.consumer = .get ∨ s.g.consumer = .join) ∧ s.g.out.length = s.coder.frameNumber ∧ s.coder.phase ≠ .new ∧
    7 * (s.coder.ticks + 1) ≤ s.out.length ∧ s.coder.needsFrame P.movie = true ∧ 7 * P.movie.thr s.coder.frameNumber ≤ L
  taken : ∀ j, j < s.g.got → 7 * P.movie.thr j ≤ L
  queue : s.g.queue.length ≤ 10
  fetch : ∀ i rest, s.g.worker = .fetch i rest → i ≤ s.g.got + s.g.queue.length
  put : ∀ item i rest, s.g.worker = .put item i rest → i ≤ s.g.got + s.g.queue.length
  ended : none ∈ s.g.queue → s.g.worker = .done
  files : ∀ k q, OwnFile P.grabber k q → s.g.got + 11 ≤ k → s.disk q = fs q

theorem AheadP.more {P : Setup} {fs : FS} {L L' : Nat} {s : Prog} (h : AheadP P fs L s) (hL : L ≤ L') : AheadP P fs L' s :=
  { h with
    ask := fun hm => by obtain ⟨a0, a, b, c, d, e, f⟩ := h.ask hm; exact ⟨a0, a, b, c, d, e, f.trans hL⟩
    taken := fun j hj => (h.taken j hj).trans hL }

/-- Another content of the output file. -/
theorem AheadP.saved {P : Setup} {fs : FS} {L : Nat} {s : Prog} (hn : ∀ i, ¬ OwnFile P.grabber i P.name) (h : AheadP P fs L s) (d : List U8) :
    AheadP P fs L (s.onDisk (s.disk.put P.name d)) :=
  { run := h.run, ask := h.ask, taken := h.taken, queue := h.queue, fetch := h.fetch, put := h.put, ended := h.ended,
    files := fun k q hq hk => (put_other _ (show q ≠ P.name from fun e => hn k (e ▸ hq)) d).trans (h.files k q hq hk) }

theorem AheadP.worker {P : Setup} {fs : FS} {L : Nat} {s t : Prog} (hl : LocalTool P.grabber) (h : AheadP P fs L s) (hs : s.workerStep P.grabber = some t) :
    AheadP P fs L t ∧ ∀ q, (∀ i, ¬ OwnFile P.grabber i q) → t.disk q = s.disk q := by
  unfold Prog.workerStep at hs
  split at hs
  swap
  · cases hs
  cases hg : P.grabber.workerStep s.g with
  | none => rw [hg] at hs; cases hs
  | some g =>
    rw [hg] at hs
    have ht : t = { s with g } := (Option.some.inj hs).symm
    subst ht
    clear hs
    obtain ⟨g0, st, mn, cd, ps, ax, ou⟩ := s
    obtain ⟨f0, w0, q0, c0, o0⟩ := g0
    unfold Grabber.workerStep at hg
    simp only at hg
    split at hg
    · split at hg
      · cases hg
        exact ⟨{ run := h.run, ask := h.ask, taken := h.taken, queue := h.queue, fetch := (fun _ _ e => nomatch e), put := (fun _ _ _ e => nomatch e),
                 ended := fun hm => absurd (h.ended hm) (by simp), files := h.files }, fun _ _ => rfl⟩
      · cases hg
        exact ⟨{ run := h.run, ask := h.ask, taken := h.taken, queue := h.queue, fetch := (fun _ _ e => nomatch e), put := (fun _ _ _ e => nomatch e),
                 ended := fun hm => absurd (h.ended hm) (by simp), files := h.files }, fun _ _ => rfl⟩
    · rename_i i im rest hw
      split at hg
      · rename_i fs' item hd
        cases hg
        have hi := h.fetch i _ rfl
        have hq := h.queue
        refine ⟨{ run := h.run, ask := h.ask, taken := h.taken, queue := h.queue, fetch := (fun _ _ e => nomatch e), put := ?_, ended := fun hm => absurd (h.ended hm) (by simp), files := ?_ }, ?_⟩
        · intro item' i' rest' e; cases e; exact hi
        · intro k q hk hle
          refine (decode_local hl hd q fun hq' => ?_).trans (h.files k q hk hle)
          have := ownFile_inj hk hq'
          simp only [GState.got] at hi hle hq
          omega
        · intro q hq'; exact decode_local hl hd q (hq' i)
      · cases hg
        exact ⟨{ run := h.run, ask := h.ask, taken := h.taken, queue := h.queue, fetch := (fun _ _ e => nomatch e), put := (fun _ _ _ e => nomatch e),
                 ended := fun hm => absurd (h.ended hm) (by simp), files := h.files }, fun _ _ => rfl⟩
    · rename_i item i rest hw
      split at hg
      · rename_i hlt
        cases hg
        have hi := h.put item i rest rfl
        refine ⟨{ run := h.run, ask := h.ask, taken := h.taken, queue := ?_, fetch := ?_, put := (fun _ _ _ e => nomatch e), ended := fun hm => ?_, files := h.files }, fun _ _ => rfl⟩
        · simp only [List.length_append, List.length_singleton]; simp only [queueMax] at hlt; omega
        · intro i' rest' e; cases e
          simp only [GState.got, List.length_append, List.length_singleton] at hi ⊢; omega
        · have : none ∈ q0 := by simpa using hm
          exact absurd (h.ended this) (by simp)
      · cases hg
    · split at hg
      · rename_i hlt
        cases hg
        refine ⟨{ run := h.run, ask := h.ask, taken := h.taken, queue := ?_, fetch := (fun _ _ e => nomatch e), put := (fun _ _ _ e => nomatch e), ended := fun _ => rfl, files := h.files }, fun _ _ => rfl⟩
        simp only [List.length_append, List.length_singleton]; simp only [queueMax] at hlt; omega
      · cases hg
    · cases hg
    · cases hg

theorem AheadP.resume {P : Setup} {fs : FS} {L : Nat} {s : Prog} {frames : List Frame} (hg : s.g.consumer = (if s.started then .yielded else .get))
    (hf : s.g.out.length = s.coder.frameNumber + (if s.coder.needsFrame P.movie then 1 else 0))
    (ho : 7 * (s.coder.ticks + if s.coder.phase = .new then 0 else 1) ≤ s.out.length) (taken : ∀ j, j < s.g.got → 7 * P.movie.thr j ≤ L)
    (queue : s.g.queue.length ≤ 10) (fetch : ∀ i rest, s.g.worker = .fetch i rest → i ≤ s.g.got + s.g.queue.length)
    (put : ∀ item i rest, s.g.worker = .put item i rest → i ≤ s.g.got + s.g.queue.length) (ended : none ∈ s.g.queue → s.g.worker = .done)
    (files : ∀ k q, OwnFile P.grabber k q → s.g.got + 11 ≤ k → s.disk q = fs q) : AheadP P fs L (s.resumeW P.movie P.next frames) := by
  unfold Prog.resumeW
  split
  · exact ⟨(fun e => nomatch e), (fun e => nomatch e), taken, queue, fetch, put, ended, files⟩
  · exact ⟨(fun e => nomatch e), (fun e => nomatch e), taken, queue, fetch, put, ended, files⟩
  · rename_i op c hx
    split
    · exact ⟨(fun e => nomatch e), (fun e => nomatch e), taken, queue, fetch, put, ended, files⟩
    · dsimp only
      split
      · exact ⟨(fun e => nomatch e), (fun e => nomatch e), taken, queue, fetch, put, ended, files⟩
      · obtain ⟨n1, n2, n3, n4⟩ := next_yields hx
        refine ⟨fun _ => ⟨hg, hf.trans n2.symm, ?_⟩, (fun e => nomatch e), taken, queue, fetch, put, ended, files⟩
        show 7 * (c.ticks + if c.phase = .new then 0 else 1) ≤ (s.out ++ op.emit P.movie.addr ++ _).length
        rw [if_neg n1, n3, List.length_append, List.length_append]
        show 7 * (s.coder.ticks + (if s.coder.phase = .new then 0 else 1) + 1) ≤ _
        omega

theorem AheadP.main {P : Setup} {fs : FS} {L : Nat} {s t : Prog} (h : AheadP P fs L s) (hL : s.main = .running → s.out.length ≤ L) (hs : s.mainStepW P.movie P.next = some t) : AheadP P fs L t := by
  unfold Prog.mainStepW at hs
  split at hs
  · rename_i hm
    obtain ⟨r1, r2, r3⟩ := h.run hm
    have hL := hL hm
    split at hs
    · rename_i hn
      have hp : s.coder.phase ≠ .new := by
        intro hp; unfold Coder.needsFrame at hn; rw [hp] at hn; cases hn
      have h7 : 7 * (s.coder.ticks + 1) ≤ s.out.length := by rw [if_neg hp] at r3; exact r3
      have hthr : P.movie.thr s.coder.frameNumber ≤ s.coder.ticks + 1 := by
        unfold Coder.needsFrame at hn
        split at hn
        · cases hn
        · split at hn
          · cases hn
          · simpa using hn
      split at hs
      · rename_i hst
        rw [if_pos hst] at r1
        have hc : s.g.consumerStep = some { s.g with consumer := .get } := by unfold GState.consumerStep; rw [r1]
        rw [hc] at hs
        cases hs
        have hgot : ({ s.g with consumer := .get } : GState).got = s.g.got := by unfold GState.got; rw [r1]
        exact ⟨(fun e => nomatch e), fun _ => ⟨hst, .inl rfl, r2, hp, h7, hn, by show 7 * P.movie.thr s.coder.frameNumber ≤ L; omega⟩, fun j hj => h.taken j (hgot ▸ hj), h.queue,
          fun i rest e => hgot.symm ▸ h.fetch i rest e, fun item i rest e => hgot.symm ▸ h.put item i rest e, h.ended, fun k q hq hk => h.files k q hq (hgot ▸ hk)⟩
      · rename_i hst
        rw [if_neg hst] at r1
        cases hs
        exact ⟨(fun e => nomatch e), fun _ => ⟨rfl, .inl r1, r2, hp, h7, hn, by show 7 * P.movie.thr s.coder.frameNumber ≤ L; omega⟩, h.taken, h.queue, h.fetch, h.put, h.ended, h.files⟩
    · rename_i hn
      cases hs
      exact AheadP.resume r1 (by rw [if_neg hn]; exact r2) r3 h.taken h.queue h.fetch h.put h.ended h.files
  · rename_i hm
    obtain ⟨a0, a1, a2, a3, a4, a5, a6⟩ := h.ask hm
    obtain ⟨g0, st, mn, cd, ps, ax, ou⟩ := s
    obtain ⟨f0, w0, q0, c0, o0⟩ := g0
    simp only at hm a0 a1 a2 a3 a4 a5 a6
    subst hm
    unfold GState.consumerStep at hs
    rcases a1 with rfl | rfl
    · simp only at hs
      cases q0 with
      | nil => cases hs
      | cons x q =>
        have hq : q.length ≤ 9 := by have := h.queue; simp only [List.length_cons] at this; omega
        cases x with
        | none =>
          cases hs
          have hd : w0 = .done := h.ended (by simp)
          subst hd
          exact ⟨(fun e => nomatch e), fun _ => ⟨a0, .inr rfl, a2, a3, a4, a5, a6⟩, h.taken, by show q.length ≤ 10; omega, (fun _ _ e => nomatch e), (fun _ _ _ e => nomatch e), fun _ => rfl, h.files⟩
        | some item =>
          have hen : none ∈ q → w0 = .done := fun hm => h.ended (by simp [hm])
          have htk : ∀ j, j < o0.length + 1 → 7 * P.movie.thr j ≤ L := by
            intro j hj
            by_cases hj' : j < o0.length
            · exact h.taken j (by simp only [GState.got]; omega)
            · have : j = cd.frameNumber := by omega
              rw [this]; exact a6
          have hfe : ∀ i rest, w0 = .fetch i rest → i ≤ o0.length + 1 + q.length := by
            intro i rest e
            have := h.fetch i rest e
            simp only [GState.got, List.length_cons] at this
            omega
          have hpu : ∀ item i rest, w0 = .put item i rest → i ≤ o0.length + 1 + q.length := by
            intro item i rest e
            have := h.put item i rest e
            simp only [GState.got, List.length_cons] at this
            omega
          have hfi : ∀ k q, OwnFile P.grabber k q → o0.length + 1 + 11 ≤ k → f0 q = fs q := fun k q hq hk => h.files k q hq (by simp only [GState.got]; omega)
          simp only at hs
          cases hf : item.toFrame with
          | error e =>
            rw [hf] at hs
            cases hs
            exact ⟨(fun e => nomatch e), (fun e => nomatch e), htk, by show q.length ≤ 10; omega, hfe, hpu, hen, hfi⟩
          | ok f =>
            rw [hf] at hs
            cases hs
            refine AheadP.resume ?_ ?_ (by rw [if_neg a3]; exact a4) ?_ (by show q.length ≤ 10; omega) ?_ ?_ hen ?_
            · show Consumer.yielded = if st = true then .yielded else .get
              rw [if_pos a0]
            · show (o0 ++ [f]).length = cd.frameNumber + (if cd.needsFrame P.movie then 1 else 0)
              rw [if_pos a5, List.length_append, a2]; rfl
            · intro j hj; exact htk j (by simpa [GState.got] using hj)
            · intro i rest e; have := hfe i rest e; simpa [GState.got] using this
            · intro item i rest e; have := hpu item i rest e; simpa [GState.got] using this
            · intro k q hq hk; exact hfi k q hq (by simpa [GState.got] using hk)
    · have fin : ∀ s' : Prog, s' = { g := ⟨f0, w0, q0, .finished, o0⟩, started := st, main := .asking, coder := cd, pos := ps, aux := ax, out := ou } →
          AheadP P fs L (s'.resumeW P.movie P.next []) := by
        rintro s' rfl
        unfold Prog.resumeW
        have hx : P.next ax { cd with frames := [] } = .ok none := (setup_next_like P).exhausted (aux := ax) (c := cd) a5
        simp only
        rw [hx]
        exact ⟨(fun e => nomatch e), (fun e => nomatch e), h.taken, h.queue, h.fetch, h.put, h.ended, h.files⟩
      simp only at hs
      cases w0 with
      | done => cases hs; exact fin _ rfl
      | dead e => cases hs; exact fin _ rfl
      | fetch => cases hs
      | put => cases hs
      | putEnd => cases hs
  · cases hs
  · cases hs

theorem resumeW_longer {M : Movie} {nx : Bool → Coder → Resumed} (s : Prog) (frames : List Frame) : s.out.length ≤ (s.resumeW M nx frames).out.length := by
  unfold Prog.resumeW
  split
  · exact le_refl _
  · simp
  · split
    · simp
    · dsimp only
      split <;> simp

theorem mainW_longer {M : Movie} {nx : Bool → Coder → Resumed} {s t : Prog} (h : s.mainStepW M nx = some t) : s.out.length ≤ t.out.length := by
  unfold Prog.mainStepW at h
  split at h
  · split at h
    · split at h
      · split at h
        · cases h; exact le_refl _
        · cases h
      · cases h; exact le_refl _
    · cases h; exact resumeW_longer _ _
  · split at h
    · cases h
    · rename_i g hg
      split at h
      · cases h; exact resumeW_longer { s with g } _
      · cases h; exact resumeW_longer { s with g } _
      · cases h; exact le_refl _
      · cases h; exact le_refl _
  · cases h
  · cases h

/-- The program with its buffer. -/
structure AheadS (P : Setup) (fs : FS) (size : Nat) (s : Session) : Prop where
  prog : AheadP P fs (s.fileLength P.name + size) s.prog
  lens : s.error = none → s.prog.out.length = s.fileLength P.name + s.buf.length + s.todo.length
  room : s.buf.length ≤ size

theorem AheadS.raw {P : Setup} {fs : FS} {size : Nat} {s : Session} (hn : ∀ i, ¬ OwnFile P.grabber i P.name) (dev : Device) (h : AheadS P fs size s) :
    AheadS P fs size (s.rawWrite P.name dev) := by
  unfold Session.rawWrite
  split
  · exact ⟨h.prog, (fun e => nomatch e), h.room⟩
  · rename_i k _
    have hl : (({ s with calls := s.calls + 1, flushing := true, prog := s.prog.append P.name (s.buf.take (k + 1)), buf := s.buf.drop (k + 1) } : Session).fileLength P.name) =
        s.fileLength P.name + (s.buf.take (k + 1)).length := by
      unfold Session.fileLength Prog.append
      show ((s.prog.disk.put P.name _ P.name).getD []).length = _
      rw [put_same]
      simp only [Option.getD_some, List.length_append]
    refine ⟨?_, fun he => ?_, ?_⟩
    · exact ((h.prog.saved hn _).more (by rw [hl]; omega))
    · rw [hl]
      have := h.lens he
      show s.prog.out.length = s.fileLength P.name + (s.buf.take (k + 1)).length + (s.buf.drop (k + 1)).length + s.todo.length
      rw [this, List.length_take, List.length_drop]
      omega
    · show (s.buf.drop (k + 1)).length ≤ size
      have := h.room
      rw [List.length_drop]; omega

theorem AheadS.step {P : Setup} {fs : FS} {size : Nat} {dev : Device} {s t : Session} (hn : ∀ i, ¬ OwnFile P.grabber i P.name) (hl : LocalTool P.grabber) (h : AheadS P fs size s)
    (hs : Session.Step P size dev s t) : AheadS P fs size t := by
  cases hs with
  | @worker t hw =>
    obtain ⟨h1, h2⟩ := h.prog.worker hl hw
    have ht : t.out = s.prog.out := by
      unfold Prog.workerStep at hw
      split at hw
      · split at hw
        · cases hw; rfl
        · cases hw
      · cases hw
    have hf : ({ s with prog := t } : Session).fileLength P.name = s.fileLength P.name := by
      unfold Session.fileLength
      rw [h2 P.name hn]
    refine ⟨hf ▸ h1, fun he => ?_, h.room⟩
    rw [hf]
    exact (congrArg List.length ht).trans (h.lens he)
  | main hs =>
    unfold Session.mainStep at hs
    split at hs
    · cases hs
    · split at hs
      · rename_i b rest hb
        split at hs
        · cases hs; exact ⟨h.prog, (fun e => nomatch e), h.room⟩
        · split at hs
          · rename_i hc
            cases hs
            refine ⟨h.prog, fun he => ?_, ?_⟩
            · have := h.lens he
              rw [hb] at this
              show s.prog.out.length = s.fileLength P.name + (s.buf ++ [BitVec.ofNat 8 b]).length + rest.length
              simp only [List.length_append, List.length_cons, List.length_nil] at this ⊢
              omega
            · show (s.buf ++ [BitVec.ofNat 8 b]).length ≤ size
              simp only [Bool.and_eq_true, decide_eq_true_eq] at hc
              simp only [List.length_append, List.length_cons, List.length_nil]
              omega
          · cases hs; exact h.raw hn dev
      · rename_i hb
        split at hs
        · split at hs
          · cases hs; exact ⟨h.prog, h.lens, h.room⟩
          · cases hs; exact h.raw hn dev
        · rename_i ho
          cases hm : s.prog.mainStepW P.movie P.next with
          | none => rw [hm] at hs; cases hs
          | some t1 =>
            rw [hm] at hs
            cases hs
            have he : s.error = none := by
              by_contra he
              exact ho ((over_iff s).2 ⟨hb, .inl he⟩)
            have hlen := h.lens he
            rw [hb] at hlen
            simp only [List.length_nil] at hlen
            have hroom := h.room
            have h1 := h.prog.main (fun _ => by omega) hm
            have hd : t1.disk = s.prog.disk := mainW_disk hm
            have hf : ({ s with prog := t1, todo := t1.out.drop s.prog.out.length } : Session).fileLength P.name = s.fileLength P.name := by
              unfold Session.fileLength
              rw [hd]
            refine ⟨hf ▸ h1, fun _ => ?_, h.room⟩
            rw [hf]
            show t1.out.length = s.fileLength P.name + s.buf.length + (t1.out.drop s.prog.out.length).length
            have hle : s.prog.out.length ≤ t1.out.length := mainW_longer hm
            rw [List.length_drop]
            omega

theorem AheadS.steps {P : Setup} {fs : FS} {size : Nat} {dev : Device} (hn : ∀ i, ¬ OwnFile P.grabber i P.name) (hl : LocalTool P.grabber) {n : Nat} {s t : Session} (h : AheadS P fs size s)
    (hs : Session.Steps P size dev n s t) : AheadS P fs size t := by
  induction hs with
  | zero => exact h
  | succ _ h2 ih => exact (ih h).step hn hl h2

theorem AheadS.launch {H : Host} {argv : List Text} {fs : FS} {P : Setup} {s0 : Prog} (h : launch H argv fs = .ok (P, s0)) (hn : ∀ i, ¬ OwnFile P.grabber i P.name) (size : Nat) :
    AheadS P fs size (Session.start s0) := by
  obtain ⟨c, norm, text, rate, tpf, v, -, -, -, -, -, -, -, hP, hs0⟩ := launch_parts h
  subst hs0
  have hfile : ∀ q, q ≠ P.name → (fs.put P.name []) q = fs q := fun q hq => put_other fs hq []
  refine ⟨⟨fun _ => ⟨rfl, rfl, Nat.zero_le _⟩, (fun e => nomatch e), (fun j hj => nomatch hj), Nat.zero_le _, ?_, (fun _ _ _ e => nomatch e), (fun e => nomatch e), ?_⟩, fun _ => ?_, Nat.zero_le _⟩
  · intro i rest e; cases e; exact Nat.zero_le _
  · intro k q hq _; exact hfile q fun e => hn k (e ▸ hq)
  · show 0 = _
    unfold Session.fileLength
    show 0 = (((fs.put P.name []) P.name).getD []).length + 0 + 0
    rw [put_same]; rfl

/-! ### With a limit -/

/-- The position is that of the output, and below `L` while the loop goes on. -/
def Below (L : Nat) (s : Prog) : Prop := s.main = .running ∨ s.main = .asking → s.out.length = s.pos ∧ s.pos ≤ L

theorem resume_below {P : Setup} {L : Nat} {s : Prog} {frames : List Frame} (hlim : 0 < P.movie.limit) (hL : ∀ pos : Nat, (pos : Rat) < P.movie.limit → pos + 11 ≤ L)
    (h : s.out.length = s.pos) : Below L (s.resumeW P.movie P.next frames) := by
  unfold Prog.resumeW
  split
  · rintro (e | e) <;> cases e
  · rintro (e | e) <;> cases e
  · rename_i op c hx
    split
    · rintro (e | e) <;> cases e
    · rename_i hat
      have hp : (s.pos : Rat) < P.movie.limit := by
        unfold Movie.atLimit at hat
        simp only [decide_eq_true_eq, not_and, not_le] at hat
        exact hat (ne_of_gt hlim)
      have h11 := hL _ hp
      obtain ⟨-, -, -, n4⟩ := next_yields hx
      dsimp only
      split
      · rintro (e | e) <;> cases e
      · rename_i ops b1 pos aux hk
        have : pos = s.pos + 7 + b1.length ∧ b1.length ≤ 4 := by
          unfold Movie.ackIfDue at hk
          rw [n4] at hk
          split at hk
          · refine bind_both hk fun _ hk => ?_
            have := hk.2
            cases this
            exact ⟨rfl, le_refl _⟩
          · cases hk; exact ⟨rfl, Nat.zero_le _⟩
        intro _
        show (s.out ++ op.emit P.movie.addr ++ b1).length = pos ∧ pos ≤ L
        rw [List.length_append, List.length_append, n4]
        omega

theorem main_below {P : Setup} {L : Nat} {s t : Prog} (hlim : 0 < P.movie.limit) (hL : ∀ pos : Nat, (pos : Rat) < P.movie.limit → pos + 11 ≤ L)
    (h : Below L s) (hs : s.mainStepW P.movie P.next = some t) : Below L t := by
  unfold Prog.mainStepW at hs
  split at hs
  · rename_i hm
    have h' := h (.inl hm)
    split at hs
    · split at hs
      · split at hs
        · cases hs; exact fun _ => h'
        · cases hs
      · cases hs; exact fun _ => h'
    · cases hs; exact resume_below hlim hL h'.1
  · rename_i hm
    have h' := h (.inr hm)
    split at hs
    · cases hs
    · rename_i g hg
      split at hs
      · cases hs; exact resume_below (s := { s with g }) hlim hL h'.1
      · cases hs; exact resume_below (s := { s with g }) hlim hL h'.1
      · cases hs; rintro (e | e) <;> cases e
      · cases hs; exact fun _ => h'
  · cases hs
  · cases hs

structure LimitS (P : Setup) (fs : FS) (L : Nat) (s : Session) : Prop where
  ahead : AheadP P fs L s.prog
  below : Below L s.prog

theorem LimitS.raw {P : Setup} {fs : FS} {L : Nat} {s : Session} (hn : ∀ i, ¬ OwnFile P.grabber i P.name) (dev : Device) (h : LimitS P fs L s) :
    LimitS P fs L (s.rawWrite P.name dev) := by
  unfold Session.rawWrite
  split
  · exact ⟨h.ahead, h.below⟩
  · exact ⟨h.ahead.saved hn _, h.below⟩

theorem LimitS.step {P : Setup} {fs : FS} {L size : Nat} {dev : Device} {s t : Session} (hn : ∀ i, ¬ OwnFile P.grabber i P.name) (hl : LocalTool P.grabber)
    (hlim : 0 < P.movie.limit) (hL : ∀ pos : Nat, (pos : Rat) < P.movie.limit → pos + 11 ≤ L) (h : LimitS P fs L s) (hs : Session.Step P size dev s t) : LimitS P fs L t := by
  cases hs with
  | @worker t hw =>
    refine ⟨(h.ahead.worker hl hw).1, ?_⟩
    unfold Prog.workerStep at hw
    split at hw
    · split at hw
      · cases hw; exact h.below
      · cases hw
    · cases hw
  | main hs =>
    unfold Session.mainStep at hs
    split at hs
    · cases hs
    · split at hs
      · split at hs
        · cases hs; exact ⟨h.ahead, h.below⟩
        · split at hs
          · cases hs; exact ⟨h.ahead, h.below⟩
          · cases hs; exact h.raw hn dev
      · split at hs
        · split at hs
          · cases hs; exact ⟨h.ahead, h.below⟩
          · cases hs; exact h.raw hn dev
        · cases hm : s.prog.mainStepW P.movie P.next with
          | none => rw [hm] at hs; cases hs
          | some t1 =>
            rw [hm] at hs
            cases hs
            exact ⟨h.ahead.main (fun e => by obtain ⟨b1, b2⟩ := h.below (.inl e); omega) hm, main_below hlim hL h.below hm⟩

theorem LimitS.steps {P : Setup} {fs : FS} {L size : Nat} {dev : Device} (hn : ∀ i, ¬ OwnFile P.grabber i P.name) (hl : LocalTool P.grabber)
    (hlim : 0 < P.movie.limit) (hL : ∀ pos : Nat, (pos : Rat) < P.movie.limit → pos + 11 ≤ L) {n : Nat} {s t : Session} (h : LimitS P fs L s)
    (hs : Session.Steps P size dev n s t) : LimitS P fs L t := by
  induction hs with
  | zero => exact h
  | succ _ h2 ih => exact (ih h).step hn hl hlim hL h2

theorem LimitS.launch {H : Host} {argv : List Text} {fs : FS} {P : Setup} {s0 : Prog} (h : launch H argv fs = .ok (P, s0)) (hn : ∀ i, ¬ OwnFile P.grabber i P.name) {L : Nat} :
    LimitS P fs L (Session.start s0) := by
  have ha := (AheadS.launch h hn 0).prog
  obtain ⟨c, norm, text, rate, tpf, v, -, -, -, -, -, -, -, hP, hs0⟩ := launch_parts h
  refine ⟨{ ha with ask := fun e => ?_, taken := fun j hj => ?_ }, ?_⟩
  · rw [hs0] at e; cases e
  · rw [hs0] at hj; cases hj
  · rw [hs0]; exact fun _ => ⟨rfl, Nat.zero_le _⟩

end IIVision
