import Verif.Model.Program
import Verif.Proofs.Grabber
import Verif.Proofs.Movie

/-! The threads of the transcoder compared with `Movie.stream`. -/

namespace IIVision
open Spec

/-- Replace the frames still to come. -/
def Coder.withF (X : List Frame) (c : Coder) : Coder := { c with frames := X }

/-- The same in the result of `next`. -/
def nextF (X : List Frame) : Except PyErr (Option (Opcode × Coder)) → Except PyErr (Option (Opcode × Coder))
  | .ok (some (op, c)) => .ok (some (op, c.withF X))
  | .ok none => .ok none
  | .error e => .error e

theorem newFrame_withF (M : Movie) (aux : Bool) (c : Coder) (f : Frame) (X : List Frame) :
    Coder.newFrame M aux (c.withF X) f = (Coder.newFrame M aux c f).map (Coder.withF X) := by
  unfold Coder.newFrame
  rw [show (c.withF X).frameNumber = c.frameNumber from rfl]
  cases M.shouldEncode c.frameNumber with
  | error e => rfl
  | ok b =>
    cases b with
    | false => rfl
    | true =>
      cases M.bitmapOf f with
      | error e => simp only [bind, Except.bind, Except.map, if_true]
      | ok T => simp only [bind, Except.bind, Except.map, if_true]; rfl

theorem flip_withF (aux : Bool) (c : Coder) (X : List Frame) :
    Coder.flip aux (c.withF X) = (Coder.flip aux c).map (Coder.withF X) := by
  unfold Coder.flip
  rw [show (c.withF X).lastBank = c.lastBank from rfl, show (c.withF X).target = c.target from rfl]
  split
  · cases c.target <;> rfl
  · rfl

theorem tickOp_withF (M : Movie) (c : Coder) (au : Int) (X : List Frame) :
    Coder.tickOp M (c.withF X) au = (Coder.tickOp M c au).map fun r => (r.1, r.2.withF X) := by
  unfold Coder.tickOp
  rw [show (c.withF X).gen = c.gen from rfl, show (c.withF X).v = c.v from rfl,
    show (c.withF X).rng = c.rng from rfl]
  cases c.gen with
  | none => rfl
  | some g =>
    simp only
    cases c.v.next M.table c.rng g with
    | error e => rfl
    | ok r =>
      obtain ⟨op, v, rng, g⟩ := r
      simp only [bind, Except.bind]
      cases tickOpcodes (au * 2 + 34) op.page with
      | error e => rfl
      | ok tp =>
        simp only
        cases Opcode.newTick tp.1 tp.2 op.content op.offsets with
        | error e => rfl
        | ok o => rfl

/-- What follows the fetching of a frame. -/
def Coder.rest (M : Movie) (aux : Bool) (au : Int) (c : Coder) : Except PyErr (Option (Opcode × Coder)) := do
  let c ← c.flip aux
  let r ← c.tickOp M au
  return some r

theorem rest_withF (M : Movie) (aux : Bool) (au : Int) (c : Coder) (X : List Frame) :
    Coder.rest M aux au (c.withF X) = nextF X (Coder.rest M aux au c) := by
  unfold Coder.rest
  rw [flip_withF]
  cases Coder.flip aux c with
  | error e => rfl
  | ok c1 =>
    simp only [Except.map, bind, Except.bind]
    rw [tickOp_withF]
    cases Coder.tickOp M c1 au with
    | error e => rfl
    | ok r => rfl

theorem iter_eq (M : Movie) (aux : Bool) (c : Coder) (au : Int) :
    Coder.iter M aux c au = (Coder.fetch M aux { c with ticks := c.ticks + 1 } >>= fun r =>
      match r with
      | none => .ok none
      | some c => Coder.rest M aux au c) := by
  unfold Coder.iter
  refine bind_congr fun r => ?_
  cases r <;> rfl

/-- The state in which `next` enters an iteration. -/
def Coder.entered (aux : Bool) (c : Coder) (rest : List Int) : Coder :=
  { (if c.phase = .header then { c with phase := .loop, lastBank := aux } else c) with audio := rest }

theorem next_cons {M : Movie} {aux : Bool} {c : Coder} {au : Int} {rest : List Int} (hp : c.phase ≠ .new)
    (ha : c.audio = au :: rest) : Coder.next M aux c = Coder.iter M aux (c.entered aux rest) au := by
  obtain ⟨ph, audio, frames, ticks, fn, v, rng, gen, target, lb⟩ := c
  simp only at ha hp
  subst ha
  cases ph with
  | new => exact absurd rfl hp
  | header => rfl
  | loop => rfl

theorem next_nil {M : Movie} {aux : Bool} {c : Coder} (hp : c.phase ≠ .new)
    (ha : c.audio = []) : Coder.next M aux c = .ok none := by
  obtain ⟨ph, audio, frames, ticks, fn, v, rng, gen, target, lb⟩ := c
  simp only at ha hp
  subst ha
  cases ph with
  | new => exact absurd rfl hp
  | header => rfl
  | loop => rfl

theorem entered_withF (aux : Bool) (c : Coder) (rest : List Int) (X : List Frame) :
    (c.withF X).entered aux rest = (c.entered aux rest).withF X := by
  unfold Coder.entered
  rw [show (c.withF X).phase = c.phase from rfl]
  split <;> rfl

theorem entered_ticks (aux : Bool) (c : Coder) (rest : List Int) : (c.entered aux rest).ticks = c.ticks := by
  unfold Coder.entered
  split <;> rfl

theorem entered_number (aux : Bool) (c : Coder) (rest : List Int) :
    (c.entered aux rest).frameNumber = c.frameNumber := by
  unfold Coder.entered
  split <;> rfl

theorem needs_cases {M : Movie} {c : Coder} (h : c.needsFrame M = true) :
    c.phase ≠ .new ∧ (∃ au rest, c.audio = au :: rest) ∧ M.thr c.frameNumber ≤ c.ticks + 1 := by
  obtain ⟨ph, audio, frames, ticks, fn, v, rng, gen, target, lb⟩ := c
  cases ph <;> cases audio <;> simp [Coder.needsFrame] at h ⊢ <;> exact h

theorem no_needs_cases {M : Movie} {c : Coder} (h : c.needsFrame M = false) :
    c.phase = .new ∨ (c.phase ≠ .new ∧ c.audio = []) ∨
      (c.phase ≠ .new ∧ (∃ au rest, c.audio = au :: rest) ∧ ¬ M.thr c.frameNumber ≤ c.ticks + 1) := by
  obtain ⟨ph, audio, frames, ticks, fn, v, rng, gen, target, lb⟩ := c
  cases ph <;> cases audio <;> simp [Coder.needsFrame] at h ⊢ <;> exact h

/-- Nothing is asked of the frames. -/
theorem next_idle {M : Movie} {aux : Bool} {c : Coder} (h : c.needsFrame M = false) (X : List Frame) :
    Coder.next M aux (c.withF X) = nextF X (Coder.next M aux (c.withF [])) := by
  rcases no_needs_cases h with hp | ⟨hp, ha⟩ | ⟨hp, ⟨au, rest, ha⟩, ht⟩
  · obtain ⟨ph, audio, frames, ticks, fn, v, rng, gen, target, lb⟩ := c
    simp only at hp
    subst hp
    rfl
  · rw [next_nil (c := c.withF X) hp ha, next_nil (c := c.withF []) hp ha]; rfl
  · rw [next_cons (c := c.withF X) hp ha, next_cons (c := c.withF []) hp ha, iter_eq, iter_eq, entered_withF, entered_withF]
    have hf : ∀ Y, Coder.fetch M aux { (c.entered aux rest).withF Y with ticks := ((c.entered aux rest).withF Y).ticks + 1 } =
        .ok (some ({ (c.entered aux rest) with ticks := (c.entered aux rest).ticks + 1 }.withF Y)) := by
      intro Y
      unfold Coder.fetch
      rw [if_neg]
      · rfl
      · show ¬ M.thr (c.entered aux rest).frameNumber ≤ (c.entered aux rest).ticks + 1
        rw [entered_number, entered_ticks]; exact ht
    rw [hf, hf, Except.bind_ok, Except.bind_ok]
    simp only
    rw [rest_withF, rest_withF]
    cases Coder.rest M aux au { (c.entered aux rest) with ticks := (c.entered aux rest).ticks + 1 } with
    | error e => rfl
    | ok r => cases r <;> rfl

/-- A frame is due but there is none. -/
theorem next_exhausted {M : Movie} {aux : Bool} {c : Coder} (h : c.needsFrame M = true) :
    Coder.next M aux (c.withF []) = .ok none := by
  obtain ⟨hp, ⟨au, rest, ha⟩, ht⟩ := needs_cases h
  rw [next_cons (c := c.withF []) hp ha, iter_eq, entered_withF]
  have hf : Coder.fetch M aux { (c.entered aux rest).withF [] with ticks := ((c.entered aux rest).withF []).ticks + 1 } = .ok none := by
    unfold Coder.fetch
    rw [if_pos]
    · rfl
    · show M.thr (c.entered aux rest).frameNumber ≤ (c.entered aux rest).ticks + 1
      rw [entered_number, entered_ticks]; exact ht
  rw [hf]
  rfl

/-- A frame is due and taken. -/
theorem next_frame {M : Movie} {aux : Bool} {c : Coder} (h : c.needsFrame M = true) (f : Frame) (X : List Frame) :
    Coder.next M aux (c.withF (f :: X)) = nextF X (Coder.next M aux (c.withF [f])) := by
  obtain ⟨hp, ⟨au, rest, ha⟩, ht⟩ := needs_cases h
  rw [next_cons (c := c.withF (f :: X)) hp ha, next_cons (c := c.withF [f]) hp ha, iter_eq, iter_eq,
    entered_withF, entered_withF]
  have hf : ∀ Y, Coder.fetch M aux { (c.entered aux rest).withF (f :: Y) with
        ticks := ((c.entered aux rest).withF (f :: Y)).ticks + 1 } =
      (Coder.newFrame M aux { (c.entered aux rest) with
        ticks := (c.entered aux rest).ticks + 1, frameNumber := (c.entered aux rest).frameNumber + 1 } f).map
          fun c => some (c.withF Y) := by
    intro Y
    unfold Coder.fetch
    rw [if_pos]
    · show (Coder.newFrame M aux (Coder.withF Y { (c.entered aux rest) with
        ticks := (c.entered aux rest).ticks + 1, frameNumber := (c.entered aux rest).frameNumber + 1 }) f >>= fun c => .ok (some c)) = _
      rw [newFrame_withF]
      cases Coder.newFrame M aux _ f <;> rfl
    · show M.thr (c.entered aux rest).frameNumber ≤ (c.entered aux rest).ticks + 1
      rw [entered_number, entered_ticks]; exact ht
  rw [hf, hf]
  cases Coder.newFrame M aux _ f with
  | error e => rfl
  | ok c1 =>
    simp only [Except.map, bind, Except.bind]
    rw [rest_withF, rest_withF]
    cases Coder.rest M aux au c1 with
    | error e => rfl
    | ok r => cases r <;> rfl

/-- What does not change besides the frames. -/
def SameInput (c c' : Coder) : Prop :=
  c'.phase = c.phase ∧ c'.audio = c.audio ∧ c'.ticks = c.ticks ∧ c'.frameNumber = c.frameNumber

theorem newFrame_same {M : Movie} {aux : Bool} {c c' : Coder} {f : Frame}
    (h : Coder.newFrame M aux c f = .ok c') : SameInput c c' := by
  unfold Coder.newFrame at h
  cases hs : M.shouldEncode c.frameNumber with
  | error e => rw [hs] at h; cases h
  | ok b =>
    rw [hs] at h
    cases b with
    | false => cases h; exact ⟨rfl, rfl, rfl, rfl⟩
    | true =>
      cases hb : M.bitmapOf f with
      | error e => simp [bind, Except.bind, hb] at h
      | ok T =>
        simp [bind, Except.bind, hb, pure, Except.pure] at h
        subst h; exact ⟨rfl, rfl, rfl, rfl⟩

theorem rest_same {M : Movie} {aux : Bool} {c c' : Coder} {au : Int} {op : Opcode}
    (h : Coder.rest M aux au c = .ok (some (op, c'))) : SameInput c c' := by
  unfold Coder.rest at h
  cases hf : Coder.flip aux c with
  | error e => rw [hf] at h; cases h
  | ok c1 =>
    rw [hf, Except.bind_ok] at h
    have h1 : SameInput c c1 := by
      unfold Coder.flip at hf
      split at hf
      · cases ht : c.target with
        | none => rw [ht] at hf; cases hf
        | some T => rw [ht] at hf; cases hf; exact ⟨rfl, rfl, rfl, rfl⟩
      · cases hf; exact ⟨rfl, rfl, rfl, rfl⟩
    cases ht : Coder.tickOp M c1 au with
    | error e => rw [ht] at h; cases h
    | ok r =>
      rw [ht, Except.bind_ok] at h
      have hr : r = (op, c') := by
        have := Except.ok.inj h
        exact Option.some.inj this
      subst hr
      have h2 : SameInput c1 c' := by
        unfold Coder.tickOp at ht
        cases hg : c1.gen with
        | none => rw [hg] at ht; cases ht
        | some g =>
          rw [hg] at ht
          simp only at ht
          cases hn : c1.v.next M.table c1.rng g with
          | error e => rw [hn] at ht; cases ht
          | ok r =>
            obtain ⟨o, v, rng, g'⟩ := r
            rw [hn, Except.bind_ok] at ht
            simp only at ht
            cases htp : tickOpcodes (au * 2 + 34) o.page with
            | error e => rw [htp] at ht; cases ht
            | ok tp =>
              rw [htp, Except.bind_ok] at ht
              cases hnt : Opcode.newTick tp.1 tp.2 o.content o.offsets with
              | error e => simp [hnt, bind, Except.bind] at ht
              | ok oo =>
                simp [hnt, bind, Except.bind, pure, Except.pure] at ht
                obtain ⟨-, rfl⟩ := ht
                exact ⟨rfl, rfl, rfl, rfl⟩
      obtain ⟨a1, a2, a3, a4⟩ := h1
      obtain ⟨b1, b2, b3, b4⟩ := h2
      exact ⟨b1.trans a1, b2.trans a2, b3.trans a3, b4.trans a4⟩

/-- How many more times the encoder can be resumed successfully. -/
def Coder.left (c : Coder) : Nat := (if c.phase = .new then 1 else 0) + c.audio.length

/-- Progress of the encoder. -/
theorem next_progress {M : Movie} {aux : Bool} {c c' : Coder} {op : Opcode}
    (h : Coder.next M aux c = .ok (some (op, c'))) :
    c'.left + 1 = c.left ∧ c'.frameNumber = c.frameNumber + (if c.needsFrame M then 1 else 0) := by
  by_cases hp : c.phase = .new
  · have hn : c.needsFrame M = false := by unfold Coder.needsFrame; rw [hp]
    obtain ⟨ph, audio, frames, ticks, fn, v, rng, gen, target, lb⟩ := c
    simp only at hp
    subst hp
    unfold Coder.next at h
    simp only at h
    cases h
    rw [hn]
    simp [Coder.left]
    omega
  · cases ha : c.audio with
    | nil => rw [next_nil hp ha] at h; cases h
    | cons au rest =>
      rw [next_cons hp ha, iter_eq] at h
      have e1 : (c.entered aux rest).phase ≠ .new := by
        unfold Coder.entered
        split
        · intro h; cases h
        · exact hp
      have e2 : (c.entered aux rest).audio = rest := rfl
      have hl : c.left = rest.length + 1 := by unfold Coder.left; rw [if_neg hp, ha]; simp
      unfold Coder.fetch at h
      simp only [entered_number, entered_ticks] at h
      by_cases ht : M.thr c.frameNumber ≤ c.ticks + 1
      · have hn : c.needsFrame M = true := by
          unfold Coder.needsFrame
          split
          · rename_i h1; exact absurd h1 hp
          · rw [ha]; simpa using ht
        rw [if_pos ht] at h
        cases hf : (c.entered aux rest).frames with
        | nil => rw [hf] at h; cases h
        | cons f fs =>
          rw [hf] at h
          simp only at h
          cases hnf : Coder.newFrame M aux { (c.entered aux rest) with
              ticks := c.ticks + 1, frameNumber := c.frameNumber + 1, frames := fs } f with
          | error e => rw [hnf] at h; cases h
          | ok c1 =>
            rw [hnf] at h
            obtain ⟨a1, a2, a3, a4⟩ := newFrame_same hnf
            obtain ⟨b1, b2, b3, b4⟩ := rest_same (c := c1) h
            rw [hn, b4, a4]
            refine ⟨?_, by simp⟩
            unfold Coder.left at hl ⊢
            rw [b1, a1, b2, a2]
            simp only [if_neg e1, e2]
            omega
      · have hn : c.needsFrame M = false := by
          unfold Coder.needsFrame
          split
          · rfl
          · rw [ha]; simpa using ht
        rw [if_neg ht] at h
        obtain ⟨b1, b2, b3, b4⟩ := rest_same (c := { (c.entered aux rest) with ticks := c.ticks + 1, frameNumber := c.frameNumber }) h
        rw [hn, b4]
        refine ⟨?_, by simp⟩
        unfold Coder.left at hl ⊢
        rw [b1, b2]
        simp only [if_neg e1, e2]
        omega

/-- Number of ticks of a stream. -/
def tickCount (ops : List Opcode) : Nat := (ticksOf false ops).length

theorem ticksOf_bank (ops : List Opcode) : ∀ b b', (ticksOf b ops).length = (ticksOf b' ops).length := by
  induction ops with
  | nil => intro b b'; rfl
  | cons op ops ih =>
    intro b b'
    cases op <;> simp only [ticksOf, List.length_cons]
    all_goals first | exact ih _ _ | rw [ih b b']

theorem tickCount_append (a b : List Opcode) : tickCount (a ++ b) = tickCount a + tickCount b := by
  unfold tickCount
  have key : ∀ (a b : List Opcode) (x : Bool), (ticksOf x (a ++ b)).length = (ticksOf x a).length + (ticksOf false b).length := by
    intro a b
    induction a with
    | nil => intro x; rw [List.nil_append, ticksOf_bank b x false]; simp [ticksOf]
    | cons op a ih =>
      intro x
      cases op <;> simp only [List.cons_append, ticksOf, List.length_cons, ih]
      omega
  exact key a b false

/-- After `k` ticks. -/
structure Counted (M : Movie) (A : List Int) (k : Nat) (c : Coder) : Prop where
  ticks : c.ticks = k
  audio : c.audio = A.drop k
  number : c.frameNumber = fetched M.thr k

theorem iter_count {M : Movie} {aux : Bool} {c c' : Coder} {au : Int} {op : Opcode} {A : List Int} {k : Nat}
    (hp : c.phase ≠ .new) (h1 : c.ticks = k) (h2 : c.audio = A.drop (k + 1)) (h3 : c.frameNumber = fetched M.thr k)
    (h : Coder.iter M aux c au = .ok (some (op, c'))) : Counted M A (k + 1) c' ∧ c'.phase ≠ .new ∧ tickCount [op] = 1 := by
  have hop : ∀ c1, Coder.rest M aux au c1 = .ok (some (op, c')) → tickCount [op] = 1 := by
    intro c1 h
    unfold Coder.rest at h
    cases hf : Coder.flip aux c1 with
    | error e => rw [hf] at h; cases h
    | ok c2 =>
      rw [hf, Except.bind_ok] at h
      cases ht : Coder.tickOp M c2 au with
      | error e => rw [ht] at h; cases h
      | ok r =>
        rw [ht, Except.bind_ok] at h
        have hr : r = (op, c') := Option.some.inj (Except.ok.inj h)
        subst hr
        unfold Coder.tickOp at ht
        cases hg : c2.gen with
        | none => rw [hg] at ht; cases ht
        | some g =>
          rw [hg] at ht
          simp only at ht
          cases hn : c2.v.next M.table c2.rng g with
          | error e => rw [hn] at ht; cases ht
          | ok r =>
            obtain ⟨o, v, rng, g'⟩ := r
            rw [hn, Except.bind_ok] at ht
            simp only at ht
            cases htp : tickOpcodes (au * 2 + 34) o.page with
            | error e => rw [htp] at ht; cases ht
            | ok tp =>
              rw [htp, Except.bind_ok] at ht
              cases hnt : Opcode.newTick tp.1 tp.2 o.content o.offsets with
              | error e => simp [hnt, bind, Except.bind] at ht
              | ok oo =>
                simp [hnt, bind, Except.bind, pure, Except.pure] at ht
                obtain ⟨rfl, -⟩ := ht
                unfold Opcode.newTick at hnt
                split at hnt
                · cases hnt
                · cases hnt; rfl
  rw [iter_eq] at h
  unfold Coder.fetch at h
  simp only [h1, h3] at h
  by_cases ht : M.thr (fetched M.thr k) ≤ k + 1
  · rw [if_pos ht] at h
    cases hf : c.frames with
    | nil => rw [hf] at h; cases h
    | cons f fs =>
      rw [hf] at h
      simp only at h
      cases hnf : Coder.newFrame M aux { c with ticks := k + 1, frameNumber := fetched M.thr k + 1, frames := fs } f with
      | error e => rw [hnf] at h; cases h
      | ok c1 =>
        rw [hnf] at h
        obtain ⟨a1, a2, a3, a4⟩ := newFrame_same hnf
        obtain ⟨b1, b2, b3, b4⟩ := rest_same (c := c1) h
        refine ⟨⟨by rw [b3, a3], by rw [b2, a2]; exact h2, ?_⟩, by rw [b1, a1]; exact hp, hop c1 h⟩
        rw [b4, a4, fetched_succ, if_pos ht]
  · rw [if_neg ht] at h
    obtain ⟨b1, b2, b3, b4⟩ := rest_same (c := { c with ticks := k + 1, frameNumber := fetched M.thr k }) h
    refine ⟨⟨by rw [b3], by rw [b2]; exact h2, ?_⟩, by rw [b1]; exact hp, hop _ h⟩
    rw [b4, fetched_succ, if_neg ht]

theorem next_count {M : Movie} {aux : Bool} {c c' : Coder} {op : Opcode} {A : List Int} {k : Nat} (hc : Counted M A k c)
    (h : Coder.next M aux c = .ok (some (op, c'))) : ∃ k', Counted M A k' c' ∧ k' = k + tickCount [op] ∧ c'.phase ≠ .new ∧
      (c.phase ≠ .new → tickCount [op] = 1) := by
  by_cases hp : c.phase = .new
  · unfold Coder.next at h
    rw [hp] at h
    simp only at h
    cases h
    exact ⟨k, ⟨hc.ticks, hc.audio, hc.number⟩, rfl, (fun h => by cases h), fun h => absurd hp h⟩
  · cases ha : c.audio with
    | nil => rw [next_nil hp ha] at h; cases h
    | cons au rest =>
      rw [next_cons hp ha] at h
      have e1 : (c.entered aux rest).phase ≠ .new := by
        unfold Coder.entered
        split
        · intro h; cases h
        · exact hp
      have e2 : (c.entered aux rest).audio = A.drop (k + 1) := by
        show rest = _
        have := hc.audio
        rw [ha] at this
        rw [← List.drop_drop, ← this, List.drop_one, List.tail_cons]
      obtain ⟨a1, a2, a3⟩ := iter_count e1 ((entered_ticks ..).trans hc.ticks) e2 ((entered_number ..).trans hc.number) h
      exact ⟨k + 1, a1, by rw [a3], a2, fun _ => a3⟩

/-- The invariant that relates the threads to the stream. -/
structure PInv (M : Movie) (G : Grabber) (fs : FS) (A : List Int) (ops : List Opcode) (bytes : List Nat) (s : Prog) : Prop where
  ginv : GInv G fs s.g
  unstarted : s.started = false → s.g = G.start fs
  number : s.main = .running ∨ s.main = .asking → s.coder.frameNumber = s.g.out.length
  loop : s.main = .running ∨ s.main = .asking → ∃ r ops' bytes', s.coder.left < r ∧
    M.emitLoop (Coder.next M) r (s.coder.withF ((wholeVideo G fs).1.drop s.g.out.length)) s.pos s.aux = .ok (ops', bytes') ∧
    bytes = s.out ++ bytes' ∧ (s.coder.phase = .new → s.pos = 0) ∧
    ∃ done, ops = done ++ ops' ∧ Counted M A (tickCount done) s.coder
  run : s.main = .running → s.started = true → s.g.consumer = .yielded
  ask : s.main = .asking → s.started = true ∧ s.coder.needsFrame M = true ∧ (s.g.consumer = .get ∨ s.g.consumer = .join)
  fin : s.main = .finished → s.out = bytes ∧ ((wholeVideo G fs).2 = .ends ∨ A.length ≤ tickCount ops ∨
    fetched M.thr (tickCount ops + 1) ≤ (wholeVideo G fs).1.length)
  raised : ∀ e, s.main = .raised e → (wholeVideo G fs).2 = .raises e ∧ s.out ++ (M.done s.pos).2 = bytes ∧
    tickCount ops < A.length ∧ (wholeVideo G fs).1.length < fetched M.thr (tickCount ops + 1)

/-- The heart: one resumption of the encoder, given the frames it would see in `Movie.stream`. -/
theorem resume_inv {M : Movie} {c : Coder} {aux : Bool} {pos r : Nat} {X Y : List Frame} {fr : List Frame}
    {ops' : List Opcode} {bytes' : List Nat}
    (hloop : M.emitLoop (Coder.next M) r (c.withF X) pos aux = .ok (ops', bytes')) (hr : c.left < r)
    (hnext : Coder.next M aux (c.withF X) = nextF Y (Coder.next M aux (c.withF fr))) {s : Prog}
    (hc : s.coder = c) (hpos : s.pos = pos) (haux : s.aux = aux) :
    ((s.resume M fr).main = .finished ∧ (s.resume M fr).out = s.out ++ bytes' ∧ ops' = [.terminate] ∧
      (Coder.next M aux (c.withF fr) = .ok none ∨
        (M.atLimit pos = true ∧ ∃ op c', Coder.next M aux (c.withF fr) = .ok (some (op, c'))))) ∨
    ((s.resume M fr).main = .running ∧ (s.resume M fr).coder.left + 1 = c.left ∧
      (s.resume M fr).coder.frameNumber = c.frameNumber + (if c.needsFrame M then 1 else 0) ∧
      ∃ r' ops2 bytes2, (s.resume M fr).coder.left < r' ∧
        M.emitLoop (Coder.next M) r' ((s.resume M fr).coder.withF Y) (s.resume M fr).pos (s.resume M fr).aux = .ok (ops2, bytes2) ∧
        s.out ++ bytes' = (s.resume M fr).out ++ bytes2 ∧
        ∃ op ops1, ops' = op :: ops1 ++ ops2 ∧ tickCount ops1 = 0 ∧
          Coder.next M aux (c.withF fr) = .ok (some (op, (s.resume M fr).coder))) := by
  subst hc hpos haux
  obtain ⟨r, rfl⟩ : ∃ k, r = k + 1 := ⟨r - 1, by omega⟩
  unfold Movie.emitLoop at hloop
  rw [hnext] at hloop
  unfold Prog.resume
  rw [show ({ s.coder with frames := fr } : Coder) = s.coder.withF fr from rfl]
  cases hn : Coder.next M s.aux (s.coder.withF fr) with
  | error e => rw [hn] at hloop; cases hloop
  | ok o =>
    rw [hn] at hloop
    cases o with
    | none =>
      left
      have := Except.ok.inj hloop
      exact ⟨rfl, by rw [this], (congrArg Prod.fst this).symm, .inl rfl⟩
    | some oc =>
      obtain ⟨op, c'⟩ := oc
      simp only [nextF, bind, Except.bind] at hloop
      simp only
      obtain ⟨q1, q2⟩ := next_progress hn
      split at hloop
      · rename_i hlim
        left
        rw [if_pos hlim]
        have := Except.ok.inj hloop
        exact ⟨rfl, by rw [this], (congrArg Prod.fst this).symm, .inr ⟨hlim, op, c', rfl⟩⟩
      · rename_i hlim
        rw [if_neg hlim]
        right
        cases ha : M.ackIfDue (s.pos + (op.emit M.addr).length) s.aux with
        | error e => rw [ha] at hloop; cases hloop
        | ok v =>
          obtain ⟨ops1, b1, pos1, aux1⟩ := v
          rw [ha] at hloop
          simp only at hloop ⊢
          cases hl : M.emitLoop (Coder.next M) r (c'.withF Y) pos1 aux1 with
          | error e => rw [hl] at hloop; cases hloop
          | ok res =>
            rw [hl] at hloop
            obtain ⟨ops2, b2⟩ := res
            have hh := Except.ok.inj hloop
            have hb : bytes' = op.emit M.addr ++ b1 ++ b2 := (congrArg Prod.snd hh).symm
            refine ⟨trivial, q1, q2, r, ops2, b2, ?_, hl, ?_, op, ops1, ?_, ?_, rfl⟩
            · have : (s.coder.withF fr).left = s.coder.left := rfl
              omega
            · rw [hb]; simp [List.append_assoc]
            · exact (congrArg Prod.fst hh).symm
            · unfold Movie.ackIfDue at ha
              split at ha
              · simp only [bind, Except.bind, pyAssert] at ha
                split at ha
                · cases ha
                · cases ha; rfl
              · cases ha; rfl

theorem rest_some {M : Movie} {aux : Bool} {c : Coder} {au : Int} : Coder.rest M aux au c ≠ .ok none := by
  intro h
  unfold Coder.rest at h
  cases hf : Coder.flip aux c with
  | error e => rw [hf] at h; cases h
  | ok c1 =>
    rw [hf, Except.bind_ok] at h
    cases ht : Coder.tickOp M c1 au with
    | error e => rw [ht] at h; cases h
    | ok r => rw [ht] at h; cases h

/-- Why the encoder ends. -/
theorem next_none {M : Movie} {aux : Bool} {c : Coder} (h : Coder.next M aux c = .ok none) :
    c.audio = [] ∨ (c.needsFrame M = true ∧ c.frames = []) := by
  by_cases hp : c.phase = .new
  · unfold Coder.next at h
    rw [hp] at h
    cases h
  · cases ha : c.audio with
    | nil => exact .inl rfl
    | cons au rest =>
      right
      rw [next_cons hp ha, iter_eq] at h
      unfold Coder.fetch at h
      simp only [entered_number, entered_ticks] at h
      by_cases ht : M.thr c.frameNumber ≤ c.ticks + 1
      · have hn : c.needsFrame M = true := by
          unfold Coder.needsFrame
          split
          · rename_i h1; exact absurd h1 hp
          · rw [ha]; simpa using ht
        refine ⟨hn, ?_⟩
        have hfr : (c.entered aux rest).frames = c.frames := by unfold Coder.entered; split <;> rfl
        rw [if_pos ht, hfr] at h
        cases hf : c.frames with
        | nil => rfl
        | cons f fs =>
          rw [hf] at h
          simp only at h
          cases hnf : Coder.newFrame M aux { (c.entered aux rest) with
              ticks := c.ticks + 1, frameNumber := c.frameNumber + 1, frames := fs } f with
          | error e => rw [hnf] at h; cases h
          | ok c1 => rw [hnf] at h; exact absurd h rest_some
      · rw [if_neg ht] at h
        exact absurd h rest_some

/-- A missing frame: the stream has only its end left. -/
theorem exhausted_inv {M : Movie} {c : Coder} {aux : Bool} {pos r : Nat} {ops' : List Opcode} {bytes' : List Nat}
    (hloop : M.emitLoop (Coder.next M) r (c.withF []) pos aux = .ok (ops', bytes')) (hr : c.left < r)
    (hn : c.needsFrame M = true) : bytes' = (M.done pos).2 ∧ ops' = [.terminate] := by
  obtain ⟨r, rfl⟩ : ∃ k, r = k + 1 := ⟨r - 1, by omega⟩
  unfold Movie.emitLoop at hloop
  rw [next_exhausted hn] at hloop
  have := Except.ok.inj hloop
  exact ⟨(congrArg Prod.snd this).symm, (congrArg Prod.fst this).symm⟩

theorem worker_out {G : Grabber} {s t : GState} (h : G.workerStep s = some t) :
    t.out = s.out ∧ t.consumer = s.consumer := by
  obtain ⟨fs, w, q, c, out⟩ := s
  unfold Grabber.workerStep at h
  simp only at h
  split at h
  · split at h <;> (cases h; exact ⟨rfl, rfl⟩)
  · split at h <;> (cases h; exact ⟨rfl, rfl⟩)
  · split at h
    · cases h; exact ⟨rfl, rfl⟩
    · cases h
  · split at h
    · cases h; exact ⟨rfl, rfl⟩
    · cases h
  · cases h
  · cases h

theorem pinv_worker {M : Movie} {G : Grabber} {fs : FS} {A : List Int} {ops : List Opcode} {bytes : List Nat} {s t : Prog}
    (h : PInv M G fs A ops bytes s) (hs : s.workerStep G = some t) : PInv M G fs A ops bytes t := by
  unfold Prog.workerStep at hs
  split at hs
  · rename_i hst
    cases hw : G.workerStep s.g with
    | none => rw [hw] at hs; cases hs
    | some g =>
      rw [hw] at hs
      cases hs
      obtain ⟨o1, o2⟩ := worker_out hw
      refine ⟨h.ginv.worker hw, fun hn => ?_, ?_, ?_, ?_, ?_, h.fin, h.raised⟩
      · simp only at hn; rw [hst] at hn; cases hn
      · simp only; rw [o1]; exact h.number
      · simp only; rw [o1]; exact h.loop
      · simp only; rw [o2]; exact h.run
      · simp only; rw [o2]; exact h.ask
  · cases hs

/-- What a step of the `frames()` generator does. -/
theorem consumer_cases {G : Grabber} {fs : FS} {s t : GState} (hi : GInv G fs s) (h : s.consumerStep = some t) :
    (s.consumer = .yielded ∧ t.consumer = .get ∧ t.out = s.out) ∨
    (s.consumer = .get ∧ t.consumer = .join ∧ t.out = s.out) ∨
    (s.consumer = .get ∧ t.consumer = .yielded ∧ ∃ f, t.out = s.out ++ [f]) ∨
    (s.consumer = .get ∧ (∃ e, t.consumer = .raised e) ∧ t.out = s.out) ∨
    (s.consumer = .join ∧ t.consumer = .finished ∧ t.out = s.out) := by
  obtain ⟨gfs, w, q, c, out⟩ := s
  unfold GState.consumerStep at h
  cases c with
  | get =>
    simp only at h
    cases q with
    | nil => cases h
    | cons x q =>
      cases x with
      | none => cases h; exact .inr (.inl ⟨rfl, rfl, rfl⟩)
      | some item =>
        simp only at h
        cases hf : item.toFrame with
        | error e => rw [hf] at h; cases h; exact .inr (.inr (.inr (.inl ⟨rfl, ⟨e, rfl⟩, rfl⟩)))
        | ok f => rw [hf] at h; cases h; exact .inr (.inr (.inl ⟨rfl, rfl, f, rfl⟩))
  | yielded => cases h; exact .inl ⟨rfl, rfl, rfl⟩
  | join =>
    cases w <;> simp at h <;> subst h <;> exact .inr (.inr (.inr (.inr ⟨rfl, rfl, rfl⟩)))
  | finished => cases h
  | raised e => cases h

theorem ginv_prefix {G : Grabber} {fs : FS} {s : GState} (hi : GInv G fs s) : s.out <+: (wholeVideo G fs).1 := by
  cases hc : s.consumer with
  | get => rw [← hi.active (.inl hc)]; exact ⟨_, rfl⟩
  | yielded => rw [← hi.active (.inr hc)]; exact ⟨_, rfl⟩
  | join => rw [← (hi.over (.inl hc)).1]
  | finished => rw [← (hi.over (.inr hc)).1]
  | raised e => rw [← hi.raised e hc]

/-- Resuming without looking at the queue. -/
theorem pinv_resume {M : Movie} {G : Grabber} {fs : FS} {A : List Int} {ops : List Opcode} {bytes : List Nat} {s : Prog} {fr : List Frame} {X : List Frame}
    {r : Nat} {ops' : List Opcode} {bytes' : List Nat} (hlim : 0 ≤ M.limit)
    (hg : GInv G fs s.g) (hu : s.started = false → s.g = G.start fs)
    (hy : s.started = true → s.g.consumer = .yielded ∨ ((wholeVideo G fs).2 = .ends ∧ (s.resume M fr).main = .finished))
    (hnum : s.coder.frameNumber + (if s.coder.needsFrame M then 1 else 0) = s.g.out.length ∨
      ((wholeVideo G fs).2 = .ends ∧ (s.resume M fr).main = .finished))
    (hends : fr = [] → s.coder.needsFrame M = true → (wholeVideo G fs).2 = .ends)
    (hloop : M.emitLoop (Coder.next M) r (s.coder.withF X) s.pos s.aux = .ok (ops', bytes')) (hr : s.coder.left < r)
    (hnext : Coder.next M s.aux (s.coder.withF X) =
      nextF ((wholeVideo G fs).1.drop s.g.out.length) (Coder.next M s.aux (s.coder.withF fr)))
    (hb : bytes = s.out ++ bytes' ∧ (s.coder.phase = .new → s.pos = 0) ∧
      ∃ done, ops = done ++ ops' ∧ Counted M A (tickCount done) s.coder) : PInv M G fs A ops bytes (s.resume M fr) := by
  have hsame : (s.resume M fr).g = s.g ∧ (s.resume M fr).started = s.started := by
    unfold Prog.resume
    split
    · exact ⟨rfl, rfl⟩
    · exact ⟨rfl, rfl⟩
    · split
      · exact ⟨rfl, rfl⟩
      · simp only
        split <;> exact ⟨rfl, rfl⟩
  obtain ⟨g1, g2⟩ := hsame
  obtain ⟨hb, hnew, done, hdone, hcnt⟩ := hb
  have hcnt' : Counted M A (tickCount done) (s.coder.withF fr) := ⟨hcnt.ticks, hcnt.audio, hcnt.number⟩
  rcases resume_inv hloop hr hnext (s := s) rfl rfl rfl with ⟨a1, a2, a3, a4⟩ | ⟨a1, a2, a3, r', o2, b2, a4, a5, a6, op, ops1, a7, a8, a9⟩
  · refine ⟨by rw [g1]; exact hg, by rw [g1, g2]; exact hu, ?_, ?_, ?_, ?_, ?_, ?_⟩
    · rw [a1]; rintro (h | h) <;> cases h
    · rw [a1]; rintro (h | h) <;> cases h
    · rw [a1]; intro h; cases h
    · rw [a1]; intro h; cases h
    · intro _
      refine ⟨by rw [a2, hb], ?_⟩
      have hk : tickCount ops = tickCount done := by
        rw [hdone, tickCount_append, a3]; rfl
      rw [hk]
      rcases a4 with h | ⟨hl, op, c', h⟩
      · rcases next_none h with h | ⟨h1, h2⟩
        · right; left
          have : A.drop (tickCount done) = [] := by rw [← hcnt'.audio]; exact h
          exact List.drop_eq_nil_iff.mp this
        · exact .inl (hends h2 h1)
      · rcases hnum with hnum | hnum
        · right; right
          obtain ⟨k', c1, c2, -, c4⟩ := next_count hcnt' h
          obtain ⟨-, q2⟩ := next_progress h
          have hph : s.coder.phase ≠ .new := by
            intro hp
            rw [hnew hp] at hl
            unfold Movie.atLimit at hl
            simp only [decide_eq_true_eq] at hl
            exact hl.1 (Rat.le_antisymm (by simpa using hl.2) hlim)
          rw [c4 hph] at c2
          have : fetched M.thr (tickCount done + 1) = s.g.out.length := by
            rw [← hnum, ← c2, ← c1.number, q2]; rfl
          rw [this]
          exact (ginv_prefix hg).length_le
        · exact .inl hnum.1
    · rw [a1]; intro e h; cases h
  · refine ⟨by rw [g1]; exact hg, by rw [g1, g2]; exact hu, ?_, ?_, ?_, ?_, ?_, ?_⟩
    · intro _
      rw [a3, g1]
      rcases hnum with h | ⟨-, h⟩
      · exact h
      · rw [a1] at h; cases h
    · intro _
      rw [g1]
      obtain ⟨k', c1, c2, c3, -⟩ := next_count hcnt' a9
      refine ⟨r', o2, b2, a4, a5, by rw [hb]; exact a6, fun h => absurd h c3, done ++ op :: ops1, ?_, ?_⟩
      · rw [hdone, a7]; simp
      · have : tickCount (done ++ op :: ops1) = k' := by
          rw [tickCount_append, show op :: ops1 = [op] ++ ops1 from rfl, tickCount_append, a8, c2]; omega
        rw [this]; exact c1
    · intro _ hst
      rw [g2] at hst
      rw [g1]
      rcases hy hst with h | ⟨-, h⟩
      · exact h
      · rw [a1] at h; cases h
    · rw [a1]; intro h; cases h
    · rw [a1]; intro h; cases h
    · rw [a1]; intro e h; cases h

/-- What is left when a frame is missing. -/
theorem missing_frame {M : Movie} {G : Grabber} {fs : FS} {A : List Int} {ops : List Opcode} {bytes : List Nat} {s : Prog}
    (h : PInv M G fs A ops bytes s) (hm : s.main = .asking) (ho : s.g.out = (wholeVideo G fs).1) :
    s.out ++ (M.done s.pos).2 = bytes ∧ tickCount ops < A.length ∧
      (wholeVideo G fs).1.length < fetched M.thr (tickCount ops + 1) := by
  obtain ⟨r, ops', bytes', l1, l2, l3, l4, done, l5, l6⟩ := h.loop (.inr hm)
  obtain ⟨-, hn, -⟩ := h.ask hm
  rw [ho, List.drop_length] at l2
  obtain ⟨e1, e2⟩ := exhausted_inv l2 l1 hn
  obtain ⟨-, ⟨au, rest, ha⟩, ht⟩ := needs_cases hn
  have hk : tickCount ops = tickCount done := by
    rw [l5, tickCount_append, e2]; rfl
  refine ⟨by rw [l3, e1], ?_, ?_⟩
  · rw [hk]
    have := l6.audio
    rw [ha] at this
    by_contra hc
    rw [List.drop_eq_nil_iff.mpr (by omega)] at this
    cases this
  · rw [l6.number, l6.ticks] at ht
    rw [hk, fetched_succ, if_pos ht, ← l6.number, h.number (.inr hm), ho]
    omega

theorem pinv_main {M : Movie} {G : Grabber} {fs : FS} {A : List Int} {ops : List Opcode} {bytes : List Nat} {s t : Prog}
    (hlim : 0 ≤ M.limit) (h : PInv M G fs A ops bytes s) (hs : s.mainStep M = some t) : PInv M G fs A ops bytes t := by
  unfold Prog.mainStep at hs
  cases hm : s.main with
  | running =>
    rw [hm] at hs
    simp only at hs
    obtain ⟨r, ops', bytes', l1, l2, l3⟩ := h.loop (.inl hm)
    cases hn : s.coder.needsFrame M with
    | true =>
      rw [hn, if_pos rfl] at hs
      cases hst : s.started with
      | true =>
        rw [hst, if_pos rfl] at hs
        cases hc : s.g.consumerStep with
        | none => rw [hc] at hs; cases hs
        | some g =>
          rw [hc] at hs
          cases hs
          have hy := h.run hm hst
          rcases consumer_cases h.ginv hc with ⟨c1, c2, c3⟩ | ⟨c1, -⟩ | ⟨c1, -⟩ | ⟨c1, -⟩ | ⟨c1, -⟩
          · refine ⟨h.ginv.consumerStep hc, ?_, ?_, ?_, ?_, ?_, ?_, ?_⟩
            · intro hn'; cases hn'
            · intro _; simp only; rw [c3]; exact h.number (.inl hm)
            · intro _; simp only; rw [c3]; exact ⟨r, ops', bytes', l1, l2, l3⟩
            · intro hh; cases hh
            · intro _; exact ⟨rfl, hn, .inl c2⟩
            · intro hh; cases hh
            · intro e hh; cases hh
          all_goals rw [hy] at c1; cases c1
      | false =>
        rw [hst, if_neg (by decide)] at hs
        cases hs
        have hg0 := h.unstarted hst
        refine ⟨h.ginv, ?_, ?_, ?_, ?_, ?_, ?_, ?_⟩
        · intro hn'; cases hn'
        · intro _; exact h.number (.inl hm)
        · intro _; exact ⟨r, ops', bytes', l1, l2, l3⟩
        · intro hh; cases hh
        · intro _; refine ⟨rfl, hn, .inl ?_⟩; simp only; rw [hg0]; rfl
        · intro hh; cases hh
        · intro e hh; cases hh
    | false =>
      rw [hn, if_neg (by decide)] at hs
      cases hs
      refine pinv_resume hlim h.ginv h.unstarted (fun hst => .inl (h.run hm hst)) (.inl ?_) (fun _ h => by rw [hn] at h; cases h) l2 l1 (next_idle hn _) l3
      rw [hn]
      simpa using h.number (.inl hm)
  | asking =>
    rw [hm] at hs
    simp only at hs
    obtain ⟨r, ops', bytes', l1, l2, l3⟩ := h.loop (.inr hm)
    obtain ⟨hst, hn, hcons⟩ := h.ask hm
    cases hc : s.g.consumerStep with
    | none => rw [hc] at hs; cases hs
    | some g =>
      rw [hc] at hs
      have hgi := h.ginv.consumerStep hc
      rcases consumer_cases h.ginv hc with ⟨c1, -⟩ | ⟨c1, c2, c3⟩ | ⟨c1, c2, f, c3⟩ | ⟨c1, ⟨e, c2⟩, c3⟩ | ⟨c1, c2, c3⟩
      · rw [c1] at hcons; rcases hcons with hh | hh <;> cases hh
      · -- the sentinel has been found
        simp only [c2] at hs
        cases hs
        refine ⟨hgi, ?_, ?_, ?_, ?_, ?_, ?_, ?_⟩
        · intro hn'; first | cases hn' | cases hst.symm.trans hn'
        · intro _; simp only; rw [c3]; exact h.number (.inr hm)
        · intro _; simp only; rw [c3]; exact ⟨r, ops', bytes', l1, l2, l3⟩
        · intro hh; cases hh
        · intro _; exact ⟨hst, hn, .inr c2⟩
        · intro hh; cases hh
        · intro e hh; cases hh
      · -- a frame
        simp only [c2] at hs
        cases hs
        have hl : g.out.getLast?.toList = [f] := by rw [c3]; simp
        rw [hl]
        have hp := ginv_prefix hgi
        have hd : (wholeVideo G fs).1.drop s.g.out.length = f :: (wholeVideo G fs).1.drop g.out.length := by
          obtain ⟨tl, htl⟩ := hp
          rw [← htl, c3]
          simp
        rw [hd] at l2
        refine pinv_resume hlim (s := { s with g := g }) (X := f :: (wholeVideo G fs).1.drop g.out.length) hgi ?_ (fun _ => .inl c2) (.inl ?_) (fun h => by cases h) l2 l1 (next_frame hn f _) l3
        · intro hn'; first | cases hn' | cases hst.symm.trans hn'
        · simp only [hn, if_true, c3, List.length_append, List.length_singleton]
          rw [h.number (.inr hm)]
      · -- a frame that cannot be used
        simp only [c2] at hs
        cases hs
        have hw := hgi.raised e c2
        have ho : s.g.out = (wholeVideo G fs).1 := by rw [← c3]; exact congrArg Prod.fst hw
        refine ⟨hgi, ?_, ?_, ?_, ?_, ?_, ?_, ?_⟩
        · intro hn'; first | cases hn' | cases hst.symm.trans hn'
        · rintro (hh | hh) <;> cases hh
        · rintro (hh | hh) <;> cases hh
        · intro hh; cases hh
        · intro hh; cases hh
        · intro hh; cases hh
        · intro e' hh
          simp only at hh
          cases hh
          exact ⟨(congrArg Prod.snd hw).symm, missing_frame (s := s) h hm ho⟩
      · -- the end
        simp only [c2] at hs
        cases hs
        have hw := (hgi.over (.inr c2)).1
        have ho : s.g.out = (wholeVideo G fs).1 := by rw [← c3]; exact congrArg Prod.fst hw
        have hfin : (Prog.resume M { s with g := g } []).main = .finished := by
          unfold Prog.resume
          rw [show Coder.next M s.aux { s.coder with frames := [] } = .ok none from next_exhausted hn]
        rw [← ho, List.drop_length] at l2
        have hen : (wholeVideo G fs).2 = .ends := (congrArg Prod.snd hw).symm
        refine pinv_resume hlim (s := { s with g := g }) (X := []) hgi ?_ (fun _ => .inr ⟨hen, hfin⟩) (.inr ⟨hen, hfin⟩) (fun _ _ => hen) l2 l1 ?_ l3
        · intro hn'; first | cases hn' | cases hst.symm.trans hn'
        · simp only
          rw [next_exhausted hn]; rfl
  | finished => rw [hm] at hs; cases hs
  | raised e => rw [hm] at hs; cases hs

theorem pinv_start {M : Movie} {G : Grabber} {fs : FS} {tape : Nat → Nat} {A : List Int} {ops : List Opcode}
    {bytes : List Nat} (hs : M.stream tape A (wholeVideo G fs).1 = .ok (ops, bytes)) {s : Prog}
    (h0 : Prog.start M G tape A fs = .ok s) : PInv M G fs A ops bytes s := by
  unfold Prog.start Movie.start at h0
  unfold Movie.stream Movie.start at hs
  cases hv : Video.new M.mode with
  | error e => rw [hv] at h0; cases h0
  | ok v =>
    rw [hv] at h0 hs
    cases h0
    refine ⟨gInv_start G fs, fun _ => rfl, fun _ => rfl, fun _ => ?_, ?_, ?_, ?_, ?_⟩
    · exact ⟨A.length + 2, ops, bytes, by simp [Coder.left]; omega, hs, rfl, fun _ => rfl, [], rfl, rfl, rfl, rfl⟩
    · intro _ hh; cases hh
    · intro hh; cases hh
    · intro hh; cases hh
    · intro e hh; cases hh

theorem pinv_steps {M : Movie} {G : Grabber} {fs : FS} {A : List Int} {ops : List Opcode} {bytes : List Nat} {s t : Prog} {n : Nat}
    (hlim : 0 ≤ M.limit) (hs : PInv M G fs A ops bytes s) (h : Prog.Steps M G n s t) : PInv M G fs A ops bytes t := by
  induction h with
  | zero => exact hs
  | succ _ hst ih =>
    cases hst with
    | worker hw => exact pinv_worker (ih hs) hw
    | main hm => exact pinv_main hlim (ih hs) hm

/-! ### Every execution is finite -/

def MainStatus.weight : MainStatus → Nat
  | .running => 1
  | .asking => 1
  | _ => 0

/-- Decreases with every step. -/
def Prog.weight (s : Prog) : Nat :=
  s.g.weight + (if s.started then 0 else 1) + s.coder.left + s.main.weight

theorem resume_weight {M : Movie} {s : Prog} {fr : List Frame} (h : s.main.weight = 1) :
    (s.resume M fr).g = s.g ∧ (s.resume M fr).started = s.started ∧
    (s.resume M fr).coder.left + (s.resume M fr).main.weight < s.coder.left + s.main.weight := by
  unfold Prog.resume
  cases hn : Coder.next M s.aux { s.coder with frames := fr } with
  | error e => refine ⟨rfl, rfl, ?_⟩; rw [h]; exact Nat.lt_succ_self _
  | ok o =>
    cases o with
    | none => refine ⟨rfl, rfl, ?_⟩; rw [h]; exact Nat.lt_succ_self _
    | some oc =>
      obtain ⟨op, c'⟩ := oc
      obtain ⟨q1, -⟩ := next_progress hn
      have : ({ s.coder with frames := fr } : Coder).left = s.coder.left := rfl
      simp only
      split
      · refine ⟨rfl, rfl, ?_⟩; rw [h]; exact Nat.lt_succ_self _
      · split
        · refine ⟨rfl, rfl, ?_⟩; rw [h]; exact Nat.lt_succ_self _
        · refine ⟨rfl, rfl, ?_⟩; rw [h]; simp only [MainStatus.weight]; omega

theorem prog_step_weight {M : Movie} {G : Grabber} {s t : Prog} (h : Prog.Step M G s t) : t.weight < s.weight := by
  cases h with
  | worker hs =>
    unfold Prog.workerStep at hs
    split at hs
    · cases hw : G.workerStep s.g with
      | none => rw [hw] at hs; cases hs
      | some g =>
        rw [hw] at hs; cases hs
        have := step_weight (.worker hw)
        unfold Prog.weight; simp only; omega
    · cases hs
  | main hs =>
    unfold Prog.mainStep at hs
    cases hm : s.main with
    | running =>
      rw [hm] at hs
      simp only at hs
      split at hs
      · split at hs
        · cases hc : s.g.consumerStep with
          | none => rw [hc] at hs; cases hs
          | some g =>
            rw [hc] at hs; cases hs
            have := step_weight (G := G) (.consumer hc)
            unfold Prog.weight; simp only [hm, MainStatus.weight]; omega
        · rename_i hst
          cases hs
          unfold Prog.weight; simp only [hm, MainStatus.weight, hst, if_true]; simp
      · cases hs
        obtain ⟨a1, a2, a3⟩ := resume_weight (M := M) (s := s) (fr := []) (by rw [hm]; rfl)
        unfold Prog.weight; rw [a1, a2]; omega
    | asking =>
      rw [hm] at hs
      simp only at hs
      cases hc : s.g.consumerStep with
      | none => rw [hc] at hs; cases hs
      | some g =>
        rw [hc] at hs
        have hw := step_weight (G := G) (.consumer hc)
        simp only at hs
        split at hs
        · cases hs
          obtain ⟨a1, a2, a3⟩ := resume_weight (M := M) (s := { s with g := g, main := .asking }) (fr := g.out.getLast?.toList) rfl
          unfold Prog.weight; rw [a1, a2, hm]; simp only [MainStatus.weight] at a3 ⊢; omega
        · cases hs
          obtain ⟨a1, a2, a3⟩ := resume_weight (M := M) (s := { s with g := g, main := .asking }) (fr := []) rfl
          unfold Prog.weight; rw [a1, a2, hm]; simp only [MainStatus.weight] at a3 ⊢; omega
        · cases hs; unfold Prog.weight; simp only [hm, MainStatus.weight]; omega
        · cases hs; unfold Prog.weight; simp only [hm]; omega
    | finished => rw [hm] at hs; cases hs
    | raised e => rw [hm] at hs; cases hs

theorem prog_steps_weight {M : Movie} {G : Grabber} {n : Nat} {s t : Prog} (h : Prog.Steps M G n s t) :
    n + t.weight ≤ s.weight := by
  induction h with
  | zero => omega
  | succ _ hst ih => have := prog_step_weight hst; omega

end IIVision
