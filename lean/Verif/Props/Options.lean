import Verif.Props.Program

/-! The transcoder with option values that make no sense: a negative size limit, a frame stride of 0. -/

namespace IIVision
open Spec

/-- How many operations on header bytes. -/
theorem header_length (mode : VideoMode) (addr : AddrTable) : (Opcode.emit addr (.header mode)).length = 7 := by
  cases mode <;> rfl

theorem start_eq {a : Args} {w : World} {fs : FS} {A : List Int} (hA : a.audio w = .ok A) {s0 : Prog} (h : a.start w fs = .ok s0) :
    s0.g = (a.grabber w).start fs ∧ s0.started = false ∧ s0.main = .running ∧ s0.coder.phase = .new ∧ s0.coder.audio = A ∧
    s0.coder.ticks = 0 ∧ s0.coder.frameNumber = 0 ∧ s0.pos = 0 ∧ s0.aux = false ∧ s0.out = [] ∧
    s0.weight = 4 * w.images.length + A.length + 7 := by
  unfold Args.start at h
  rw [hA, Except.bind_ok] at h
  unfold Prog.start Movie.start at h
  obtain ⟨v, hv, -⟩ := videoNew_ok (a.movie w).mode
  rw [hv] at h
  cases h
  refine ⟨rfl, rfl, rfl, rfl, rfl, rfl, rfl, rfl, rfl, rfl, ?_⟩
  simp [Prog.weight, GState.weight, Grabber.start, Worker.weight, Consumer.weight, Coder.left, MainStatus.weight, Args.grabber]
  omega

/-- C74: with a negative size limit the file consists of TERMINATE and padding only, without even a
header; no picture is converted. -/
theorem C74_negative_limit {a : Args} {w : World} {fs : FS} {A : List Int} (hA : a.audio w = .ok A) (hm : a.maxMb < 0) {n : Nat} {s : Prog}
    (h : Execution a w fs n s) :
    n ≤ 1 ∧ s.g.fs = fs ∧ s.started = false ∧
    (s.main = .running ∧ s.out = [] ∨
     s.main = .finished ∧ s.out = Opcode.terminate.emit w.addr ++ List.replicate (2048 - (Opcode.terminate.emit w.addr).length % 2048) 0) ∧
    (Halted a w s → s.main = .finished) := by
  obtain ⟨s0, hs0, hst⟩ := h
  obtain ⟨e1, e2, e3, e4, e5, e6, e7, e8, e9, e10, -⟩ := start_eq hA hs0
  have hlim : (a.movie w).atLimit 0 = true := by
    have h1 : (a.movie w).limit < 0 := by
      show (1024 * 1024 * a.maxMb : Rat) < 0
      linarith
    unfold Movie.atLimit
    simp only [decide_eq_true_eq]
    exact ⟨h1.ne, by simpa using h1.le⟩
  have hnf : s0.coder.needsFrame (a.movie w) = false := by unfold Coder.needsFrame; rw [e4]
  have hres : s0.mainStep (a.movie w) = some { s0 with main := .finished, out := s0.out ++ ((a.movie w).done 0).2 } := by
    unfold Prog.mainStep
    rw [e3]
    simp only
    rw [hnf, if_neg (by decide)]
    unfold Prog.resume Coder.next
    simp only [e4]
    rw [e8, if_pos hlim]
  have hw : ∀ t : Prog, t.started = false → t.workerStep (a.grabber w) = none := by
    intro t ht; unfold Prog.workerStep; rw [ht]; rfl
  have key : ∀ n s, Prog.Steps (a.movie w) (a.grabber w) n s0 s →
      (n = 0 ∧ s = s0) ∨ (n = 1 ∧ s = { s0 with main := .finished, out := s0.out ++ ((a.movie w).done 0).2 }) := by
    intro n s h
    induction h with
    | zero => exact .inl ⟨rfl, rfl⟩
    | @succ n _ t u _ hu ih =>
      rcases ih hs0 hst e1 e2 e3 e4 e5 e6 e7 e8 e9 e10 hnf hres with ⟨rfl, rfl⟩ | ⟨rfl, rfl⟩
      · cases hu with
        | worker h => rw [hw _ e2] at h; cases h
        | main h => rw [hres] at h; cases h; exact .inr ⟨rfl, rfl⟩
      · cases hu with
        | worker h => rw [hw _ (by exact e2)] at h; cases h
        | main h => cases h
  rcases key n s hst with ⟨rfl, rfl⟩ | ⟨rfl, rfl⟩
  · refine ⟨by omega, by rw [e1]; rfl, e2, .inl ⟨e3, e10⟩, fun hh => ?_⟩
    exact absurd ⟨_, .main hres⟩ hh
  · refine ⟨by omega, by show s0.g.fs = fs; rw [e1]; rfl, e2, .inr ⟨rfl, ?_⟩, fun _ => rfl⟩
    simp only [e10, List.nil_append, Movie.done, Nat.zero_add]
    rfl

/-- The invariant for a stride of 0. -/
structure ZInv (M : Movie) (G : Grabber) (fs : FS) (A : List Int) (s : Prog) : Prop where
  ginv : GInv G fs s.g
  unstarted : s.started = false → s.g = G.start fs
  state :
    (s.main = .running ∧ s.started = false ∧ s.coder.phase = .new ∧ s.pos = 0 ∧ s.out = [] ∧ s.coder.frameNumber = 0 ∧
      s.coder.ticks = 0 ∧ s.coder.audio = A) ∨
    (s.main = .running ∧ s.started = false ∧ s.coder.phase = .header ∧ s.out = Opcode.emit M.addr (.header M.mode) ∧
      s.coder.frameNumber = 0 ∧ s.coder.ticks = 0 ∧ s.coder.audio = A) ∨
    (s.main = .asking ∧ s.started = true ∧ s.coder.phase = .header ∧ s.out = Opcode.emit M.addr (.header M.mode) ∧
      s.coder.frameNumber = 0 ∧ s.coder.ticks = 0 ∧ s.coder.audio = A ∧ s.g.consumer = .get ∧ s.g.out = []) ∨
    (s.main = .raised .zeroDivisionError ∧ s.out = Opcode.emit M.addr (.header M.mode))

theorem zinv_step {M : Movie} {G : Grabber} {fs : FS} {A : List Int} (hz : M.everyN = 0) (hl : 0 ≤ M.limit) (ht : M.thr 0 = 0) (hA : A ≠ [])
    (hv : (wholeVideo G fs).1 ≠ []) {s t : Prog} (hi : ZInv M G fs A s) (h : Prog.Step M G s t) : ZInv M G fs A t := by
  cases h with
  | worker hw =>
    unfold Prog.workerStep at hw
    cases hst : s.started with
    | false => rw [hst] at hw; cases hw
    | true =>
      rw [hst, if_pos rfl] at hw
      cases hg : G.workerStep s.g with
      | none => rw [hg] at hw; cases hw
      | some g =>
        rw [hg] at hw
        cases hw
        obtain ⟨o1, o2⟩ := worker_out hg
        refine ⟨hi.ginv.worker hg, fun h => (by cases h), ?_⟩
        rcases hi.state with ⟨-, h, -⟩ | ⟨-, h, -⟩ | ⟨a1, a2, a3, a4, a5, a6, a7, a8, a9⟩ | h
        · rw [hst] at h; cases h
        · rw [hst] at h; cases h
        · exact .inr (.inr (.inl ⟨a1, rfl, a3, a4, a5, a6, a7, by simp only [o1, o2, a8, a9], by simp only [o1, o2, a8, a9]⟩))
        · exact .inr (.inr (.inr h))
  | main hm =>
    unfold Prog.mainStep at hm
    rcases hi.state with ⟨a1, a2, a3, a4, a5, a6, a7, a8⟩ | ⟨a1, a2, a3, a4, a5, a6, a7⟩ | ⟨a1, a2, a3, a4, a5, a6, a7, a8, a9⟩ | ⟨a1, a2⟩
    · rw [a1] at hm
      simp only at hm
      rw [show s.coder.needsFrame M = false by unfold Coder.needsFrame; rw [a3], if_neg (by decide)] at hm
      unfold Prog.resume Coder.next at hm
      simp only [a3] at hm
      have hlim : M.atLimit s.pos = false := by
        rw [a4]; unfold Movie.atLimit
        simp only [decide_eq_false_iff_not]
        rintro ⟨h1, h2⟩
        exact h1 (le_antisymm (by simpa using h2) hl)
      rw [hlim, if_neg (by decide)] at hm
      have hack : M.ackIfDue (s.pos + (Opcode.emit M.addr (.header M.mode)).length) s.aux =
          .ok ([], [], s.pos + (Opcode.emit M.addr (.header M.mode)).length, s.aux) := by
        unfold Movie.ackIfDue
        rw [header_length, a4]
        rfl
      simp only [hack] at hm
      cases hm
      refine ⟨hi.ginv, hi.unstarted, .inr (.inl ⟨rfl, a2, rfl, ?_, a6, a7, a8⟩)⟩
      simp only [a5, List.nil_append, List.append_nil]
    · rw [a1] at hm
      simp only at hm
      have hn : s.coder.needsFrame M = true := by
        unfold Coder.needsFrame
        rw [a3, a7, a5, a6, ht]
        cases A with
        | nil => exact absurd rfl hA
        | cons x l => simp
      rw [hn, if_pos rfl, a2, if_neg (by decide)] at hm
      cases hm
      have hg := hi.unstarted a2
      refine ⟨hi.ginv, fun h => (by cases h), .inr (.inr (.inl ⟨rfl, rfl, a3, a4, a5, a6, a7, ?_, ?_⟩))⟩
      · show s.g.consumer = .get; rw [hg]; rfl
      · show s.g.out = []; rw [hg]; rfl
    · rw [a1] at hm
      simp only at hm
      cases hc : s.g.consumerStep with
      | none => rw [hc] at hm; cases hm
      | some g =>
        rw [hc] at hm
        have hgi := hi.ginv.consumerStep hc
        rcases consumer_cases hi.ginv hc with ⟨c1, -⟩ | ⟨c1, c2, c3⟩ | ⟨c1, c2, f, c3⟩ | ⟨c1, ⟨e, c2⟩, c3⟩ | ⟨c1, -⟩
        · rw [a8] at c1; cases c1
        · have := congrArg Prod.fst (hgi.over (.inl c2)).1
          simp only [c3, a9] at this
          exact absurd this.symm hv
        · simp only [c2] at hm
          cases hm
          have hl : g.out.getLast?.toList = [f] := by rw [c3]; simp
          rw [hl]
          have hnext : Coder.next M s.aux { s.coder with frames := [f] } = .error .zeroDivisionError := by
            cases hA' : A with
            | nil => exact absurd hA' hA
            | cons x l =>
              unfold Coder.next
              simp only [a3, a7, hA']
              unfold Coder.iter Coder.fetch
              simp only [if_true, a5, a6, ht, Nat.zero_le]
              unfold Coder.newFrame Movie.shouldEncode
              rw [if_pos hz]
              rfl
          have hr : Prog.resume M { s with g := g } [f] = { s with g := g, main := .raised .zeroDivisionError } := by
            unfold Prog.resume
            simp only [hnext]
          simp only [a1] at hr ⊢
          rw [hr]
          exact ⟨hgi, fun h => (by rw [a2] at h; cases h), .inr (.inr (.inr ⟨rfl, a4⟩))⟩
        · have := congrArg Prod.fst (hgi.raised e c2)
          simp only [c3, a9] at this
          exact absurd this.symm hv
        · rw [a8] at c1; cases c1
    · rw [a1] at hm; cases hm

/-- C74: with a stride of 0 (and some sound, and a first picture that can be converted) the program never
writes more than the header, and ends with ZeroDivisionError when the first frame is due, for every
interleaving of its threads. -/
theorem C74_stride_zero {a : Args} {w : World} {fs : FS} {A : List Int} (hA : a.audio w = .ok A) (hz : a.everyN = 0) (hm : 0 ≤ a.maxMb)
    (ht : w.thr 0 = 0) (hne : A ≠ []) (hv : (Args.video a w fs).1 ≠ []) {n : Nat} {s : Prog} (h : Execution a w fs n s) :
    (s.out = [] ∨ s.out = Opcode.emit w.addr (.header a.mode)) ∧ s.main ≠ .finished ∧ n ≤ 4 * w.images.length + A.length + 7 ∧
    (Halted a w s → s.main = .raised .zeroDivisionError ∧ s.out = Opcode.emit w.addr (.header a.mode)) := by
  obtain ⟨s0, hs0, hst⟩ := h
  obtain ⟨e1, e2, e3, e4, e5, e6, e7, e8, e9, e10, e11⟩ := start_eq hA hs0
  have hlim : 0 ≤ (a.movie w).limit := by
    show (0 : Rat) ≤ 1024 * 1024 * a.maxMb
    linarith
  have h0 : ZInv (a.movie w) (a.grabber w) fs A s0 :=
    ⟨by rw [e1]; exact gInv_start _ _, fun _ => e1, .inl ⟨e3, e2, e4, e8, e10, e7, e6, e5⟩⟩
  have hw := prog_steps_weight hst
  have hi : ZInv (a.movie w) (a.grabber w) fs A s := by
    clear hw
    have key : ∀ n s0 s, Prog.Steps (a.movie w) (a.grabber w) n s0 s → ZInv (a.movie w) (a.grabber w) fs A s0 →
        ZInv (a.movie w) (a.grabber w) fs A s := by
      intro n s0 s h
      induction h with
      | zero => exact id
      | succ _ hu ih => exact fun h => zinv_step hz hlim ht hne hv (ih h) hu
    exact key n s0 s hst h0
  refine ⟨?_, ?_, by omega, ?_⟩
  · rcases hi.state with ⟨_, _, _, _, h, _⟩ | ⟨_, _, _, h, _⟩ | ⟨_, _, _, h, _⟩ | ⟨_, h⟩
    · exact .inl h
    all_goals exact .inr h
  · rcases hi.state with ⟨h, _⟩ | ⟨h, _⟩ | ⟨h, _⟩ | ⟨h, _⟩ <;> (rw [h]; exact fun h => nomatch h)
  · intro hh
    have hmain : s.mainStep (a.movie w) = none := by
      cases hx : s.mainStep (a.movie w) with
      | none => rfl
      | some t => exact absurd ⟨t, .main hx⟩ hh
    rcases hi.state with ⟨a1, a2, a3, -⟩ | ⟨a1, a2, -⟩ | ⟨a1, a2, a3, a4, a5, a6, a7, a8, a9⟩ | h
    · unfold Prog.mainStep at hmain
      rw [a1] at hmain
      simp only at hmain
      rw [show s.coder.needsFrame (a.movie w) = false by unfold Coder.needsFrame; rw [a3], if_neg (by decide)] at hmain
      cases hmain
    · unfold Prog.mainStep at hmain
      rw [a1, a2] at hmain
      simp only at hmain
      split at hmain <;> cases hmain
    · exfalso
      have hcons : s.g.consumerStep = none := by
        unfold Prog.mainStep at hmain
        rw [a1] at hmain
        simp only at hmain
        cases hx : s.g.consumerStep with
        | none => rfl
        | some g => rw [hx] at hmain; simp only at hmain; split at hmain <;> cases hmain
      have hG : Stopped (a.grabber w) s.g := by
        rintro ⟨t, ht⟩
        cases ht with
        | worker hw1 =>
          refine hh ⟨{ s with g := t }, .worker ?_⟩
          unfold Prog.workerStep
          rw [if_pos a2, hw1]
        | consumer hc => rw [hcons] at hc; cases hc
      rcases stopped_cases hi.ginv hG with hc | ⟨e, hc⟩ | ⟨hc, hq, e, he⟩
      · rw [a8] at hc; cases hc
      · rw [a8] at hc; cases hc
      · have hact := hi.ginv.active (.inl hc)
        rw [hq, he] at hact
        have := congrArg Prod.fst hact
        simp [queued, Grabber.toCome, a9] at this
        exact hv this
    · exact h

/-! ### The hypotheses can be met -/

/-- C74: the demonstration input with these options. -/
example : demoArgs.audio (demoWorld [[1#8]] [.fin 8192] none) = .ok [8] ∧ ({ demoArgs with maxMb := -1 } : Args).maxMb < 0 ∧
    ({ demoArgs with everyN := 0 } : Args).everyN = 0 ∧
    (Args.video { demoArgs with everyN := 0 } (demoWorld [[1#8]] [.fin 8192] none) (fun _ => none)).1 ≠ [] := by
  refine ⟨by decide +kernel, by decide, rfl, ?_⟩
  have h := (demo_video [[1#8]] [.fin 8192] none [[1#8]] 0 (fun _ => none) (by decide) (fun _ _ => rfl)).1
  intro hv
  have h2 : (oneByOne (demoArgs.grabber (demoWorld [[1#8]] [.fin 8192] none)) 0 (fun _ => none) [[1#8]]).1 = [] := hv
  rw [h2] at h
  cases h

end IIVision
