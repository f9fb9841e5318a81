import Verif.Spec.Plain
import Verif.Props.Options

/-! The two threads compared with a simple loop, for every input and all options. -/

namespace IIVision
open Spec

/-- The invariant that relates the threads to the loop. -/
structure QInv (M : Movie) (G : Grabber) (fs : FS) (T : List Nat × Ending) (s : Prog) : Prop where
  ginv : GInv G fs s.g
  unstarted : s.started = false → s.g = G.start fs
  loop : s.main = .running ∨ s.main = .asking → ∃ r, s.coder.left < r ∧
    T = (s.out ++ (plainly M (wholeVideo G fs).2 r (s.coder.withF ((wholeVideo G fs).1.drop s.g.out.length)) s.pos s.aux).1,
      (plainly M (wholeVideo G fs).2 r (s.coder.withF ((wholeVideo G fs).1.drop s.g.out.length)) s.pos s.aux).2)
  run : s.main = .running → s.started = true → s.g.consumer = .yielded
  ask : s.main = .asking → s.started = true ∧ s.coder.needsFrame M = true ∧ (s.g.consumer = .get ∨ s.g.consumer = .join)
  fin : s.main = .finished → T = (s.out, .complete)
  raised : ∀ e, s.main = .raised e → T = (s.out, .raised e)

/-- One resumption of the encoder. -/
theorem plain_resume {M : Movie} {o : Outcome} {r : Nat} {X Y fr : List Frame} {s : Prog} (hr : s.coder.left < r)
    (hnext : Coder.next M s.aux (s.coder.withF X) = nextF Y (Coder.next M s.aux (s.coder.withF fr)))
    (ho : (if s.coder.needsFrame M = true ∧ X = [] then o else .ends) = .ends) {T : List Nat × Ending}
    (hT : T = (s.out ++ (plainly M o r (s.coder.withF X) s.pos s.aux).1, (plainly M o r (s.coder.withF X) s.pos s.aux).2)) :
    ((s.resume M fr).main = .finished ∧ T = ((s.resume M fr).out, .complete)) ∨
    (∃ e, (s.resume M fr).main = .raised e ∧ T = ((s.resume M fr).out, .raised e)) ∨
    ((s.resume M fr).main = .running ∧ (∃ r', (s.resume M fr).coder.left < r' ∧
      T = ((s.resume M fr).out ++ (plainly M o r' ((s.resume M fr).coder.withF Y) (s.resume M fr).pos (s.resume M fr).aux).1,
        (plainly M o r' ((s.resume M fr).coder.withF Y) (s.resume M fr).pos (s.resume M fr).aux).2))) := by
  obtain ⟨r, rfl⟩ : ∃ k, r = k + 1 := ⟨r - 1, by omega⟩
  have hp : plainly M o (r + 1) (s.coder.withF X) s.pos s.aux =
      match Coder.next M s.aux (s.coder.withF X) with
      | .error e => ([], .raised e)
      | .ok none => ((M.done s.pos).2, .complete)
      | .ok (some (op, c)) =>
        if M.atLimit s.pos then ((M.done s.pos).2, .complete)
        else
          match M.ackIfDue (s.pos + (op.emit M.addr).length) s.aux with
          | .error e => (op.emit M.addr, .raised e)
          | .ok (_, b, pos, aux) =>
            let r := plainly M o r c pos aux
            (op.emit M.addr ++ b ++ r.1, r.2) := by
    rw [plainly]
    rw [show (if (s.coder.withF X).needsFrame M = true ∧ (s.coder.withF X).frames = [] then o else Outcome.ends) = .ends from ho]
    rfl
  rw [hp, hnext] at hT
  unfold Prog.resume
  rw [show ({ s.coder with frames := fr } : Coder) = s.coder.withF fr from rfl]
  cases hn : Coder.next M s.aux (s.coder.withF fr) with
  | error e =>
    rw [hn] at hT
    simp only [nextF, List.append_nil] at hT
    exact .inr (.inl ⟨e, rfl, hT⟩)
  | ok oc =>
    rw [hn] at hT
    cases oc with
    | none => exact .inl ⟨rfl, hT⟩
    | some oc =>
      obtain ⟨op, c'⟩ := oc
      simp only [nextF] at hT ⊢
      obtain ⟨q1, -⟩ := next_progress hn
      have hleft : (s.coder.withF fr).left = s.coder.left := rfl
      by_cases hl : M.atLimit s.pos = true
      · rw [if_pos hl] at hT ⊢
        exact .inl ⟨rfl, hT⟩
      · rw [if_neg hl] at hT ⊢
        cases ha : M.ackIfDue (s.pos + (op.emit M.addr).length) s.aux with
        | error e =>
          rw [ha] at hT
          exact .inr (.inl ⟨e, rfl, hT⟩)
        | ok v =>
          obtain ⟨ops1, b1, pos1, aux1⟩ := v
          rw [ha] at hT
          refine .inr (.inr ⟨rfl, r, by simp only; omega, ?_⟩)
          simp only at hT ⊢
          rw [hT]
          simp only [List.append_assoc]

theorem resume_same (M : Movie) (s : Prog) (fr : List Frame) : (s.resume M fr).g = s.g ∧ (s.resume M fr).started = s.started := by
  unfold Prog.resume
  split
  · exact ⟨rfl, rfl⟩
  · exact ⟨rfl, rfl⟩
  · split
    · exact ⟨rfl, rfl⟩
    · simp only
      split <;> exact ⟨rfl, rfl⟩

theorem qinv_resume {M : Movie} {G : Grabber} {fs : FS} {T : List Nat × Ending} {s : Prog} {r : Nat} {X fr : List Frame}
    (hg : GInv G fs s.g) (hu : s.started = false → s.g = G.start fs)
    (hy : s.started = true → s.g.consumer = .yielded ∨ (s.resume M fr).main = .finished) (hr : s.coder.left < r)
    (hnext : Coder.next M s.aux (s.coder.withF X) =
      nextF ((wholeVideo G fs).1.drop s.g.out.length) (Coder.next M s.aux (s.coder.withF fr)))
    (ho : (if s.coder.needsFrame M = true ∧ X = [] then (wholeVideo G fs).2 else .ends) = .ends)
    (hT : T = (s.out ++ (plainly M (wholeVideo G fs).2 r (s.coder.withF X) s.pos s.aux).1,
      (plainly M (wholeVideo G fs).2 r (s.coder.withF X) s.pos s.aux).2)) : QInv M G fs T (s.resume M fr) := by
  obtain ⟨g1, g2⟩ := resume_same M s fr
  rcases plain_resume hr hnext ho hT with ⟨a1, a2⟩ | ⟨e, a1, a2⟩ | ⟨a1, a2⟩
  · refine ⟨by rw [g1]; exact hg, by rw [g1, g2]; exact hu, ?_, ?_, ?_, fun _ => a2, ?_⟩
    · rw [a1]; rintro (h | h) <;> cases h
    all_goals rw [a1]; intros; contradiction
  · refine ⟨by rw [g1]; exact hg, by rw [g1, g2]; exact hu, ?_, ?_, ?_, ?_, ?_⟩
    · rw [a1]; rintro (h | h) <;> cases h
    · rw [a1]; intro h; cases h
    · rw [a1]; intro h; cases h
    · rw [a1]; intro h; cases h
    · rw [a1]; intro e' h; cases h; exact a2
  · refine ⟨by rw [g1]; exact hg, by rw [g1, g2]; exact hu, ?_, ?_, ?_, ?_, ?_⟩
    · intro _; rw [g1]; exact a2
    · intro _ hst
      rw [g2] at hst
      rw [g1]
      rcases hy hst with h | h
      · exact h
      · rw [a1] at h; cases h
    · rw [a1]; intro h; cases h
    · rw [a1]; intro h; cases h
    · rw [a1]; intro e' h; cases h

theorem qinv_worker {M : Movie} {G : Grabber} {fs : FS} {T : List Nat × Ending} {s t : Prog}
    (h : QInv M G fs T s) (hs : s.workerStep G = some t) : QInv M G fs T t := by
  unfold Prog.workerStep at hs
  split at hs
  · rename_i hst
    cases hw : G.workerStep s.g with
    | none => rw [hw] at hs; cases hs
    | some g =>
      rw [hw] at hs
      cases hs
      obtain ⟨o1, o2⟩ := worker_out hw
      refine ⟨h.ginv.worker hw, fun hn => ?_, ?_, ?_, ?_, h.fin, h.raised⟩
      · simp only at hn; rw [hst] at hn; cases hn
      · simp only; rw [o1]; exact h.loop
      · simp only; rw [o2]; exact h.run
      · simp only; rw [o2]; exact h.ask
  · cases hs

/-- When all frames there are have been used and one more is asked for. -/
theorem plain_missing {M : Movie} {o : Outcome} {r : Nat} {c : Coder} {pos : Nat} {aux : Bool} (hr : c.left < r) (hn : c.needsFrame M = true) :
    plainly M o r (c.withF []) pos aux =
      match o with
      | .raises e => ([], .raised e)
      | .hangs _ => ([], .waiting)
      | .ends => ((M.done pos).2, .complete) := by
  obtain ⟨r, rfl⟩ : ∃ k, r = k + 1 := ⟨r - 1, by omega⟩
  rw [plainly, if_pos ⟨hn, rfl⟩]
  cases o with
  | raises e => rfl
  | hangs e => rfl
  | ends => simp only; rw [next_exhausted hn]

theorem qinv_main {M : Movie} {G : Grabber} {fs : FS} {T : List Nat × Ending} {s t : Prog}
    (h : QInv M G fs T s) (hs : s.mainStep M = some t) : QInv M G fs T t := by
  unfold Prog.mainStep at hs
  cases hm : s.main with
  | running =>
    rw [hm] at hs
    simp only at hs
    obtain ⟨r, l1, l2⟩ := h.loop (.inl hm)
    cases hn : s.coder.needsFrame M with
    | true =>
      rw [hn, if_pos rfl] at hs
      cases hst : s.started with
      | true =>
        rw [hst, if_pos rfl] at hs
        cases hc : s.g.consumerStep with
        | none => rw [hc] at hs; cases hs
        | some g =>
          rw [hc] at hs
          cases hs
          have hy := h.run hm hst
          rcases consumer_cases h.ginv hc with ⟨c1, c2, c3⟩ | ⟨c1, -⟩ | ⟨c1, -⟩ | ⟨c1, -⟩ | ⟨c1, -⟩
          · refine ⟨h.ginv.consumerStep hc, ?_, ?_, ?_, ?_, ?_, ?_⟩
            · intro hn'; cases hn'
            · intro _; simp only; rw [c3]; exact ⟨r, l1, l2⟩
            · intro hh; cases hh
            · intro _; exact ⟨rfl, hn, .inl c2⟩
            · intro hh; cases hh
            · intro e hh; cases hh
          all_goals rw [hy] at c1; cases c1
      | false =>
        rw [hst, if_neg (by decide)] at hs
        cases hs
        have hg0 := h.unstarted hst
        refine ⟨h.ginv, ?_, ?_, ?_, ?_, ?_, ?_⟩
        · intro hn'; cases hn'
        · intro _; exact ⟨r, l1, l2⟩
        · intro hh; cases hh
        · intro _; refine ⟨rfl, hn, .inl ?_⟩; simp only; rw [hg0]; rfl
        · intro hh; cases hh
        · intro e hh; cases hh
    | false =>
      rw [hn, if_neg (by decide)] at hs
      cases hs
      refine qinv_resume h.ginv h.unstarted (fun hst => .inl (h.run hm hst)) l1 (next_idle hn _) ?_ l2
      rw [hn]; simp
  | asking =>
    rw [hm] at hs
    simp only at hs
    obtain ⟨r, l1, l2⟩ := h.loop (.inr hm)
    obtain ⟨hst, hn, hcons⟩ := h.ask hm
    cases hc : s.g.consumerStep with
    | none => rw [hc] at hs; cases hs
    | some g =>
      rw [hc] at hs
      have hgi := h.ginv.consumerStep hc
      rcases consumer_cases h.ginv hc with ⟨c1, -⟩ | ⟨c1, c2, c3⟩ | ⟨c1, c2, f, c3⟩ | ⟨c1, ⟨e, c2⟩, c3⟩ | ⟨c1, c2, c3⟩
      · rw [c1] at hcons; rcases hcons with hh | hh <;> cases hh
      · -- the sentinel has been found
        simp only [c2] at hs
        cases hs
        refine ⟨hgi, ?_, ?_, ?_, ?_, ?_, ?_⟩
        · intro hn'; first | cases hn' | cases hst.symm.trans hn'
        · intro _; simp only; rw [c3]; exact ⟨r, l1, l2⟩
        · intro hh; cases hh
        · intro _; exact ⟨hst, hn, .inr c2⟩
        · intro hh; cases hh
        · intro e hh; cases hh
      · -- a frame
        simp only [c2] at hs
        cases hs
        have hl : g.out.getLast?.toList = [f] := by rw [c3]; simp
        rw [hl]
        have hp := ginv_prefix hgi
        have hd : (wholeVideo G fs).1.drop s.g.out.length = f :: (wholeVideo G fs).1.drop g.out.length := by
          obtain ⟨tl, htl⟩ := hp
          rw [← htl, c3]
          simp
        rw [hd] at l2
        refine qinv_resume (s := { s with g := g }) (X := f :: (wholeVideo G fs).1.drop g.out.length) hgi ?_ (fun _ => .inl c2) l1 (next_frame hn f _) ?_ l2
        · intro hn'; first | cases hn' | cases hst.symm.trans hn'
        · simp
      · -- a frame that cannot be used
        simp only [c2] at hs
        cases hs
        have hw := hgi.raised e c2
        have ho : s.g.out = (wholeVideo G fs).1 := by rw [← c3]; exact congrArg Prod.fst hw
        rw [ho, List.drop_length, plain_missing l1 hn, show (wholeVideo G fs).2 = .raises e from (congrArg Prod.snd hw).symm] at l2
        refine ⟨hgi, ?_, ?_, ?_, ?_, ?_, ?_⟩
        · intro hn'; first | cases hn' | cases hst.symm.trans hn'
        · rintro (hh | hh) <;> cases hh
        · intro hh; cases hh
        · intro hh; cases hh
        · intro hh; cases hh
        · intro e' hh
          simp only at hh
          cases hh
          rw [l2, List.append_nil]
      · -- the end
        simp only [c2] at hs
        cases hs
        have hw := (hgi.over (.inr c2)).1
        have ho : s.g.out = (wholeVideo G fs).1 := by rw [← c3]; exact congrArg Prod.fst hw
        have hfin : (Prog.resume M { s with g := g } []).main = .finished := by
          unfold Prog.resume
          rw [show Coder.next M s.aux { s.coder with frames := [] } = .ok none from next_exhausted hn]
        rw [ho, List.drop_length] at l2
        have hen : (wholeVideo G fs).2 = .ends := (congrArg Prod.snd hw).symm
        refine qinv_resume (s := { s with g := g }) (X := []) hgi ?_ (fun _ => .inr hfin) l1 ?_ ?_ l2
        · intro hn'; first | cases hn' | cases hst.symm.trans hn'
        · simp only
          rw [next_exhausted hn]; rfl
        · rw [hen]; simp
  | finished => rw [hm] at hs; cases hs
  | raised e => rw [hm] at hs; cases hs

theorem qinv_steps {M : Movie} {G : Grabber} {fs : FS} {T : List Nat × Ending} {s t : Prog} {n : Nat}
    (hs : QInv M G fs T s) (h : Prog.Steps M G n s t) : QInv M G fs T t := by
  induction h with
  | zero => exact hs
  | succ _ hst ih =>
    cases hst with
    | worker hw => exact qinv_worker (ih hs) hw
    | main hm => exact qinv_main (ih hs) hm

/-- The threads cannot both be stuck while the main thread has work. -/
theorem qinv_halted {a : Args} {w : World} {fs : FS} {T : List Nat × Ending} {s : Prog} (hi : QInv (a.movie w) (a.grabber w) fs T s)
    (hh : Halted a w s) : s.out = T.1 ∧ s.main = T.2.status := by
  have hmain : s.mainStep (a.movie w) = none := by
    cases hx : s.mainStep (a.movie w) with
    | none => rfl
    | some t => exact absurd ⟨t, .main hx⟩ hh
  cases hm : s.main with
  | finished => rw [hi.fin hm]; exact ⟨rfl, rfl⟩
  | raised e => rw [hi.raised e hm]; exact ⟨rfl, rfl⟩
  | running =>
    unfold Prog.mainStep at hmain
    rw [hm] at hmain
    simp only at hmain
    split at hmain
    · split at hmain
      · rename_i hst'
        have hy := hi.run hm hst'
        unfold GState.consumerStep at hmain
        rw [hy] at hmain
        cases hmain
      · cases hmain
    · cases hmain
  | asking =>
    obtain ⟨h1, h2, h3⟩ := hi.ask hm
    obtain ⟨r, l1, l2⟩ := hi.loop (.inr hm)
    unfold Prog.mainStep at hmain
    rw [hm] at hmain
    simp only at hmain
    have hcons : s.g.consumerStep = none := by
      cases hx : s.g.consumerStep with
      | none => rfl
      | some g => rw [hx] at hmain; simp only at hmain; split at hmain <;> cases hmain
    have hG : Stopped (a.grabber w) s.g := by
      rintro ⟨t, ht⟩
      cases ht with
      | worker hw =>
        refine hh ⟨{ s with g := t }, .worker ?_⟩
        unfold Prog.workerStep
        rw [if_pos h1, hw]
      | consumer hc => rw [hcons] at hc; cases hc
    rcases stopped_cases hi.ginv hG with hc | ⟨e, hc⟩ | ⟨hc, hq, e, he⟩
    · rw [hc] at h3; rcases h3 with h | h <;> cases h
    · rw [hc] at h3; rcases h3 with h | h <;> cases h
    · have hact := hi.ginv.active (.inl hc)
      rw [hq, he] at hact
      have e1 : s.g.out = (wholeVideo (a.grabber w) fs).1 := by
        have := congrArg Prod.fst hact
        simpa [queued, Grabber.toCome] using this
      have e2 : (wholeVideo (a.grabber w) fs).2 = .hangs e := (congrArg Prod.snd hact).symm
      rw [e1, List.drop_length, plain_missing l1 h2, e2] at l2
      rw [l2]
      exact ⟨by rw [List.append_nil], rfl⟩

/-- C75: whatever the command line and the input, and however the two threads are interleaved, the program does
what a simple loop does: it starts exactly if that starts; at every moment the bytes written are a prefix of the loop's; it takes a
bounded number of steps; it finishes only with all of the loop's bytes, and has an exception only where the loop
has it; and when no thread can run any more, the bytes are the loop's, and the program is finished, has raised the
exception or waits forever, as the loop. -/
theorem C75_simple_loop (a : Args) (w : World) (fs : FS) :
    match Args.plain a w fs with
    | .error e => a.start w fs = .error e ∧ ∀ n s, ¬ Execution a w fs n s
    | .ok T => (∃ s0, Execution a w fs 0 s0 ∧ s0.out = []) ∧ ∀ n s, Execution a w fs n s →
        s.out <+: T.1 ∧ (∃ A, a.audio w = .ok A ∧ n ≤ 4 * w.images.length + A.length + 7) ∧
        (s.main = .finished → T = (s.out, .complete)) ∧ (∀ e, s.main = .raised e → T = (s.out, .raised e)) ∧
        (Halted a w s → s.out = T.1 ∧ s.main = T.2.status) := by
  obtain ⟨v, hv, -⟩ := videoNew_ok (a.movie w).mode
  unfold Args.plain Args.start
  cases hA : a.audio w with
  | error e =>
    simp only [bind, Except.bind]
    refine ⟨trivial, ?_⟩
    rintro n s ⟨s0, hs0, -⟩
    unfold Args.start at hs0
    rw [hA] at hs0
    cases hs0
  | ok A =>
    simp only [Except.bind_ok]
    have hstart : ∀ F, (a.movie w).start w.tape A F = .ok
        { phase := .new, audio := A, frames := F, ticks := 0, frameNumber := 0, v, rng := ⟨w.tape, 0⟩, gen := none, target := none, lastBank := false } := by
      intro F
      unfold Movie.start
      rw [hv]; rfl
    rw [hstart]
    simp only [Except.bind_ok, pure, Except.pure]
    have hex : ∃ s0, a.start w fs = .ok s0 ∧ s0.out = [] := by
      unfold Args.start Prog.start
      rw [hA, Except.bind_ok, hstart]
      exact ⟨_, rfl, rfl⟩
    obtain ⟨s0, hs0, ho⟩ := hex
    refine ⟨⟨s0, ⟨s0, hs0, .zero _⟩, ho⟩, ?_⟩
    rintro n s ⟨s0', hs0', hst⟩
    cases hs0.symm.trans hs0'
    have hwt := prog_steps_weight hst
    obtain ⟨-, -, -, -, -, -, -, -, -, -, e11⟩ := start_eq hA hs0
    have hi0 : QInv (a.movie w) (a.grabber w) fs (plainly (a.movie w) (Args.video a w fs).2 (A.length + 2)
        { phase := .new, audio := A, frames := (Args.video a w fs).1, ticks := 0, frameNumber := 0, v, rng := ⟨w.tape, 0⟩, gen := none, target := none, lastBank := false } 0 false) s0 := by
      unfold Args.start Prog.start at hs0
      rw [hA, Except.bind_ok, hstart] at hs0
      cases hs0
      refine ⟨gInv_start _ fs, fun _ => rfl, fun _ => ?_, ?_, ?_, ?_, ?_⟩
      · refine ⟨A.length + 2, by simp [Coder.left]; omega, ?_⟩
        simp only [List.nil_append]
        rfl
      · intro _ hh; cases hh
      · intro hh; cases hh
      · intro hh; cases hh
      · intro e hh; cases hh
    have hi := qinv_steps hi0 hst
    refine ⟨?_, ⟨A, rfl, by omega⟩, hi.fin, hi.raised, qinv_halted hi⟩
    cases hm : s.main with
    | running => obtain ⟨r, -, h⟩ := hi.loop (.inl hm); rw [h]; exact List.prefix_append _ _
    | asking => obtain ⟨r, -, h⟩ := hi.loop (.inr hm); rw [h]; exact List.prefix_append _ _
    | finished => rw [hi.fin hm]
    | raised e => rw [hi.raised e hm]

/-! ### All three endings occur -/

/-- C75: three pictures and four samples: complete. -/
example : ∃ T, Args.plain demoArgs (demoWorld [[1#8], [2#8], [3#8]] [.fin 8192, .fin 0, .fin (-8192), .fin 0] none) (fun _ => none) = .ok T ∧
    T.2 = .complete := by
  obtain ⟨n, p, hx, hf⟩ := demo_finishes
  have h := C75_simple_loop demoArgs (demoWorld [[1#8], [2#8], [3#8]] [.fin 8192, .fin 0, .fin (-8192), .fin 0] none) (fun _ => none)
  cases hp : Args.plain demoArgs (demoWorld [[1#8], [2#8], [3#8]] [.fin 8192, .fin 0, .fin (-8192), .fin 0] none) (fun _ => none) with
  | error e => rw [hp] at h; exact absurd hx (h.2 n p)
  | ok T => rw [hp] at h; exact ⟨T, rfl, by rw [(h.2 n p hx).2.2.1 hf]⟩

/-- C75: the video fails after one picture: waiting. -/
example : ∃ T, Args.plain demoArgs (demoWorld [[1#8]] [.fin 8192, .fin 0, .fin (-8192), .fin 0] (some .fileNotFound)) (fun _ => none) = .ok T ∧
    T.2 = .waiting := by
  obtain ⟨n, p, hx, hf, hh⟩ := demo_hangs
  have h := C75_simple_loop demoArgs (demoWorld [[1#8]] [.fin 8192, .fin 0, .fin (-8192), .fin 0] (some .fileNotFound)) (fun _ => none)
  cases hp : Args.plain demoArgs (demoWorld [[1#8]] [.fin 8192, .fin 0, .fin (-8192), .fin 0] (some .fileNotFound)) (fun _ => none) with
  | error e => rw [hp] at h; exact absurd hx (h.2 n p)
  | ok T =>
    rw [hp] at h
    have h1 := ((h.2 n p hx).2.2.2.2 hh).2
    rw [hf] at h1
    refine ⟨T, rfl, ?_⟩
    cases hT : T.2 <;> rw [hT] at h1 <;> first | rfl | cases h1

end IIVision
