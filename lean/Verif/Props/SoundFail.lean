import Verif.Spec.SoundFail
import Verif.Props.Program
import Verif.Props.Pcm
import Verif.Props.Causal

/-! The transcoder on an input whose sound cannot be decoded to its end. -/

namespace IIVision
open Spec

/-- The main thread ends the file only while there is sound left (or there was none to ask for). -/
theorem finish_left {M : Movie} {G : Grabber} {fs : FS} {A : List Int} {ops : List Opcode} {bytes : List Nat} {s t : Prog}
    (hlim : 0 ≤ M.limit) (h : PInv M G fs A ops bytes s) (hs : s.mainStep M = some t) (ht : t.main = .finished)
    (hg : ¬(s.main = .running ∧ s.coder.phase ≠ .new ∧ s.coder.audio = [])) : tickCount ops < A.length := by
  have count : ∀ {done ops' : List Opcode}, ops = done ++ ops' → ops' = [.terminate] → Counted M A (tickCount done) s.coder →
      s.coder.audio ≠ [] → tickCount ops < A.length := by
    intro done ops' h1 h2 h3 h4
    have hk : tickCount ops = tickCount done := by rw [h1, tickCount_append, h2]; rfl
    rw [hk]
    by_contra hc
    exact h4 (by rw [h3.audio]; exact List.drop_eq_nil_iff.mpr (by omega))
  unfold Prog.mainStep at hs
  cases hm : s.main with
  | running =>
    rw [hm] at hs
    simp only at hs
    obtain ⟨r, ops', bytes', l1, l2, l3, hnew, done, hdone, hcnt⟩ := h.loop (.inl hm)
    cases hn : s.coder.needsFrame M with
    | true =>
      rw [hn, if_pos rfl] at hs
      split at hs
      · split at hs <;> cases hs
        cases ht
      · cases hs; cases ht
    | false =>
      rw [hn, if_neg (by decide)] at hs
      cases hs
      rcases resume_inv l2 l1 (next_idle hn _) (s := s) rfl rfl rfl with ⟨a1, a2, a3, a4⟩ | ⟨a1, -⟩
      · refine count hdone a3 hcnt ?_
        intro ha
        have hp : s.coder.phase = .new := by
          by_contra hp
          exact hg ⟨hm, hp, ha⟩
        rcases a4 with a4 | ⟨hl, -⟩
        · unfold Coder.next at a4
          rw [show (s.coder.withF []).phase = .new from hp] at a4
          cases a4
        · rw [hnew hp] at hl
          unfold Movie.atLimit at hl
          simp only [decide_eq_true_eq] at hl
          exact hl.1 (Rat.le_antisymm (by simpa using hl.2) hlim)
      · rw [a1] at ht; cases ht
  | asking =>
    rw [hm] at hs
    simp only at hs
    obtain ⟨r, ops', bytes', l1, l2, l3, hnew, done, hdone, hcnt⟩ := h.loop (.inr hm)
    obtain ⟨hst, hn, hcons⟩ := h.ask hm
    have hau : s.coder.audio ≠ [] := by
      obtain ⟨-, ⟨au, rest, ha⟩, -⟩ := needs_cases hn
      rw [ha]; simp
    cases hc : s.g.consumerStep with
    | none => rw [hc] at hs; cases hs
    | some g =>
      rw [hc] at hs
      have hgi := h.ginv.consumerStep hc
      rcases consumer_cases h.ginv hc with ⟨c1, -⟩ | ⟨c1, c2, c3⟩ | ⟨c1, c2, f, c3⟩ | ⟨c1, ⟨e, c2⟩, c3⟩ | ⟨c1, c2, c3⟩
      · rw [c1] at hcons; rcases hcons with hh | hh <;> cases hh
      · simp only [c2] at hs
        cases hs
        cases ht
      · simp only [c2] at hs
        cases hs
        have hl : g.out.getLast?.toList = [f] := by rw [c3]; simp
        rw [hl] at ht
        have hd : (wholeVideo G fs).1.drop s.g.out.length = f :: (wholeVideo G fs).1.drop g.out.length := by
          obtain ⟨tl, htl⟩ := ginv_prefix hgi
          rw [← htl, c3]
          simp
        rw [hd] at l2
        rcases resume_inv l2 l1 (next_frame hn f _) (s := { s with g := g, main := .asking }) rfl rfl rfl with ⟨a1, a2, a3, a4⟩ | ⟨a1, -⟩
        · exact count hdone a3 hcnt hau
        · rw [a1] at ht; cases ht
      · simp only [c2] at hs
        cases hs
        cases ht
      · have ho : s.g.out = (wholeVideo G fs).1 := by rw [← c3]; exact congrArg Prod.fst (hgi.over (.inr c2)).1
        rw [← ho, List.drop_length] at l2
        obtain ⟨e1, e2⟩ := exhausted_inv l2 l1 hn
        exact count hdone e2 hcnt hau
  | finished => rw [hm] at hs; cases hs
  | raised e => rw [hm] at hs; cases hs

/-- An execution is either an ordinary one, which ends the file only while there is sound left, or it
has just been ended by the exception of the sound. -/
theorem stepsE_cases {M : Movie} {G : Grabber} {e : PyErr} {fs : FS} {A : List Int} {ops : List Opcode} {bytes : List Nat}
    (hlim : 0 ≤ M.limit) {n : Nat} {s0 s : Prog} (h0 : PInv M G fs A ops bytes s0) (hr : s0.main = .running)
    (h : Prog.StepsE M G e n s0 s) :
    (Prog.Steps M G n s0 s ∧ (s.main = .finished → tickCount ops < A.length)) ∨
    (n + s.weight ≤ s0.weight ∧ s.main = .raised e ∧ A.length ≤ tickCount ops ∧ s.out ++ (M.done s.pos).2 = bytes) := by
  induction h with
  | zero => exact .inl ⟨.zero _, fun h => by rw [hr] at h; cases h⟩
  | @succ n s t u hst hu ih =>
    rcases ih h0 hr with ⟨i1, i2⟩ | ⟨i1, i2, i3, i4⟩
    · have hp := pinv_steps hlim h0 i1
      have hw := prog_steps_weight i1
      cases hu with
      | worker hw1 =>
        refine .inl ⟨.succ i1 (.worker hw1), ?_⟩
        unfold Prog.workerStep at hw1
        split at hw1
        · split at hw1 <;> cases hw1
          exact i2
        · cases hw1
      | main hm =>
        unfold Prog.mainStepE at hm
        split at hm
        · rename_i hg
          obtain ⟨g1, g2, g3⟩ := hg
          cases hm
          right
          obtain ⟨r, ops', bytes', l1, l2, l3, -, done, hdone, hcnt⟩ := hp.loop (.inl g1)
          obtain ⟨r, rfl⟩ : ∃ k, r = k + 1 := ⟨r - 1, by omega⟩
          unfold Movie.emitLoop at l2
          rw [next_nil (c := t.coder.withF ((wholeVideo G fs).1.drop t.g.out.length)) g2 g3] at l2
          have hl := Except.ok.inj l2
          have e1 : bytes' = (M.done t.pos).2 := (congrArg Prod.snd hl).symm
          have e2 : ops' = [.terminate] := (congrArg Prod.fst hl).symm
          have hk : tickCount ops = tickCount done := by rw [hdone, tickCount_append, e2]; rfl
          refine ⟨?_, rfl, ?_, by rw [l3, e1]⟩
          · simp only [Prog.weight, g1, MainStatus.weight] at hw ⊢
            omega
          · rw [hk]
            exact List.drop_eq_nil_iff.mp (by rw [← hcnt.audio]; exact g3)
        · rename_i hg
          exact .inl ⟨.succ i1 (.main hm), fun hf => finish_left hlim hp hm hf hg⟩
    · right
      cases hu with
      | worker hw1 =>
        have hlt := prog_step_weight (Prog.Step.worker (M := M) hw1)
        unfold Prog.workerStep at hw1
        split at hw1
        · split at hw1 <;> cases hw1
          exact ⟨by omega, i2, i3, i4⟩
        · cases hw1
      | main hm =>
        unfold Prog.mainStepE Prog.mainStep at hm
        rw [i2] at hm
        simp at hm

/-- C72: an input whose sound fails with an exception after the samples `A`.  Whatever the
interleaving of the two threads, the bytes written are at every moment a prefix of one file, the
complete stream of these samples; the number of steps has the same bound; a program that finishes
(because the limit was reached or the pictures ran out while there was sound left) has written
that complete file; and if all samples are used up the program ends with the exception of the
sound, and the file is that stream up to, and without, its end marker. -/
theorem C72_sound_fails {a : Args} {w : World} {fs : FS} (hs : Sound a w fs) {A : List Int} (hA : a.audio w = .ok A) (e : PyErr) :
    ∃ ops bytes, (a.movie w).stream w.tape A (Args.video a w fs).1 = .ok (ops, bytes) ∧
      (∃ s0, ExecutionE a w e fs 0 s0 ∧ s0.out = []) ∧
      ∀ n s, ExecutionE a w e fs n s →
        s.out <+: bytes ∧ n ≤ 4 * w.images.length + A.length + 7 ∧
        (s.main = .finished → s.out = bytes ∧ (ticksOf false ops).length < A.length) ∧
        (HaltedE a w e s →
          if A.length ≤ (ticksOf false ops).length then s.main = .raised e ∧ LacksEnd w.addr s.out bytes
          else match (Args.video a w fs).2 with
          | .ends => s.main = .finished
          | .raises e' => if FrameMissing w.thr A (Args.video a w fs).1 ops
              then s.main = .raised e' ∧ LacksEnd w.addr s.out bytes else s.main = .finished
          | .hangs _ => if FrameMissing w.thr A (Args.video a w fs).1 ops
              then s.main = .asking ∧ LacksEnd w.addr s.out bytes else s.main = .finished) := by
  have hin := movieInput_of_sound hs hA
  obtain ⟨ops, bytes, hstream, ⟨s0, ⟨s0', hs0, hz⟩, ho0⟩, hrun⟩ := C60_schedule hs hA
  cases hz
  refine ⟨ops, bytes, hstream, ⟨s0, ⟨s0, hs0, .zero _⟩, ho0⟩, ?_⟩
  rintro n s ⟨s0', hs0', hst⟩
  cases hs0.symm.trans hs0'
  have hs0'' := hs0
  unfold Args.start at hs0''
  rw [hA, Except.bind_ok] at hs0''
  have hp0 := pinv_start hstream hs0''
  have hr0 : s0.main = .running := by
    unfold Prog.start at hs0''
    cases hm : (a.movie w).start w.tape A [] with
    | error e => rw [hm] at hs0''; cases hs0''
    | ok c => rw [hm, Except.bind_ok] at hs0''; cases hs0''; rfl
  have hw0 : s0.weight = 4 * w.images.length + A.length + 7 := by
    obtain ⟨v, hv, -⟩ := videoNew_ok (a.movie w).mode
    unfold Prog.start Movie.start at hs0''
    rw [hv] at hs0''
    cases hs0''
    simp [Prog.weight, GState.weight, Grabber.start, Worker.weight, Consumer.weight, Coder.left, MainStatus.weight, Args.grabber]
    omega
  rcases stepsE_cases hin.limit hp0 hr0 hst with ⟨i1, i2⟩ | ⟨i1, i2, i3, i4⟩
  · obtain ⟨b1, b2, b3, b4⟩ := hrun n s ⟨s0, hs0, i1⟩
    refine ⟨b1, b2, fun hf => ⟨b3 hf, i2 hf⟩, ?_⟩
    intro hh
    have hg : ¬(s.main = .running ∧ s.coder.phase ≠ .new ∧ s.coder.audio = []) := by
      intro hg
      exact hh ⟨_, .main (t := { s with main := .raised e }) (if_pos hg)⟩
    have hh' : Halted a w s := by
      rintro ⟨t, ht⟩
      cases ht with
      | worker hw1 => exact hh ⟨t, .worker hw1⟩
      | main hm => exact hh ⟨t, .main (by unfold Prog.mainStepE; rw [if_neg hg]; exact hm)⟩
    have hm := b4 hh'
    have hlt : (ticksOf false ops).length < A.length := by
      have hp := pinv_steps hin.limit hp0 i1
      cases hmain : s.main with
      | finished => exact i2 hmain
      | raised e' => exact (hp.raised e' hmain).2.2.1
      | running =>
        exfalso
        split at hm
        · rw [hmain] at hm; cases hm
        all_goals
          split at hm
          · rw [hmain] at hm; cases hm.1
          · rw [hmain] at hm; cases hm
      | asking =>
        split at hm
        · rw [hmain] at hm; cases hm
        all_goals
          split at hm
          · rename_i hmiss; exact hmiss.1
          · rw [hmain] at hm; cases hm
    rw [if_neg (by omega)]
    exact hm
  · refine ⟨by rw [← i4]; exact List.prefix_append _ _, by omega, fun h => (by rw [i2] at h; cases h), ?_⟩
    intro _
    rw [if_pos (show A.length ≤ (ticksOf false ops).length from i3)]
    refine ⟨i2, 2048 - (s.pos + (Opcode.terminate.emit w.addr).length) % 2048, ?_⟩
    rw [← i4, List.append_assoc]
    rfl

/-- C72: in particular, without a size limit and with pictures for all of the sound, the program
cannot stop except with the exception of the sound. -/
theorem C72_never_silent {a : Args} {w : World} {fs : FS} (hs : Sound a w fs) {A : List Int} (hA : a.audio w = .ok A) (e : PyErr)
    (hlim : a.maxMb = 0) (hfr : fetched w.thr A.length ≤ (Args.video a w fs).1.length) {n : Nat} {s : Prog}
    (h : ExecutionE a w e fs n s) : (∃ t, Prog.StepE (a.movie w) (a.grabber w) e s t) ∨ s.main = .raised e := by
  obtain ⟨ops, bytes, h1, -, h2⟩ := C72_sound_fails hs hA e
  obtain ⟨-, -, -, b4⟩ := h2 n s h
  by_cases hh : HaltedE a w e s
  · right
    have hm := b4 hh
    obtain ⟨body, bytes', calls, en, steps, g1, -, -, g4, -, g6, -⟩ := movie_facts _ _ _ (movieInput_of_sound hs hA) w.tape
    have g := congrArg Prod.fst (Except.ok.inj (g1.symm.trans h1))
    simp only at g
    have hk : (ticksOf false ops).length = steps.length := by
      rw [← g, ← g4]
      exact congrArg List.length (ticksOf_terminate body false)
    have hall : A.length ≤ (ticksOf false ops).length := by
      rw [hk]
      cases g6 with
      | audio g => omega
      | video g g' g'' =>
        exfalso
        have hf : fetched w.thr (steps.length + 1) = fetched w.thr steps.length + 1 := by
          rw [fetched_succ]; exact if_pos g'
        have := fetched_mono w.thr (steps.length + 1) (A.length - (steps.length + 1))
        rw [show steps.length + 1 + (A.length - (steps.length + 1)) = A.length by omega] at this
        have e1 : fetched w.thr steps.length = (Args.video a w fs).1.length := g''
        omega
      | limit _ g =>
        exfalso
        have : (a.movie w).atLimit (posOf (steps.length + 1)) = false := by simp [Movie.atLimit, Args.movie, hlim]
        rw [this] at g; cases g
    rw [if_pos hall] at hm
    exact hm.1
  · exact .inl (Classical.not_not.mp hh)

/-- C72: where the failure comes from: the stream of sound fails exactly if some buffer cannot be
decoded, with the exception of the first such buffer, after the samples of the buffers before it; and
these samples are the sound of the program started on that part of the input. -/
theorem C72_where (F : Pcm.Format) (rnd : Rat → Flt) (bad : Flt → Int) (given : Option Flt) (analysed : List Rat) (n : Flt)
    (hn : chooseNormalization rnd given analysed = .ok n) (buffers : List (List U8)) (A : List Int) (e : PyErr) :
    F.stream rnd bad n buffers = (A, some e) ↔
    ∃ (good : List (List U8)) (buf : List U8) (rest : List (List U8)) (decoded : List (List Rat)),
      buffers = good ++ buf :: rest ∧ good.map F.decode = decoded.map .ok ∧ F.decode buf = .error e ∧
      audioStream rnd bad given analysed (decoded.map fun a => a.map .fin) = .ok A := by
  have key : ∀ (buffers : List (List U8)) (A : List Int), F.stream rnd bad n buffers = (A, some e) →
      ∃ (good : List (List U8)) (buf : List U8) (rest : List (List U8)) (decoded : List (List Rat)),
      buffers = good ++ buf :: rest ∧ good.map F.decode = decoded.map .ok ∧ F.decode buf = .error e ∧
      A = (F.stream rnd bad n good).1 := by
    intro buffers
    induction buffers with
    | nil => intro A h; cases h
    | cons b buffers ih =>
      intro A h
      cases hb : F.decode b with
      | error x =>
        simp only [Pcm.Format.stream, hb, Prod.mk.injEq, Option.some.injEq] at h
        obtain ⟨rfl, rfl⟩ := h
        exact ⟨[], b, buffers, [], rfl, rfl, hb, rfl⟩
      | ok a =>
        simp only [Pcm.Format.stream, hb, Prod.mk.injEq] at h
        obtain ⟨h1, h2⟩ := h
        obtain ⟨good, buf, rest, dec, g1, g2, g3, g4⟩ := ih _ (Prod.ext rfl h2)
        refine ⟨b :: good, buf, rest, a :: dec, by rw [g1]; rfl, by simp only [List.map_cons, hb, g2], g3, ?_⟩
        simp only [Pcm.Format.stream, hb]
        rw [← h1]; exact congrArg (List.append _) g4
  constructor
  · intro h
    obtain ⟨good, buf, rest, dec, g1, g2, g3, g4⟩ := key buffers A h
    exact ⟨good, buf, rest, dec, g1, g2, g3, by rw [(Pcm.C71_is_audioStream F rnd bad given analysed n hn good dec g2).2, g4]⟩
  · rintro ⟨good, buf, rest, dec, g1, g2, g3, g4⟩
    rw [(Pcm.C71_is_audioStream F rnd bad given analysed n hn good dec g2).2] at g4
    have hA := Except.ok.inj g4
    subst g1
    rw [← hA]
    clear g4 hA
    revert dec
    induction good with
    | nil => intro dec _; simp [Pcm.Format.stream, g3]
    | cons b good ih =>
      intro dec g2
      cases dec with
      | nil => simp at g2
      | cons a dec =>
        simp only [List.map_cons, List.cons.injEq] at g2
        have := ih dec g2.2
        simp only [List.cons_append, Pcm.Format.stream, g2.1, this]

/-! ### The hypotheses can be met -/

theorem prog_stepE_weight {M : Movie} {G : Grabber} {e : PyErr} {s t : Prog} (h : Prog.StepE M G e s t) : t.weight < s.weight := by
  cases h with
  | worker hw => exact prog_step_weight (Prog.Step.worker (M := M) hw)
  | main hm =>
    unfold Prog.mainStepE at hm
    split at hm
    · rename_i hg
      cases hm
      simp [Prog.weight, hg.1, MainStatus.weight]
    · exact prog_step_weight (Prog.Step.main (G := G) hm)

/-- Every execution can be continued until neither thread can run. -/
theorem exists_haltedE {M : Movie} {G : Grabber} {e : PyErr} (k : Nat) : ∀ {s0 s : Prog} {n : Nat}, Prog.StepsE M G e n s0 s → s.weight ≤ k →
    ∃ m t, Prog.StepsE M G e m s0 t ∧ ¬∃ u, Prog.StepE M G e t u := by
  induction k with
  | zero =>
    intro s0 s n h hk
    refine ⟨n, s, h, ?_⟩
    rintro ⟨u, hu⟩
    have := prog_stepE_weight hu
    omega
  | succ k ih =>
    intro s0 s n h hk
    by_cases hu : ∃ u, Prog.StepE M G e s u
    · obtain ⟨u, hu⟩ := hu
      have := prog_stepE_weight hu
      exact ih (.succ h hu) (by omega)
    · exact ⟨n, s, h, hu⟩

/-- C72_where: a buffer with half a sample. -/
example : Pcm.plainFormat.stream (fun x => .fin x) (fun _ => 0) (.fin 1) [[0x00, 0x20, 0x00, 0x20], [0x64, 0x00, 0x38]] =
    ([8], some .valueError) := by decide +kernel

/-- C72: three pictures, and sound that fails after four samples: the program ends with the exception. -/
theorem demo_sound_fails : ∃ n p, ExecutionE demoArgs (demoWorld [[1#8], [2#8], [3#8]] [.fin 8192, .fin 0, .fin (-8192), .fin 0] none)
    .valueError (fun _ => none) n p ∧ p.main = .raised .valueError := by
  have hs := demo_sound [[1#8], [2#8], [3#8]] [.fin 8192, .fin 0, .fin (-8192), .fin 0] none (by decide)
  have hA : demoArgs.audio (demoWorld [[1#8], [2#8], [3#8]] [.fin 8192, .fin 0, .fin (-8192), .fin 0] none) = .ok [8, 0, -8, 0] := by
    decide +kernel
  obtain ⟨ops, bytes, -, ⟨s0, ⟨s1, h1, h2⟩, -⟩, -⟩ := C72_sound_fails hs hA .valueError
  obtain ⟨m, t, h3, h4⟩ := exists_haltedE _ h2 (Nat.le_refl _)
  obtain ⟨v1, -⟩ := demo_video [[1#8], [2#8], [3#8]] [.fin 8192, .fin 0, .fin (-8192), .fin 0] none [[1#8], [2#8], [3#8]] 0 (fun _ => none)
    (by decide) (fun _ _ => rfl)
  rcases C72_never_silent hs hA .valueError rfl (Nat.le_trans (by decide) (Nat.le_of_eq v1.symm)) ⟨s1, h1, h3⟩ with h | h
  · exact absurd h h4
  · exact ⟨m, t, ⟨s1, h1, h3⟩, h⟩

end IIVision
