import Verif.Proofs.Disk
import Verif.Props.Plain

/-! The transcoder and its files: the output file among the files of the pictures. -/

namespace IIVision
open Spec

theorem last_dot {f : Text} (h : 46 ∈ f) : ∃ base ext, f = base ++ 46 :: ext ∧ 46 ∉ ext := by
  induction f with
  | nil => cases h
  | cons c f ih =>
    by_cases hf : 46 ∈ f
    · obtain ⟨b, e, rfl, he⟩ := ih hf
      exact ⟨c :: b, e, rfl, he⟩
    · rcases List.mem_cons.1 h with rfl | h
      · exact ⟨[], f, rfl, hf⟩
      · exact absurd h hf

theorem own_path {G : Grabber} {i : Nat} {q : Text} (h : OwnFile G i q) : ∃ t, q = G.dir ++ 47 :: dec08 i ++ 46 :: t ∨ q = G.dir ++ 47 :: dec08 i ++ 67 :: 46 :: t := by
  rcases h with h | h | h | h
  · exact ⟨txt "BIN", .inr h⟩
  · exact ⟨txt "BIN", .inl h⟩
  · exact ⟨txt "AUX", .inl h⟩
  · exact ⟨txt "bmp", .inl h⟩

/-- **C78.** The default output file (also with `--output ""`) is none of the files that converting the pictures is about, whatever
the input is called, and neither is the input; the default output is the input itself exactly if that is called `a2m` or ends in
`.a2m`. -/
theorem C78_names (G : Grabber) (output : Option Text) (h : output = none ∨ output = some []) :
    (∀ i q, OwnFile G i q → q ≠ outFilename output G.filename ∧ q ≠ G.filename) ∧
    (outFilename output G.filename = G.filename ↔ G.filename = txt "a2m" ∨ ∃ base, G.filename = base ++ txt ".a2m") := by
  have ho : outFilename output G.filename = outFilename none G.filename := by
    rcases h with rfl | rfl
    · rfl
    · simp [outFilename]
  rw [ho]
  by_cases hd : 46 ∈ G.filename
  · obtain ⟨base, ext, hf, he⟩ := last_dot hd
    have hdir : G.dir = base ++ 47 :: G.mode.name ++ 47 :: G.palette.name := by
      unfold Grabber.dir; rw [hf]; exact outputDir_ext he base _ _
    rw [hf, outFilename_ext he]
    refine ⟨?_, ?_⟩
    · intro i q hq
      obtain ⟨t, hq | hq⟩ := own_path hq <;>
      · rw [hdir] at hq
        constructor <;>
        · intro hc
          rw [hq] at hc
          simp only [List.append_assoc, List.cons_append] at hc
          have := List.append_cancel_left hc
          simp [txt] at this
    · constructor
      · intro hc
        exact .inr ⟨base, hc.symm⟩
      · rintro (hc | ⟨b, hc⟩)
        · rw [hf, hc] at hd
          exact absurd hd (by decide)
        · have hb := split_last he (by decide : 46 ∉ txt "a2m") (show base ++ 46 :: ext = b ++ 46 :: txt "a2m" from hc)
          rw [hc, hb.1]
  · obtain ⟨h1, h2, -⟩ := C45_no_extension G.filename [] hd G.mode G.palette
    rw [h1]
    have hdir : G.dir = 47 :: (G.mode.name ++ 47 :: G.palette.name) := by
      unfold Grabber.dir; rw [h2]; simp [txt]
    refine ⟨?_, ?_⟩
    · intro i q hq
      obtain ⟨t, hq | hq⟩ := own_path hq <;>
      · rw [hdir] at hq
        constructor
        · intro hc
          rw [hq] at hc
          simp [txt] at hc
        · intro hc
          rw [← hc, hq] at hd
          simp at hd
    · constructor
      · intro hc; exact .inl hc.symm
      · rintro (hc | ⟨b, hc⟩)
        · exact hc.symm
        · rw [hc] at hd
          simp [txt] at hd

theorem start_small {a : Args} {w : World} {fs : FS} {s : Prog} (h : a.start w fs = .ok s) : s.out = [] ∧ s.g = (a.grabber w).start fs := by
  unfold Args.start Prog.start at h
  cases hA : a.audio w with
  | error e => rw [hA] at h; cases h
  | ok A =>
    rw [hA, Except.bind_ok] at h
    cases hs : (a.movie w).start w.tape A [] with
    | error e => rw [hs] at h; cases h
    | ok c => rw [hs] at h; cases h; exact ⟨rfl, rfl⟩

theorem worker_small {G : Grabber} {s t : Prog} (h : s.workerStep G = some t) : t.out = s.out := by
  unfold Prog.workerStep at h
  split at h
  · split at h
    · cases h; rfl
    · cases h
  · cases h

theorem steps_small {M : Movie} {G : Grabber} (ha : ∀ c, M.addr c < 65536) {n : Nat} {s t : Prog} (h : Prog.Steps M G n s t)
    (h0 : ∀ b ∈ s.out, b < 256) : ∀ b ∈ t.out, b < 256 := by
  induction h with
  | zero => exact h0
  | succ _ hst ih =>
    have ih := ih h0
    cases hst with
    | worker hw => rw [worker_small hw]; exact ih
    | main hm =>
      obtain ⟨b, h1, h2⟩ := main_out ha hm
      intro x hx
      rw [h1] at hx
      rcases List.mem_append.1 hx with hx | hx
      · exact ih x hx
      · exact h2 x hx

/-- Which pictures the worker still has. -/
def Worker.within (k : Nat) : Worker → Prop
  | .fetch idx rest => idx + rest.length = k
  | .put _ idx rest => idx + 1 + rest.length = k
  | _ => True

theorem worker_files {G : Grabber} (hl : LocalTool G) {k : Nat} {g t : GState} (h : G.workerStep g = some t) (hk : g.worker.within k) :
    t.worker.within k ∧ ∀ q, (∀ i, i < k → ¬ OwnFile G i q) → t.fs q = g.fs q := by
  obtain ⟨fs, wk, qu, co, ou⟩ := g
  unfold Grabber.workerStep at h
  cases wk with
  | fetch idx rest =>
    cases rest with
    | nil =>
      simp only at h
      cases hr : G.readError with
      | none => rw [hr] at h; cases h; exact ⟨trivial, fun _ _ => rfl⟩
      | some e => rw [hr] at h; cases h; exact ⟨trivial, fun _ _ => rfl⟩
    | cons im rest =>
      simp only at h
      simp only [Worker.within, List.length_cons] at hk
      cases hd : G.decode fs idx im with
      | error e => rw [hd] at h; cases h; exact ⟨trivial, fun _ _ => rfl⟩
      | ok r =>
        rw [hd] at h; cases h
        refine ⟨?_, fun q hq => decode_local hl hd q (hq idx (by omega))⟩
        simp only [Worker.within]; omega
  | put item idx rest =>
    simp only at h
    split at h
    · cases h
      exact ⟨by simpa only [Worker.within] using hk, fun _ _ => rfl⟩
    · cases h
  | putEnd =>
    simp only at h
    split at h
    · cases h; exact ⟨trivial, fun _ _ => rfl⟩
    · cases h
  | done => cases h
  | dead e => cases h

theorem consumer_worker {g t : GState} (h : g.consumerStep = some t) : t.worker = g.worker := by
  obtain ⟨fs, wk, qu, co, ou⟩ := g
  unfold GState.consumerStep at h
  cases co with
  | get =>
    cases qu with
    | nil => cases h
    | cons x q =>
      cases x with
      | none => cases h; rfl
      | some item =>
        simp only at h
        cases hf : item.toFrame <;> rw [hf] at h <;> cases h <;> rfl
  | yielded => cases h; rfl
  | join => cases wk <;> cases h <;> rfl
  | finished => cases h
  | raised e => cases h

theorem main_worker {M : Movie} {s t : Prog} (h : s.mainStep M = some t) : t.g.worker = s.g.worker := by
  unfold Prog.mainStep at h
  split at h
  · split at h
    · split at h
      · split at h
        · rename_i g hg
          cases h; exact consumer_worker hg
        · cases h
      · cases h; rfl
    · cases h; rw [(resume_same M s _).1]
  · split at h
    · cases h
    · rename_i g hg
      split at h
      · cases h; rw [(resume_same M { s with g } _).1]; exact consumer_worker hg
      · cases h; rw [(resume_same M { s with g } _).1]; exact consumer_worker hg
      · cases h; exact consumer_worker hg
      · cases h; exact consumer_worker hg
  · cases h
  · cases h

theorem steps_files {M : Movie} {G : Grabber} (hl : LocalTool G) {k n : Nat} {s t : Prog} (h : Prog.Steps M G n s t) (hk : s.g.worker.within k) :
    t.g.worker.within k ∧ ∀ q, (∀ i, i < k → ¬ OwnFile G i q) → t.disk q = s.disk q := by
  induction h with
  | zero => exact ⟨hk, fun _ _ => rfl⟩
  | succ _ hst ih =>
    obtain ⟨i1, i2⟩ := ih hk
    cases hst with
    | worker hw =>
      unfold Prog.workerStep at hw
      split at hw
      · split at hw
        · rename_i g hg
          cases hw
          obtain ⟨w1, w2⟩ := worker_files hl hg i1
          exact ⟨w1, fun q hq => (w2 q hq).trans (i2 q hq)⟩
        · cases hw
      · cases hw
    | main hm =>
      exact ⟨by rw [main_worker hm]; exact i1, fun q hq => by rw [main_disk hm]; exact i2 q hq⟩

/-- **C78.** With the output file on the same disk as everything else, the transcoder does, step by step, what `C60` to `C75` say about the one
that only collects the bytes, and the output file has what has been collected. -/
theorem C78_same (a : Args) (w : World) (fs : FS) (ha : ∀ c, w.addr c < 65536) (hb : Blind (a.grabber w) (outFilename a.output a.input))
    (hn : ∀ i, ¬ OwnFile (a.grabber w) i (outFilename a.output a.input)) (n : Nat) (d : Prog) :
    Run a w fs n d ↔ ∃ s, Execution a w fs n s ∧ d = s.save (outFilename a.output a.input) := by
  have hM : ∀ c, (a.movie w).addr c < 65536 := ha
  unfold Run Execution Args.startD
  constructor
  · rintro ⟨d0, hd0, hs⟩
    cases h0 : a.start w fs with
    | error e => rw [h0] at hd0; cases hd0
    | ok s0 =>
      rw [h0] at hd0
      cases hd0
      obtain ⟨t, ht, hd⟩ := (stepsD_iff hM hb hn).1 hs
      exact ⟨t, ⟨s0, rfl, ht⟩, hd⟩
  · rintro ⟨t, ⟨s0, h0, ht⟩, rfl⟩
    rw [h0]
    exact ⟨_, rfl, (stepsD_iff hM hb hn).2 ⟨t, ht, rfl⟩⟩

theorem numbers_ofNat {l : List Nat} (h : ∀ b ∈ l, b < 256) : numbers (l.map (BitVec.ofNat 8)) = l := by
  unfold numbers
  rw [List.map_map]
  conv => rhs; rw [← List.map_id l]
  refine List.map_congr_left fun b hb => ?_
  have := h b hb
  simp only [Function.comp, BitVec.toNat_ofNat, id]
  omega

/-- **C78.** Whatever the command line, the input and the disk are, and however the two threads are interleaved, if the output
file is none of the files of the pictures and the converter leaves it alone: the
program starts exactly if the simple loop of C75 does; from then on the output file exists, what was in it before is gone, and it has a
prefix of the bytes of the loop, all of them when the program has finished, and exactly those the loop writes before
it fails or waits when nothing moves any more; and of all other files, only those of the pictures of the input change. -/
theorem C78_disk (a : Args) (w : World) (fs : FS) (ha : ∀ c, w.addr c < 65536) (hb : Blind (a.grabber w) (outFilename a.output a.input))
    (hn : ∀ i, ¬ OwnFile (a.grabber w) i (outFilename a.output a.input)) (hl : LocalTool (a.grabber w)) :
    match Args.plain a w fs with
    | .error e => a.startD w fs = .error e ∧ ∀ n s, ¬ Run a w fs n s
    | .ok T => (∃ s0, Run a w fs 0 s0) ∧ ∀ n s, Run a w fs n s →
        (∃ d, s.disk (outFilename a.output a.input) = some d ∧ numbers d <+: T.1 ∧
          (n = 0 → d = []) ∧
          (s.main = .finished → numbers d = T.1 ∧ T.2 = .complete) ∧
          (∀ e, s.main = .raised e → numbers d = T.1 ∧ T.2 = .raised e) ∧
          (Idle a w s → numbers d = T.1 ∧ s.main = T.2.status)) ∧
        ∀ q, q ≠ outFilename a.output a.input → (∀ i, i < w.images.length → ¬ OwnFile (a.grabber w) i q) → s.disk q = fs q := by
  have h := C75_simple_loop a w fs
  have hs := C78_same a w fs ha hb hn
  cases hp : Args.plain a w fs with
  | error e =>
    rw [hp] at h
    refine ⟨?_, fun n s hr => ?_⟩
    · unfold Args.startD; rw [h.1]; rfl
    · obtain ⟨t, ht, -⟩ := (hs n s).1 hr
      exact h.2 n t ht
  | ok T =>
    rw [hp] at h
    obtain ⟨⟨s0, h0, -⟩, h⟩ := h
    refine ⟨⟨_, (hs 0 _).2 ⟨s0, h0, rfl⟩⟩, ?_⟩
    intro n s hr
    obtain ⟨t, ht, rfl⟩ := (hs n s).1 hr
    obtain ⟨b1, -, b3, b4, b5⟩ := h n t ht
    obtain ⟨t0, ht0, hst⟩ := ht
    obtain ⟨o1, o2⟩ := start_small ht0
    have hsm := steps_small (show ∀ c, (a.movie w).addr c < 65536 from ha) hst (by rw [o1]; intro b hb; cases hb)
    have hnum := numbers_ofNat hsm
    refine ⟨⟨t.out.map (BitVec.ofNat 8), put_same _ _ _, by rw [hnum]; exact b1, ?_, ?_, ?_, ?_⟩, ?_⟩
    · rintro rfl
      cases hst
      rw [o1]; rfl
    · intro hf
      rw [hnum, b3 hf]; exact ⟨rfl, rfl⟩
    · intro e hf
      rw [hnum, b4 e hf]; exact ⟨rfl, rfl⟩
    · intro hi
      rw [hnum]
      refine b5 ?_
      rintro ⟨u, hu⟩
      exact hi ⟨_, (stepD_iff (show ∀ c, (a.movie w).addr c < 65536 from ha) hb hn t _).2 ⟨u, hu, rfl⟩⟩
    · intro q hq hown
      have := (steps_files hl (k := w.images.length) hst (by rw [o2]; show 0 + w.images.length = _; omega)).2 q hown
      rw [show (t.save (outFilename a.output a.input)).disk q = t.disk q from put_other _ hq _, this]
      show t0.g.fs q = fs q
      rw [o2]; rfl

/-! ### The hypotheses can be met -/

/-- The converter of the examples does not care about the output file. -/
theorem demo_blind (images : List (List U8)) (samples : List Flt) (err : Option PyErr) :
    Blind (demoArgs.grabber (demoWorld images samples err)) (outFilename demoArgs.output demoArgs.input) := by
  have hn := (C78_names (demo images) none (.inl rfl)).1
  intro i fs d
  have hc : ∀ q, OwnFile (demo images) i q → q ≠ outFilename demoArgs.output demoArgs.input := fun q hq => (hn i q hq).1
  have e1 := hc _ (.inr (.inr (.inr rfl)))
  have e2 := hc _ (.inr (.inl rfl))
  have e3 := hc _ (.inr (.inr (.inl rfl)))
  have htool : ∀ x y z fs, (demoArgs.grabber (demoWorld images samples err)).tool i (x :: y :: z) fs =
      .ok ((fs.put ((demo images).path i (txt ".BIN")) (demoScreen ((fs y).getD []))).put
        ((demo images).path i (txt ".AUX")) (demoScreen ((fs y).getD []))) := by
    intro x y z fs
    simp only [demo_path]
    rfl
  have hp : (demoArgs.grabber (demoWorld images samples err)).path i (txt ".bmp") = (demo images).path i (txt ".bmp") := rfl
  rw [hp]
  show (demoArgs.grabber (demoWorld images samples err)).tool i (_ :: _ :: _) _ = Except.map _ ((demoArgs.grabber (demoWorld images samples err)).tool i (_ :: _ :: _) _)
  rw [htool, htool, put_other _ e1]
  simp only [Except.map]
  rw [put_comm _ e2.symm, put_comm _ e3.symm]

theorem player_small (c : Cmd) : playerAddr c < 65536 := by
  cases c with
  | tick t p =>
    have : ∀ t p : Fin 32, playerAddr (.tick t p) < 65536 := by decide +kernel
    exact this t p
  | _ => decide

/-- C78: three pictures and four samples; before, the output file was there and had something else in it. -/
example : ∃ n s d T, Run demoArgs (demoWorld [[1#8], [2#8], [3#8]] [.fin 8192, .fin 0, .fin (-8192), .fin 0] none)
      (fun q => if q = txt "v.a2m" then some [1#8, 2#8] else if q = txt "v.mp4" then some [7#8] else none) n s ∧
    Args.plain demoArgs (demoWorld [[1#8], [2#8], [3#8]] [.fin 8192, .fin 0, .fin (-8192), .fin 0] none)
      (fun q => if q = txt "v.a2m" then some [1#8, 2#8] else if q = txt "v.mp4" then some [7#8] else none) = .ok T ∧
    Idle demoArgs (demoWorld [[1#8], [2#8], [3#8]] [.fin 8192, .fin 0, .fin (-8192), .fin 0] none) s ∧
    s.disk (txt "v.a2m") = some d ∧ numbers d = T.1 ∧ s.disk (txt "v.mp4") = some [7#8] := by
  generalize hfs : (fun q => if q = txt "v.a2m" then some [1#8, 2#8] else if q = txt "v.mp4" then some [7#8] else none : FS) = fs
  have hin : fs (txt "v.mp4") = some [7#8] := by rw [← hfs]; rfl
  generalize hw : demoWorld [[1#8], [2#8], [3#8]] [.fin 8192, .fin 0, .fin (-8192), .fin 0] none = w
  have ha : ∀ c, w.addr c < 65536 := by rw [← hw]; intro c; exact player_small c
  have hb : Blind (demoArgs.grabber w) (outFilename demoArgs.output demoArgs.input) := by rw [← hw]; exact demo_blind _ _ _
  have hn : ∀ i q, OwnFile (demoArgs.grabber w) i q → q ≠ outFilename demoArgs.output demoArgs.input ∧ q ≠ txt "v.mp4" := by
    rw [← hw]; exact (C78_names (demoArgs.grabber _) none (.inl rfl)).1
  have hl : LocalTool (demoArgs.grabber w) := by rw [← hw]; exact demo_local [[1#8], [2#8], [3#8]]
  obtain ⟨A, hA⟩ : ∃ A, demoArgs.audio w = .ok A := by rw [← hw]; exact ⟨_, rfl⟩
  obtain ⟨v, hv, -⟩ := videoNew_ok (demoArgs.movie w).mode
  have h := C78_disk demoArgs w fs ha hb (fun i h => (hn i _ h).1 rfl) hl
  cases hp : Args.plain demoArgs w fs with
  | error e =>
    unfold Args.plain at hp
    rw [hA, Except.bind_ok] at hp
    unfold Movie.start at hp
    rw [hv] at hp
    cases hp
  | ok T =>
    rw [hp] at h
    obtain ⟨⟨s0, h0⟩, h⟩ := h
    have hsame := C78_same demoArgs w fs ha hb (fun i h => (hn i _ h).1 rfl)
    obtain ⟨t0, ⟨t1, ht1, ht2⟩, -⟩ := (hsame 0 s0).1 h0
    obtain ⟨m, t, h3, h4⟩ := exists_halted _ ht2 (Nat.le_refl _)
    have hr := (hsame m _).2 ⟨t, ⟨t1, ht1, h3⟩, rfl⟩
    have hi : Idle demoArgs w (t.save (outFilename demoArgs.output demoArgs.input)) := by
      rintro ⟨u, hu⟩
      obtain ⟨x, hx, -⟩ := (stepD_iff (M := demoArgs.movie w) ha hb (fun i h => (hn i _ h).1 rfl) t u).1 hu
      exact h4 ⟨x, hx⟩
    obtain ⟨⟨d, d1, -, -, -, -, d2⟩, hq⟩ := h m _ hr
    refine ⟨m, _, d, T, hr, rfl, hi, ?_, (d2 hi).1, ?_⟩
    · exact (by decide : outFilename demoArgs.output demoArgs.input = txt "v.a2m") ▸ d1
    · rw [hq (txt "v.mp4") (by decide) (fun i _ ho => (hn i _ ho).2 rfl)]
      exact hin

end IIVision
