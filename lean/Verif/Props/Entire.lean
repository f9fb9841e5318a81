import Verif.Proofs.Entire
import Verif.Props.TableLoad
import Verif.Props.CommandLine
import Verif.Props.Pace
import Verif.Props.Pcm

/-! Claim C80: the whole program, from the words of the command line to the files on the disk. -/

namespace IIVision
open Spec

/-- **C80.** The number in the model stands for the limit that movie.py:132 computes with; infinity and NaN are no limit, minus infinity is like a negative one. -/
theorem C80_limit (M : Movie) (x : Flt) (hM : M.limit = limitNumber (maxBytes x)) (pos : Nat) : M.atLimit pos = limitReached (maxBytes x) pos := by
  unfold Movie.atLimit
  rw [hM]
  cases x with
  | fin q => simp [limitNumber, maxBytes, limitReached]
  | posInf => simp [limitNumber, maxBytes, limitReached]
  | negInf =>
    have : (-1 : Rat) ≤ (pos : Rat) := by
      have : (0 : Rat) ≤ pos := by positivity
      linarith
    simp [limitNumber, maxBytes, limitReached, this]
  | nan => simp [limitNumber, maxBytes, limitReached]

theorem setup_next_like (P : Setup) : NextLike P.movie P.next := by
  have h := nextT_like P.movie P.load
  unfold Setup.next
  cases P.soundEnd with
  | none => exact h
  | some e =>
    refine ⟨?_, ?_, ?_, ?_⟩
    · intro aux c hn X
      simp only
      by_cases hc : c.phase ≠ .new ∧ c.audio = []
      · rw [if_pos (show (c.withF X).phase ≠ .new ∧ (c.withF X).audio = [] from hc), if_pos (show (c.withF []).phase ≠ .new ∧ (c.withF []).audio = [] from hc)]; rfl
      · rw [if_neg (show ¬((c.withF X).phase ≠ .new ∧ (c.withF X).audio = []) from hc), if_neg (show ¬((c.withF []).phase ≠ .new ∧ (c.withF []).audio = []) from hc)]; exact h.idle hn X
    · intro aux c hn
      obtain ⟨-, ⟨au, rest, ha⟩, -⟩ := needs_cases hn
      have hc : ¬(c.phase ≠ .new ∧ c.audio = []) := by rw [ha]; simp
      simp only
      rw [if_neg (show ¬((c.withF []).phase ≠ .new ∧ (c.withF []).audio = []) from hc)]; exact h.exhausted hn
    · intro aux c hn f X
      obtain ⟨-, ⟨au, rest, ha⟩, -⟩ := needs_cases hn
      have hc : ¬(c.phase ≠ .new ∧ c.audio = []) := by rw [ha]; simp
      simp only
      rw [if_neg (show ¬((c.withF (f :: X)).phase ≠ .new ∧ (c.withF (f :: X)).audio = []) from hc), if_neg (show ¬((c.withF [f]).phase ≠ .new ∧ (c.withF [f]).audio = []) from hc)]; exact h.frame hn f X
    · intro aux c op c' hn
      simp only at hn
      split at hn
      · cases hn
      · exact h.progress hn

/-- A step with the bytes collected in a list. -/
inductive WStep (P : Setup) : Prog → Prog → Prop
  | worker {s t : Prog} : s.workerStep P.grabber = some t → WStep P s t
  | main {s t : Prog} : s.mainStepW P.movie P.next = some t → WStep P s t

inductive WSteps (P : Setup) : Nat → Prog → Prog → Prop
  | zero (s : Prog) : WSteps P 0 s s
  | succ {n : Nat} {s t u : Prog} : WSteps P n s t → WStep P t u → WSteps P (n + 1) s u

theorem stepW_iff {P : Setup} (ha : ∀ c, P.movie.addr c < 65536) (hb : Blind P.grabber P.name) (hn : ∀ i, ¬ OwnFile P.grabber i P.name)
    (s d : Prog) : P.Step (s.save P.name) d ↔ ∃ t, WStep P s t ∧ d = t.save P.name := by
  have hw : (s.save P.name).workerStep P.grabber = (s.workerStep P.grabber).map fun t => t.save P.name := by
    unfold Prog.workerStep
    show (if s.started = true then _ else _) = _
    by_cases hs : s.started = true
    · rw [if_pos hs, if_pos hs]
      have : P.grabber.workerStep (s.save P.name).g = (P.grabber.workerStep s.g).map fun g' => { g' with fs := g'.fs.put P.name (s.out.map (BitVec.ofNat 8)) } :=
        worker_put hb hn s.g _
      rw [this]
      cases P.grabber.workerStep s.g <;> rfl
    · rw [if_neg hs, if_neg hs]; rfl
  have hm : ((s.save P.name).mainStepW P.movie P.next).map (Prog.write P.name (s.save P.name).out.length) =
      (s.mainStepW P.movie P.next).map fun t => t.save P.name := by
    have : (s.save P.name).mainStepW P.movie P.next =
        (s.mainStepW P.movie P.next).map fun t => t.onDisk (s.disk.put P.name (s.out.map (BitVec.ofNat 8))) := mainW_onDisk P.movie P.next s _
    rw [this, Option.map_map]
    cases ht : s.mainStepW P.movie P.next with
    | none => rfl
    | some t =>
      obtain ⟨b, h1, h2⟩ := mainW_out ha ht
      simp only [Option.map_some, Function.comp]
      congr 1
      exact save_write h1 h2 (mainW_disk ht)
  constructor
  · intro h
    cases h with
    | worker h =>
      rw [hw] at h
      obtain ⟨t, ht, rfl⟩ := Option.map_eq_some_iff.1 h
      exact ⟨t, .worker ht, rfl⟩
    | main h =>
      rw [hm] at h
      obtain ⟨t, ht, rfl⟩ := Option.map_eq_some_iff.1 h
      exact ⟨t, .main ht, rfl⟩
  · rintro ⟨t, ht, rfl⟩
    cases ht with
    | worker ht => exact .worker (by rw [hw, ht]; rfl)
    | main ht => exact .main (by rw [hm, ht]; rfl)

theorem stepsW_iff {P : Setup} (ha : ∀ c, P.movie.addr c < 65536) (hb : Blind P.grabber P.name) (hn : ∀ i, ¬ OwnFile P.grabber i P.name)
    {n : Nat} {s d : Prog} : P.Steps n (s.save P.name) d ↔ ∃ t, WSteps P n s t ∧ d = t.save P.name := by
  induction n generalizing d with
  | zero =>
    constructor
    · intro h; cases h; exact ⟨s, .zero s, rfl⟩
    · rintro ⟨t, ht, rfl⟩; cases ht; exact .zero _
  | succ n ih =>
    constructor
    · intro h
      cases h with
      | succ h1 h2 =>
        obtain ⟨t, ht, rfl⟩ := ih.1 h1
        obtain ⟨u, hu, rfl⟩ := (stepW_iff ha hb hn t _).1 h2
        exact ⟨u, .succ ht hu, rfl⟩
    · rintro ⟨u, hu, rfl⟩
      cases hu with
      | @succ _ _ t _ h1 h2 => exact .succ (ih.2 ⟨t, h1, rfl⟩) ((stepW_iff ha hb hn t _).2 ⟨u, h2, rfl⟩)

theorem wstep_weight {P : Setup} {s t : Prog} (h : WStep P s t) : t.weight < s.weight := by
  cases h with
  | worker h => exact prog_step_weight (M := P.movie) (.worker h)
  | main h => exact main_stepW_weight (setup_next_like P) (G := P.grabber) h

/-- All that is known along a run with the bytes in a list. -/
theorem wsteps_facts {P : Setup} (ha : ∀ c, P.movie.addr c < 65536) (hl : LocalTool P.grabber) {fs : FS} {T : List Nat × Ending} {k n : Nat} {s t : Prog}
    (h : WSteps P n s t) (h0 : WInv P.movie P.next P.grabber fs T s) (h1 : ∀ b ∈ s.out, b < 256) (h2 : s.g.worker.within k) :
    WInv P.movie P.next P.grabber fs T t ∧ (∀ b ∈ t.out, b < 256) ∧ t.g.worker.within k ∧
    (∀ q, (∀ i, i < k → ¬ OwnFile P.grabber i q) → t.disk q = s.disk q) ∧ n + t.weight ≤ s.weight := by
  induction h with
  | zero => exact ⟨h0, h1, h2, fun _ _ => rfl, by omega⟩
  | succ _ hst ih =>
    obtain ⟨i1, i2, i3, i4, i5⟩ := ih h0 h1 h2
    have hw := wstep_weight hst
    cases hst with
    | worker hs =>
      refine ⟨winv_worker i1 hs, by rw [worker_small hs]; exact i2, ?_⟩
      have hs' := hs
      unfold Prog.workerStep at hs
      split at hs
      · split at hs
        · rename_i g hg
          cases hs
          obtain ⟨w1, w2⟩ := worker_files hl hg i3
          exact ⟨w1, fun q hq => (w2 q hq).trans (i4 q hq), by omega⟩
        · cases hs
      · cases hs
    | main hm =>
      refine ⟨winv_main (setup_next_like P) i1 hm, ?_, by rw [mainW_worker hm]; exact i3, fun q hq => by rw [mainW_disk hm]; exact i4 q hq, by omega⟩
      obtain ⟨b, e1, e2⟩ := mainW_out ha hm
      intro x hx
      rw [e1] at hx
      rcases List.mem_append.1 hx with hx | hx
      · exact i2 x hx
      · exact e2 x hx

/-- The threads cannot both be stuck while the main thread has work. -/
theorem winv_halted {P : Setup} {fs : FS} {T : List Nat × Ending} {s : Prog} (hi : WInv P.movie P.next P.grabber fs T s)
    (hh : ¬∃ t, WStep P s t) : s.out = T.1 ∧ s.main = T.2.status := by
  have hx := setup_next_like P
  have hmain : s.mainStepW P.movie P.next = none := by
    cases hx : s.mainStepW P.movie P.next with
    | none => rfl
    | some t => exact absurd ⟨t, .main hx⟩ hh
  cases hm : s.main with
  | finished => rw [hi.fin hm]; exact ⟨rfl, rfl⟩
  | raised e => rw [hi.raised e hm]; exact ⟨rfl, rfl⟩
  | running =>
    unfold Prog.mainStepW at hmain
    rw [hm] at hmain
    simp only at hmain
    split at hmain
    · split at hmain
      · rename_i hst'
        have hy := hi.run hm hst'
        unfold GState.consumerStep at hmain
        rw [hy] at hmain
        cases hmain
      · cases hmain
    · cases hmain
  | asking =>
    obtain ⟨h1, h2, h3⟩ := hi.ask hm
    obtain ⟨r, l1, l2⟩ := hi.loop (.inr hm)
    unfold Prog.mainStepW at hmain
    rw [hm] at hmain
    simp only at hmain
    have hcons : s.g.consumerStep = none := by
      cases hx : s.g.consumerStep with
      | none => rfl
      | some g => rw [hx] at hmain; simp only at hmain; split at hmain <;> cases hmain
    have hG : Stopped P.grabber s.g := by
      rintro ⟨t, ht⟩
      cases ht with
      | worker hw =>
        refine hh ⟨{ s with g := t }, .worker ?_⟩
        unfold Prog.workerStep
        rw [if_pos h1, hw]
      | consumer hc => rw [hcons] at hc; cases hc
    rcases stopped_cases hi.ginv hG with hc | ⟨e, hc⟩ | ⟨hc, hq, e, he⟩
    · rw [hc] at h3; rcases h3 with h | h <;> cases h
    · rw [hc] at h3; rcases h3 with h | h <;> cases h
    · have hact := hi.ginv.active (.inl hc)
      rw [hq, he] at hact
      have e1 : s.g.out = (wholeVideo P.grabber fs).1 := by
        have := congrArg Prod.fst hact
        simpa [queued, Grabber.toCome] using this
      have e2 : (wholeVideo P.grabber fs).2 = .hangs e := (congrArg Prod.snd hact).symm
      rw [e1, List.drop_length, follow_missing hx l1 h2, e2] at l2
      rw [l2]
      exact ⟨by rw [List.append_nil], rfl⟩


/-! ### The start -/

theorem lift_ok {α : Type} {x : Except PyErr α} {y : α} (h : Stop.lift x = .ok y) : x = .ok y := by
  cases x with
  | error e => cases h
  | ok z => cases h; rfl

theorem lift_error {α : Type} {x : Except PyErr α} {e : Stop} (h : Stop.lift x = .error e) : ∃ e', x = .error e' ∧ e = .exception e' := by
  cases x with
  | error e => cases h; exact ⟨_, rfl, rfl⟩
  | ok z => cases h

/-- The parts of a start. -/
theorem launch_parts {H : Host} {argv : List Text} {fs : FS} {P : Setup} {s0 : Prog} (h : launch H argv fs = .ok (P, s0)) :
    ∃ c norm text rate tpf v, parseArgs H.reads argv = .ok c ∧ H.normalize c = .ok norm ∧
      H.rate = .ok text ∧ frameRate H.double text = .ok rate ∧ ticksPerFrame H.double c.bitrate rate = .ok tpf ∧
      Video.new c.mode = .ok v ∧ H.openError (outFilename c.output c.input) = none ∧
      P = { movie := { mode := c.mode, everyN := c.everyN, limit := limitNumber (maxBytes c.maxMb), addr := H.addr,
                       table := fun _ _ => 0, thr := tickThreshold H.double tpf },
            grabber := { filename := c.input, mode := c.mode, palette := c.palette, images := H.images, readError := H.readError, tool := H.tool },
            load := c.mode.loadEditDistances H.files c.palette,
            soundEnd := ((H.format c.bitrate).stream H.rnd H.bad norm H.buffers).2 <|> H.soundError,
            name := outFilename c.output c.input } ∧
      s0 = Prog.save P.name { g := P.grabber.start fs, started := false, main := .running, coder := { phase := .new, audio := ((H.format c.bitrate).stream H.rnd H.bad norm H.buffers).1, frames := [], ticks := 0, frameNumber := 0, v, rng := ⟨H.tape, 0⟩, gen := none, target := none, lastBank := false }, pos := 0, aux := false, out := [] } := by
  unfold launch at h
  cases hc : parseArgs H.reads argv with
  | error x => rw [hc] at h; cases h
  | ok c =>
  rw [hc] at h
  simp only [Except.bind_ok] at h
  cases h1 : H.normalize c with
  | error e => rw [h1] at h; cases h
  | ok norm =>
  rw [h1] at h
  cases h2 : H.rate with
  | error e => rw [h2] at h; cases h
  | ok text =>
  rw [h2] at h
  simp only [Stop.lift, Except.bind_ok] at h
  cases h3 : frameRate H.double text with
  | error e => rw [h3] at h; cases h
  | ok rate =>
  rw [h3] at h
  simp only [Except.bind_ok] at h
  cases h4 : ticksPerFrame H.double c.bitrate rate with
  | error e => rw [h4] at h; cases h
  | ok tpf =>
  rw [h4] at h
  simp only [Except.bind_ok] at h
  obtain ⟨v, hv, -⟩ := videoNew_ok c.mode
  unfold Movie.start at h
  simp only [hv, Except.bind_ok] at h
  refine ⟨c, norm, text, rate, tpf, v, rfl, h1, rfl, h3, h4, hv, ?_⟩
  cases h5 : H.openError (outFilename c.output c.input) with
  | some e => simp only [h5] at h; cases h
  | none =>
    simp only [h5] at h
    cases h
    exact ⟨rfl, rfl, rfl⟩

/-- The parts make a start. -/
theorem launch_of {H : Host} {argv : List Text} {fs : FS} {c : Command} {norm : Flt} {text : Text} {rate tpf : Rat}
    (hc : parseArgs H.reads argv = .ok c) (h1 : H.normalize c = .ok norm)
    (h2 : H.rate = .ok text) (h3 : frameRate H.double text = .ok rate) (h4 : ticksPerFrame H.double c.bitrate rate = .ok tpf)
    (h5 : H.openError (outFilename c.output c.input) = none) : ∃ P s0, launch H argv fs = .ok (P, s0) := by
  obtain ⟨v, hv, -⟩ := videoNew_ok c.mode
  unfold launch Movie.start
  simp only [hc, h1, h2, h3, h4, h5, hv, Stop.lift, Except.bind_ok]
  exact ⟨_, _, rfl⟩

/-- **C80.** Whatever the words of the command line, the sound, the video, the converter, the data files and the disk are, once the program has started and
however its two threads are interleaved, if the output file is none of the files of the pictures and the converter leaves it alone: the
output file exists, what was in it before is gone, and it has a prefix of the bytes of the simple loop, all of them when the program has finished or an exception has ended it,
and exactly those the loop writes when nothing moves any more; this is so after a bounded number of steps; and of all other files only those of the
pictures of the input change. -/
theorem C80_program {H : Host} {argv : List Text} {fs : FS} {P : Setup} {s0 : Prog} (h : launch H argv fs = .ok (P, s0)) (ha : ∀ c, H.addr c < 65536)
    (hb : Blind P.grabber P.name) (hn : ∀ i, ¬ OwnFile P.grabber i P.name) (hl : LocalTool P.grabber) :
    Running H argv fs 0 s0 ∧ ∀ n s, Running H argv fs n s →
      n ≤ 4 * H.images.length + s0.coder.audio.length + 7 ∧
      (∃ d, s.disk P.name = some d ∧ numbers d <+: (Setup.plain P fs s0).1 ∧
        (n = 0 → d = []) ∧
        (s.main = .finished → numbers d = (Setup.plain P fs s0).1 ∧ (Setup.plain P fs s0).2 = .complete) ∧
        (∀ e, s.main = .raised e → numbers d = (Setup.plain P fs s0).1 ∧ (Setup.plain P fs s0).2 = .raised e) ∧
        (Still H argv fs s → numbers d = (Setup.plain P fs s0).1 ∧ s.main = (Setup.plain P fs s0).2.status)) ∧
      ∀ q, q ≠ P.name → (∀ i, i < H.images.length → ¬ OwnFile P.grabber i q) → s.disk q = fs q := by
  refine ⟨⟨P, s0, h, .zero _⟩, ?_⟩
  rintro n s ⟨P', s0', h', hst⟩
  cases h.symm.trans h'
  obtain ⟨c, norm, text, rate, tpf, v, -, -, -, -, -, -, -, hP, hs0⟩ := launch_parts h
  have haddr : P.movie.addr = H.addr := by rw [hP]
  have himg : P.grabber.images = H.images := by rw [hP]
  have ha' : ∀ c, P.movie.addr c < 65536 := by rw [haddr]; exact ha
  generalize hx : ({ g := P.grabber.start fs, started := false, main := .running, coder := { phase := .new, audio := ((H.format c.bitrate).stream H.rnd H.bad norm H.buffers).1, frames := [], ticks := 0, frameNumber := 0, v, rng := ⟨H.tape, 0⟩, gen := none, target := none, lastBank := false }, pos := 0, aux := false, out := [] } : Prog) = x at hs0
  have hcoder : s0.coder = x.coder := by rw [hs0]; rfl
  rw [hs0] at hst
  obtain ⟨t, ht, rfl⟩ := (stepsW_iff ha' hb hn).1 hst
  have h0 : WInv P.movie P.next P.grabber fs (Setup.plain P fs s0) x := by
    unfold Setup.plain
    rw [hcoder]
    subst hx
    refine ⟨gInv_start _ fs, fun _ => rfl, fun _ => ?_, ?_, ?_, ?_, ?_⟩
    · refine ⟨((H.format c.bitrate).stream H.rnd H.bad norm H.buffers).1.length + 2, ?_, ?_⟩
      rotate_left
      · simp only [List.nil_append]
        rfl
      · simp [Coder.left]; omega
    · intro _ hh; cases hh
    · intro hh; cases hh
    · intro hh; cases hh
    · intro e hh; cases hh
  have hwt : x.weight ≤ 4 * H.images.length + s0.coder.audio.length + 7 := by
    rw [hcoder, ← himg]
    subst hx
    simp [Prog.weight, GState.weight, Grabber.start, Worker.weight, Consumer.weight, Coder.left, MainStatus.weight]
    omega
  obtain ⟨hi, hsm, -, hq, hw⟩ := wsteps_facts ha' hl (k := H.images.length) ht h0 (by subst hx; intro b hb; cases hb)
    (by subst hx; show 0 + P.grabber.images.length = _; rw [himg]; omega)
  have hnum := numbers_ofNat hsm
  refine ⟨by omega, ⟨t.out.map (BitVec.ofNat 8), put_same _ _ _, ?_, ?_, ?_, ?_, ?_⟩, ?_⟩
  · rw [hnum]
    cases hm : t.main with
    | running => obtain ⟨r, -, h⟩ := hi.loop (.inl hm); rw [h]; exact List.prefix_append _ _
    | asking => obtain ⟨r, -, h⟩ := hi.loop (.inr hm); rw [h]; exact List.prefix_append _ _
    | finished => rw [hi.fin hm]
    | raised e => rw [hi.raised e hm]
  · rintro rfl
    cases ht
    subst hx
    rfl
  · intro hf
    rw [hnum, hi.fin hf]; exact ⟨rfl, rfl⟩
  · intro e hf
    rw [hnum, hi.raised e hf]; exact ⟨rfl, rfl⟩
  · intro hs
    rw [hnum]
    refine winv_halted hi ?_
    rintro ⟨u, hu⟩
    exact hs P s0 h ⟨_, (stepW_iff ha' hb hn t _).2 ⟨u, hu, rfl⟩⟩
  · intro q hq1 hown
    rw [show (t.save P.name).disk q = t.disk q from put_other _ hq1 _, hq q hown]
    subst hx
    rfl

/-! ### A good input -/

/-- A loop that ends well writes the stream. -/
theorem follow_emitLoop {M M' : Movie} {nx : Bool → Coder → Resumed} (hx : NextLike M nx) (hM : ∃ t, M' = { M with table := t }) :
    ∀ (r : Nat) (c : Coder) (pos : Nat) (aux : Bool) (ops : List Opcode) (b : List Nat), c.left < r →
      M'.emitLoop nx r c pos aux = .ok (ops, b) → follow M nx .ends r c pos aux = (b, .complete) := by
  obtain ⟨t, rfl⟩ := hM
  intro r
  induction r with
  | zero => intro c pos aux ops b h; omega
  | succ r ih =>
    intro c pos aux ops b hl h
    rw [follow, ite_self]
    rw [Movie.emitLoop] at h
    cases hn : nx aux c with
    | error e => rw [hn] at h; cases h
    | ok o =>
      rw [hn, Except.bind_ok] at h
      cases o with
      | none => cases h; rfl
      | some oc =>
        obtain ⟨op, c'⟩ := oc
        have hp := hx.progress hn
        simp only at h ⊢
        by_cases hlim : M.atLimit pos = true
        · rw [if_pos (show Movie.atLimit { M with table := t } pos = true from hlim)] at h
          rw [if_pos hlim]
          cases h
          rfl
        · rw [if_neg (show ¬ Movie.atLimit { M with table := t } pos = true from hlim)] at h
          rw [if_neg hlim]
          cases hk : M.ackIfDue (pos + (op.emit M.addr).length) aux with
          | error e =>
            rw [show Movie.ackIfDue { M with table := t } (pos + (op.emit M.addr).length) aux = _ from hk] at h
            cases h
          | ok v =>
            obtain ⟨o1, b1, pos1, aux1⟩ := v
            rw [show Movie.ackIfDue { M with table := t } (pos + (op.emit M.addr).length) aux = _ from hk] at h
            simp only [Except.bind_ok] at h ⊢
            cases hr : Movie.emitLoop { M with table := t } nx r c' pos1 aux1 with
            | error e => rw [hr] at h; cases h
            | ok v =>
              obtain ⟨o2, b2⟩ := v
              rw [hr] at h
              cases h
              rw [ih c' pos1 aux1 o2 b2 (by omega) hr]

theorem stream_range (F : Pcm.Format) (rnd : Rat → Flt) (bad : Flt → Int) (n : Flt) (buffers : List (List U8)) :
    ∀ x ∈ (F.stream rnd bad n buffers).1, -15 ≤ x ∧ x ≤ 16 := by
  induction buffers with
  | nil => intro x hx; cases hx
  | cons b l ih =>
    intro x hx
    unfold Pcm.Format.stream at hx
    cases hd : F.decode b with
    | error e => rw [hd] at hx; cases hx
    | ok a =>
      rw [hd] at hx
      rcases List.mem_append.1 hx with hx | hx
      · obtain ⟨y, -, rfl⟩ := List.mem_map.1 hx
        exact clip_range _
      · exact ih x hx

/-- When there is a normalisation. -/
theorem normalize_iff (H : Host) (c : Command) (norm : Flt) : H.normalize c = .ok norm ↔
    (H.format c.bitrate).normalization H.rnd c.normalization H.analysed = .ok norm ∧
    (H.analysisError = none ∨ (c.normalization ≠ none ∧ c.normalization ≠ some (.fin 0)) ∨ 10485760 < H.analysed.flatten.length) := by
  obtain ⟨-, a2, a3⟩ := Pcm.C71_analysed H.analysed
  unfold Host.normalize
  cases he : H.analysisError with
  | none => simp
  | some e =>
    simp only [reduceCtorEq, false_or]
    have hk : (Pcm.collect Pcm.readBytes [] H.analysed).length ≤ Pcm.readBytes ↔ ¬ 10485760 < H.analysed.flatten.length := by
      show _ ≤ 10485760 ↔ _
      constructor
      · intro h h'; have := (a3 h').1; omega
      · intro h; rw [a2 (by omega)]; omega
    split
    · rename_i h
      rw [hk] at h
      constructor
      · intro h'; cases h'
      · rintro ⟨-, h1 | h1⟩
        · rcases h.1 with h2 | h2
          · exact absurd h2 h1.1
          · exact absurd h2 h1.2
        · exact absurd h1 h.2
    · rename_i h
      rw [hk] at h
      refine ⟨fun h' => ⟨h', ?_⟩, And.left⟩
      by_contra h1
      push Not at h1
      exact h ⟨or_iff_not_imp_left.mpr h1.1, by omega⟩

/-- **C80.** The program gets to work exactly if everything it needs for that is there, and what it works with is what the command line says. -/
theorem C80_starts (H : Host) (argv : List Text) (fs : FS) :
    (∃ s, Running H argv fs 0 s) ↔ ∃ c norm tpf, Starts H argv c norm tpf := by
  constructor
  · rintro ⟨s, P, s0, h, -⟩
    obtain ⟨c, norm, text, rate, tpf, v, h1, h2, h3, h4, h5, h6, h7, -⟩ := launch_parts h
    exact ⟨c, norm, tpf, (C77_command_line _ _ _).1 h1, ((normalize_iff _ _ _).1 h2).1, ((normalize_iff _ _ _).1 h2).2, ⟨text, rate, h3, h4, h5⟩, h7⟩
  · rintro ⟨c, norm, tpf, h1, h2, h2', ⟨text, rate, h3, h4, h5⟩, h7⟩
    have h2 := (normalize_iff _ _ _).2 ⟨h2, h2'⟩
    obtain ⟨P, s0, h⟩ := launch_of (fs := fs) ((C77_command_line _ _ _).2 h1) h2 h3 h4 h5 h7
    exact ⟨s0, P, s0, h, .zero _⟩

/-- What a start consists of is determined. -/
theorem starts_launch {H : Host} {argv : List Text} {fs : FS} {c : Command} {norm : Flt} {tpf : Rat} (h : Starts H argv c norm tpf) :
    ∃ P s0 v, launch H argv fs = .ok (P, s0) ∧ Video.new c.mode = .ok v ∧
      P = { movie := { mode := c.mode, everyN := c.everyN, limit := limitNumber (maxBytes c.maxMb), addr := H.addr,
                       table := fun _ _ => 0, thr := tickThreshold H.double tpf },
            grabber := hostGrabber H c,
            load := c.mode.loadEditDistances H.files c.palette,
            soundEnd := ((H.format c.bitrate).stream H.rnd H.bad norm H.buffers).2 <|> H.soundError,
            name := outFilename c.output c.input } ∧
      s0.coder = { phase := .new, audio := hostSound H c norm, frames := [], ticks := 0, frameNumber := 0, v,
                   rng := ⟨H.tape, 0⟩, gen := none, target := none, lastBank := false } := by
  obtain ⟨h1, h2, h2', ⟨text, rate, h3, h4, h5⟩, h7⟩ := h
  have h2 := (normalize_iff _ _ _).2 ⟨h2, h2'⟩
  have h1 := (C77_command_line _ _ _).2 h1
  obtain ⟨P, s0, h⟩ := launch_of (fs := fs) h1 h2 h3 h4 h5 h7
  obtain ⟨c', norm', text', rate', tpf', v, g1, g2, g3, g4, g5, g6, g7, g8, g9⟩ := launch_parts h
  cases h1.symm.trans g1
  cases h2.symm.trans g2
  cases h3.symm.trans g3
  cases h4.symm.trans g4
  cases h5.symm.trans g5
  exact ⟨P, s0, v, h, g6, g8, by rw [g9]; rfl⟩

/-- **C80.** With a good input, whatever the words of the command line are, the program writes the stream of `hostMovie` for the sound and the
converted pictures: the output file has at every moment (in every interleaving) a beginning of it, the program does not fail, and when nothing moves any more it has finished and
the file is complete. -/
theorem C80_good {H : Host} {argv : List Text} {fs : FS} {c : Command} {norm : Flt} {tpf : Rat} (h : Starts H argv c norm tpf)
    (hs : Smooth H c norm fs) (hf : Separate H c) (ha : ∀ x, H.addr x < 65536) :
    ∃ t ops bytes, c.mode.loadEditDistances H.files c.palette = .ok t ∧
      MovieInput (hostMovie H c tpf t) (hostSound H c norm) (wholeVideo (hostGrabber H c) fs).1 ∧
      (hostMovie H c tpf t).stream H.tape (hostSound H c norm) (wholeVideo (hostGrabber H c) fs).1 = .ok (ops, bytes) ∧
      (∃ s, Running H argv fs 0 s) ∧ ∀ n s, Running H argv fs n s →
        n ≤ 4 * H.images.length + (hostSound H c norm).length + 7 ∧ (∀ e, s.main ≠ .raised e) ∧
        (∃ d, s.disk (outFilename c.output c.input) = some d ∧ numbers d <+: bytes ∧ (n = 0 → d = []) ∧
          (s.main = .finished → numbers d = bytes) ∧ (Still H argv fs s → s.main = .finished)) ∧
        ∀ q, q ≠ outFilename c.output c.input → (∀ i, i < H.images.length → ¬ OwnFile (hostGrabber H c) i q) → s.disk q = fs q := by
  obtain ⟨P, s0, v, hl, hv, hP, hc⟩ := starts_launch (fs := fs) h
  obtain ⟨t, ht⟩ : ∃ t, c.mode.loadEditDistances H.files c.palette = .ok t := by
    rcases load_cases H.files c.mode c.palette with ⟨-, h⟩ | ⟨h, -⟩
    · exact h
    · exact absurd hs.table h
  have hlim : limitNumber (maxBytes c.maxMb) = match c.maxMb with | .fin x => 1024 * 1024 * x | _ => 0 := by
    cases hm : c.maxMb with
    | negInf => exact absurd hm hs.limit.1
    | _ => rfl
  have hM : hostMovie H c tpf t = { P.movie with table := t } := by
    rw [hP]; unfold hostMovie; simp only [hlim]; rfl
  have hin : MovieInput (hostMovie H c tpf t) (hostSound H c norm) (wholeVideo (hostGrabber H c) fs).1 := by
    refine ⟨hs.stride, ?_, ?_, ?_, ?_⟩
    · unfold hostMovie
      simp only
      cases hm : c.maxMb with
      | fin q => have := hs.limit.2 q hm; simp only; positivity
      | _ => exact le_refl _
    · show (H.double (tpf * H.double ((0 : Nat) : Rat))).ceil.toNat = 0
      rw [Nat.cast_zero, hs.zero, mul_zero, hs.zero]; rfl
    · exact stream_range _ _ _ _ _
    · intro f hf
      obtain ⟨fs1, i, image, fs2, item, h1, h2⟩ := video_items _ _ _ _ f hf
      obtain ⟨t1, t2⟩ := toFrame_ok h2
      refine ⟨t1.2.1, ?_, ?_⟩
      · intro hm
        obtain ⟨x, hx⟩ := decode_aux h1 hm
        rcases t2 with ⟨t2, -⟩ | ⟨y, b, t2, t3, t4⟩
        · rw [hx] at t2; cases t2
        · exact ⟨b, t3, t4.2.1, hs.clean hm f hf b (.inr t3)⟩
      · intro hm
        exact hs.clean hm f hf _ (.inl rfl)
  obtain ⟨body, bytes, -, -, -, hstream, -⟩ := movie_facts _ _ _ hin H.tape
  have hplain : Setup.plain P fs s0 = (bytes, .complete) := by
    unfold Setup.plain
    have hG : P.grabber = hostGrabber H c := by rw [hP]
    rw [hG, hs.video, hc]
    have hnx : P.next = Coder.next (hostMovie H c tpf t) := by
      funext aux x
      unfold Setup.next
      have : P.soundEnd = none := by rw [hP]; simp only [hs.sound.1, hs.sound.2]; rfl
      rw [this]
      simp only
      rw [← nextT_ok, hM, show P.load = .ok t by rw [hP]; exact ht]
      rfl
    refine follow_emitLoop (setup_next_like P) ⟨t, hM⟩ _ _ 0 false (.header (hostMovie H c tpf t).mode :: body ++ [.terminate]) bytes (by simp [Coder.left]; omega) ?_
    · rw [hnx]
      unfold Movie.stream Movie.start at hstream
      rw [show Video.new (hostMovie H c tpf t).mode = .ok v from hv] at hstream
      exact hstream
  have hG : P.grabber = hostGrabber H c := by rw [hP]
  have hN : P.name = outFilename c.output c.input := by rw [hP]
  obtain ⟨p0, p1⟩ := C80_program hl ha (by rw [hG, hN]; exact hf.blind) (by rw [hG, hN]; exact hf.name) (by rw [hG]; exact hf.tool)
  rw [hplain, hN, hG, hc] at p1
  refine ⟨t, _, bytes, ht, hin, hstream, ⟨s0, p0⟩, ?_⟩
  intro n s hr
  obtain ⟨q1, ⟨d, q2, q3, q4, q5, q6, q7⟩, q8⟩ := p1 n s hr
  refine ⟨q1, ?_, ⟨d, q2, q3, q4, fun hf => (q5 hf).1, fun hf => (q7 hf).2⟩, q8⟩
  intro e he
  cases (q6 e he).2

/-! ### No table -/

attribute [local irreducible] screenHoles allCells

/-- The first tick asks for the table. -/
theorem nextT_missing {M : Movie} {e : PyErr} {c : Coder} {v0 : Video} {x : Int} {l : List Int} {f : Frame} {X : List Frame} {aux : Bool} (hb : aux = false) (hnew : Video.new M.mode = .ok v0)
    (hz : M.everyN ≠ 0) (ht : M.thr 0 = 0) (h1 : c.phase = .header) (h2 : c.audio = x :: l) (h3 : c.frames = f :: X) (h4 : c.frameNumber = 0)
    (h5 : c.ticks = 0) (h6 : c.v = v0) (hf : ∃ T, M.bitmapOf f = .ok T) : Coder.nextT M (.error e) aux c = .error e := by
  obtain ⟨T, hT⟩ := hf
  unfold Coder.nextT
  simp only [h1, h2, if_true]
  unfold Coder.iterT Coder.fetch
  simp only [h3, h4, h5, ht, Nat.zero_le, if_true]
  unfold Coder.newFrame Movie.shouldEncode
  rw [if_neg hz]
  have h0 : ((((0 : Nat) + 1 : Nat) : Int) - 1) % M.everyN == 0 := by simp
  simp only [h0, hT, Except.bind_ok, if_true]
  show ((Coder.flip aux _) >>= _) = _
  unfold Coder.flip
  rw [if_neg (by simp)]
  show ((Coder.tickOpT (.error e) _ x) >>= _) = _
  rw [tickOpT_missing hnew e _ x T (by simp only [h6]) (by simp only [hb])]
  rfl

/-- **C80.** `--palette UNKNOWN`, which the command line accepts, does not work with the data files that the table generator makes: with some sound and a first picture that can be
converted, the program ends with FileNotFoundError, in every interleaving, and leaves a file with only a header. -/
theorem C80_unknown {H : Host} {argv : List Text} {fs : FS} {c : Command} {norm : Flt} {tpf : Rat} (h : Starts H argv c norm tpf)
    (hp : c.palette = .UNKNOWN) {deltaE : RGB → RGB → Int} (hd : ColourDifference deltaE) {dm0 : Nat → Nat → Int} (hfiles : makeDataTables deltaE dm0 = .ok H.files)
    (hz : c.everyN ≠ 0) (hlim : c.maxMb ≠ .negInf ∧ ∀ q, c.maxMb = .fin q → 0 ≤ q) (h0 : H.double 0 = 0)
    (hs : hostSound H c norm ≠ []) (hv : (wholeVideo (hostGrabber H c) fs).1 ≠ []) (hf : Separate H c) (ha : ∀ x, H.addr x < 65536)
    {n : Nat} {s : Prog} (hr : Running H argv fs n s) :
    n ≤ 4 * H.images.length + (hostSound H c norm).length + 7 ∧ s.main ≠ .finished ∧
    ∃ d, s.disk (outFilename c.output c.input) = some d ∧ numbers d <+: Opcode.emit H.addr (.header c.mode) ∧
      (Still H argv fs s → s.main = .raised .fileNotFound ∧ numbers d = Opcode.emit H.addr (.header c.mode)) := by
  obtain ⟨P, s0, v, hl, hnew, hP, hc⟩ := starts_launch (fs := fs) h
  have hload : c.mode.loadEditDistances H.files c.palette = .error .fileNotFound := by
    obtain ⟨files, m1, m2⟩ := C79_made hd dm0
    cases hfiles.symm.trans m1
    rcases load_cases H.files c.mode c.palette with ⟨h, -⟩ | ⟨-, h⟩
    · exact absurd hp ((m2 _ _).1 h)
    · exact h
  have hG : P.grabber = hostGrabber H c := by rw [hP]
  have hN : P.name = outFilename c.output c.input := by rw [hP]
  obtain ⟨x, l, hxl⟩ := List.exists_cons_of_ne_nil hs
  obtain ⟨f, X, hfX⟩ := List.exists_cons_of_ne_nil hv
  have hmode : P.movie.mode = c.mode := by rw [hP]
  have hplain : Setup.plain P fs s0 = (Opcode.emit H.addr (.header c.mode), .raised .fileNotFound) := by
    unfold Setup.plain
    rw [hG, hc]
    simp only
    rw [hxl, hfX]
    have hT : ∃ T, P.movie.bitmapOf f = .ok T := by
      refine bitmapOf_total fun hm => ?_
      obtain ⟨fs1, i, image, fs2, item, h1, h2⟩ := video_items _ _ _ _ f (show f ∈ (wholeVideo (hostGrabber H c) fs).1 by rw [hfX]; exact .head _)
      obtain ⟨y, hy⟩ := decode_aux h1 (show c.mode = .DHGR from hmode.symm.trans hm)
      rcases (toFrame_ok h2).2 with ⟨t2, -⟩ | ⟨z, b, t2, t3, t4⟩
      · rw [hy] at t2; cases t2
      · rw [t3]; exact fun h => nomatch h
    have hthr : P.movie.thr 0 = 0 := by
      rw [hP]
      show (H.double (tpf * H.double ((0 : Nat) : Rat))).ceil.toNat = 0
      rw [Nat.cast_zero, h0, mul_zero, h0]; rfl
    have hzero : P.movie.atLimit 0 = false := by
      rw [C80_limit P.movie c.maxMb (by rw [hP])]
      cases hm : c.maxMb with
      | negInf => exact absurd hm hlim.1
      | fin q =>
        have := hlim.2 q hm
        simp only [maxBytes, limitReached, Bool.and_eq_false_iff, decide_eq_false_iff_not, not_not]
        by_cases hq : (1024 * 1024 * q : Rat) = 0
        · exact .inl hq
        · right
          intro hle
          apply hq
          apply le_antisymm
          · simpa using hle
          · positivity
      | _ => rfl
    have haddr : P.movie.addr = H.addr := by rw [hP]
    have hlo : P.load = .error .fileNotFound := by rw [hP]; exact hload
    have n1 : ∀ (c0 : Coder), c0.phase = .new → P.next false c0 = .ok (some (.header c.mode, { c0 with phase := .header })) := by
      intro c0 hc0
      have : Coder.nextT P.movie P.load false c0 = .ok (some (.header c.mode, { c0 with phase := .header })) := by
        unfold Coder.nextT; rw [hc0, hmode]
      unfold Setup.next
      rw [this]
      cases P.soundEnd with
      | none => rfl
      | some e => simp only; rw [if_neg (fun hh => hh.1 hc0)]
    have n2 : ∀ (c0 : Coder), c0.audio ≠ [] → P.next false c0 = Coder.nextT P.movie (.error .fileNotFound) false c0 := by
      intro c0 hc0
      unfold Setup.next
      rw [hlo]
      cases P.soundEnd with
      | none => rfl
      | some e => simp only; rw [if_neg (fun hh => hc0 hh.2)]
    rw [show (x :: l).length + 2 = (l.length + 1) + 1 + 1 by simp]
    rw [follow, if_neg (by intro hh; cases hh.2)]
    simp only
    rw [n1 _ rfl]
    simp only
    rw [hzero, if_neg (by decide)]
    have hack : P.movie.ackIfDue (0 + (Opcode.emit P.movie.addr (.header c.mode)).length) false =
        .ok ([], [], 0 + (Opcode.emit P.movie.addr (.header c.mode)).length, false) := by
      unfold Movie.ackIfDue
      rw [header_length]
      rfl
    rw [hack]
    simp only
    rw [follow, if_neg (by intro hh; cases hh.2)]
    simp only
    rw [n2 _ (by simp), nextT_missing rfl (by rw [hmode]; exact hnew) (by rw [hP]; exact hz) hthr rfl rfl rfl rfl rfl rfl hT]
    simp only [List.append_nil, haddr]
  obtain ⟨-, p1⟩ := C80_program hl ha (by rw [hG, hN]; exact hf.blind) (by rw [hG, hN]; exact hf.name) (by rw [hG]; exact hf.tool)
  rw [hplain, hN, hG, hc] at p1
  obtain ⟨q1, ⟨d, q2, q3, q4, q5, q6, q7⟩, -⟩ := p1 n s hr
  refine ⟨q1, fun hf => ?_, d, q2, q3, fun hf => ⟨(q7 hf).2, (q7 hf).1⟩⟩
  cases (q5 hf).2

/-! ### The hypotheses can be met -/

/-- A run with a bound on its length can be continued to its end. -/
theorem exists_still {H : Host} {argv : List Text} {fs : FS} {B : Nat} (hB : ∀ n s, Running H argv fs n s → n ≤ B) :
    ∀ (k n : Nat) (s : Prog), Running H argv fs n s → B ≤ n + k → ∃ m t, Running H argv fs m t ∧ Still H argv fs t := by
  have hext : ∀ {n s} {P s0}, Running H argv fs n s → launch H argv fs = .ok (P, s0) → ∀ u, P.Step s u → Running H argv fs (n + 1) u := by
    rintro n s P s0 ⟨P', s0', h0, h1⟩ hl u hu
    cases h0.symm.trans hl
    exact ⟨P, s0, hl, .succ h1 hu⟩
  intro k
  induction k with
  | zero =>
    intro n s h hk
    refine ⟨n, s, h, ?_⟩
    rintro P s0 hl ⟨u, hu⟩
    have := hB (n + 1) u (hext h hl u hu)
    omega
  | succ k ih =>
    intro n s h hk
    by_cases hu : Still H argv fs s
    · exact ⟨n, s, h, hu⟩
    · unfold Still at hu
      simp only [not_forall, not_not] at hu
      obtain ⟨P, s0, hl, u, hu⟩ := hu
      exact ih (n + 1) u (hext h hl u hu) (by omega)

/-- An input of three pictures and four samples of mono sound. -/
def demoHost : Host :=
  { reads := demoReads, double := id, rnd := Flt.fin, bad := x86Bad, format := fun _ => { channels := 1, rnd := id, resample := id },
    analysed := [], buffers := [[0#8, 32#8, 0#8, 0#8], [0#8, 224#8, 0#8, 0#8]], soundError := none,
    rate := .ok (decText 30 ++ txt "/" ++ decText 1), images := [[1#8], [2#8], [3#8]], readError := none,
    tool := (demo [[1#8], [2#8], [3#8]]).tool, addr := playerAddr,
    files := [(txt "transcoder/data/HGR_palette_5_edit_distance.npz", flatTable 7), (txt "transcoder/data/DHGR_palette_5_edit_distance.npz", flatTable 13)],
    tape := fun _ => 0, openError := fun _ => none }

def demoWords : List Text := [txt "--audio_norm", txt "1.5", txt "v.mp4"]

def demoSettings : Command := ⟨txt "v.mp4", none, .fin 0, some (.fin (3 / 2)), 14700, 2, .DHGR, .NTSC⟩

theorem demo_starts : Starts demoHost demoWords demoSettings (.fin (3 / 2)) 490 := by
  refine ⟨(C77_command_line _ _ _).1 rfl, by decide +kernel, .inl rfl, ?_, rfl⟩
  refine ⟨_, 30, rfl, ?_, ?_⟩
  · have := (C73_rate id rfl 30 1).1 (by norm_num)
    rw [show demoHost.double = id from rfl, this]
    norm_num
  · decide +kernel

theorem demo_smooth : Smooth demoHost demoSettings (.fin (3 / 2)) (fun _ => none) := by
  have h := demo_video [[1#8], [2#8], [3#8]] [] none [[1#8], [2#8], [3#8]] 0 (fun _ => none) (by decide) (fun _ _ => rfl)
  refine ⟨rfl, by decide, ⟨by decide, fun q hq => ?_⟩, ⟨by decide +kernel, rfl⟩, ⟨_, .tail _ (.head _), by decide⟩, h.2.1, fun _ => h.2.2⟩
  cases hq
  exact le_refl _

theorem demo_separate : Separate demoHost demoSettings :=
  ⟨demo_blind [[1#8], [2#8], [3#8]] [] none, fun i h => ((C78_names (hostGrabber demoHost demoSettings) none (.inl rfl)).1 i _ h).1 rfl, demo_local _⟩

/-- C80_good, and a run of it to its end. -/
theorem demo_still : ∃ n s, Running demoHost demoWords (fun _ => none) n s ∧ Still demoHost demoWords (fun _ => none) s := by
  obtain ⟨t, ops, bytes, -, -, -, ⟨s, h0⟩, h⟩ := C80_good demo_starts demo_smooth demo_separate player_small
  exact exists_still (fun n s hr => (h n s hr).1) _ 0 s h0 (Nat.le_add_left _ _)

/-- C80_unknown: the same sound and one picture, whose results are there, with the palette UNKNOWN and the data files of the generator: a run to its end. -/
theorem demo_unknown : ∃ files, makeDataTables plainDifference (fun _ _ => 0) = .ok files ∧
    ∃ n s, Running { demoHost with files := files, images := [[1#8]], tool := fun _ _ fs => .ok fs } (txt "--palette=UNKNOWN" :: demoWords)
      (fun _ => some (demoScreen [1#8])) n s ∧ s.main = .raised .fileNotFound := by
  obtain ⟨files, hf, -⟩ := C79_made plainDifference_ok.1 (fun _ _ => 0)
  refine ⟨files, hf, ?_⟩
  generalize hH : ({ demoHost with files := files, images := [[1#8]], tool := fun _ _ fs => .ok fs } : Host) = H
  generalize hc : ({ demoSettings with palette := .UNKNOWN } : Command) = c
  have hst : Starts H (txt "--palette=UNKNOWN" :: demoWords) c (.fin (3 / 2)) 490 := by
    have h := demo_starts
    subst hH hc
    exact ⟨(C77_command_line _ _ _).1 rfl, h.normalization, .inl rfl, h.pace, rfl⟩
  have hs : hostSound H c (.fin (3 / 2)) ≠ [] := by
    have : hostSound demoHost demoSettings (.fin (3 / 2)) ≠ [] := by decide +kernel
    subst hH hc
    exact this
  have hsep : Separate H c := by
    subst hH hc
    refine ⟨fun i fs d => rfl, fun i h => ((C78_names (hostGrabber _ _) none (.inl rfl)).1 i _ h).1 rfl, ?_⟩
    intro i args fs fs' h q hq
    cases h
    rfl
  have hv : (wholeVideo (hostGrabber H c) (fun _ => some (demoScreen [1#8]))).1 ≠ [] := by
    obtain ⟨m, hm⟩ := mapOfBytes_good (d := demoScreen [1#8]) (demoScreen_length _)
    have hd : (hostGrabber H c).decode (fun _ => some (demoScreen [1#8])) 0 [1#8] = .ok ((fun _ => some (demoScreen [1#8])), ⟨demoScreen [1#8], some (demoScreen [1#8])⟩) := by
      subst hH hc
      rfl
    unfold wholeVideo
    rw [show (hostGrabber H c).images = [[1#8]] by subst hH; rfl]
    simp only [oneByOne, hd, Item.toFrame, hm, bind, Except.bind, pure, Except.pure]
    exact fun h => nomatch h
  have key := fun n s hr => C80_unknown (n := n) (s := s) hst (by subst hc; rfl) plainDifference_ok.1 (dm0 := fun _ _ => 0) (by subst hH; exact hf) (by subst hc; decide)
    (by subst hc; exact ⟨by decide, fun q hq => by cases hq; exact le_refl _⟩) (by subst hH; rfl) hs hv hsep (by subst hH; exact player_small) hr
  obtain ⟨s0, h0⟩ := (C80_starts H _ (fun _ => some (demoScreen [1#8]))).2 ⟨c, _, _, hst⟩
  obtain ⟨m, t, h1, h2⟩ := exists_still (fun n s h => (key n s h).1) _ 0 s0 h0 (Nat.le_add_left _ _)
  obtain ⟨-, -, d, -, -, h3⟩ := key m t h1
  exact ⟨m, t, h1, (h3 h2).1⟩

end IIVision
