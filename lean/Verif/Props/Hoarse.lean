import Verif.Spec.Hoarse
import Verif.Props.Entire
import Verif.Props.SoundFail
import Verif.Proofs.Bind

/-! The whole program on an input whose sound cannot be decoded to its end. -/

namespace IIVision
open Spec

theorem ackIfDue_silent {M : Movie} {pos pos' : Nat} {aux aux' : Bool} {ops : List Opcode} {b : List Nat}
    (h : M.ackIfDue pos aux = .ok (ops, b, pos', aux')) : tickCount ops = 0 := by
  unfold Movie.ackIfDue at h
  split at h
  · refine bind_ok_elim h fun _ h => ?_
    cases h
    rfl
  · cases h; rfl

/-- The loop with a sound that fails, against the loop with one that ends. -/
theorem follow_fails {M M' : Movie} {nx : Bool → Coder → Resumed} {e : PyErr} {A : List Int} (hM : ∃ t, M' = { M with table := t }) (hl0 : 0 ≤ M.limit)
    (hx : ∀ aux c, nx aux c = if c.phase ≠ .new ∧ c.audio = [] then .error e else Coder.next M' aux c) :
    ∀ (r : Nat) (c : Coder) (pos : Nat) (aux : Bool) (k : Nat) (ops : List Opcode) (b : List Nat), c.left < r → Counted M' A k c → (c.phase = .new → pos = 0) →
      M'.emitLoop (Coder.next M') r c pos aux = .ok (ops, b) →
      ∃ out p, b = out ++ (M.done p).2 ∧
        follow M nx .ends r c pos aux = if A.length ≤ k + tickCount ops then (out, .raised e) else (b, .complete) := by
  obtain ⟨t, rfl⟩ := hM
  intro r
  induction r with
  | zero => intro c pos aux k ops b h; omega
  | succ r ih =>
    intro c pos aux k ops b hl hc hnew h
    rw [follow, ite_self, hx]
    rw [Movie.emitLoop] at h
    by_cases hg : c.phase ≠ .new ∧ c.audio = []
    · rw [if_pos hg]
      rw [next_nil hg.1 hg.2] at h
      have hk : A.length ≤ k := List.drop_eq_nil_iff.mp (by rw [← hc.audio]; exact hg.2)
      refine ⟨[], pos, ?_, ?_⟩
      · cases h; rfl
      · rw [if_pos (by omega)]
    · rw [if_neg hg]
      have hlt : c.phase ≠ .new → k < A.length := by
        intro hp
        by_contra hk
        exact hg ⟨hp, by rw [hc.audio]; exact List.drop_eq_nil_iff.mpr (by omega)⟩
      cases hn : Coder.next { M with table := t } aux c with
      | error e => rw [hn] at h; cases h
      | ok o =>
        rw [hn, Except.bind_ok] at h
        cases o with
        | none =>
          have hp : c.phase ≠ .new := by
            intro hp
            unfold Coder.next at hn
            rw [hp] at hn
            cases hn
          have := hlt hp
          cases h
          refine ⟨[], pos, rfl, ?_⟩
          rw [if_neg (by show ¬ A.length ≤ k + 0; omega)]
          rfl
        | some oc =>
          obtain ⟨op, c'⟩ := oc
          obtain ⟨k', c1, c2, c3, c4⟩ := next_count hc hn
          have hp := (next_progress hn).1
          simp only at h ⊢
          by_cases hlim : M.atLimit pos = true
          · rw [if_pos (show Movie.atLimit { M with table := t } pos = true from hlim)] at h
            rw [if_pos hlim]
            have hph : c.phase ≠ .new := by
              intro hp
              rw [hnew hp] at hlim
              unfold Movie.atLimit at hlim
              simp only [decide_eq_true_eq] at hlim
              exact hlim.1 (Rat.le_antisymm (by simpa using hlim.2) hl0)
            have := hlt hph
            cases h
            refine ⟨[], pos, rfl, ?_⟩
            rw [if_neg (by show ¬ A.length ≤ k + 0; omega)]
            rfl
          · rw [if_neg (show ¬ Movie.atLimit { M with table := t } pos = true from hlim)] at h
            rw [if_neg hlim]
            cases hk : M.ackIfDue (pos + (op.emit M.addr).length) aux with
            | error e =>
              rw [show Movie.ackIfDue { M with table := t } (pos + (op.emit M.addr).length) aux = _ from hk] at h
              cases h
            | ok v =>
              obtain ⟨o1, b1, pos1, aux1⟩ := v
              rw [show Movie.ackIfDue { M with table := t } (pos + (op.emit M.addr).length) aux = _ from hk] at h
              simp only [Except.bind_ok] at h ⊢
              cases hr : Movie.emitLoop { M with table := t } (Coder.next { M with table := t }) r c' pos1 aux1 with
              | error e => rw [hr] at h; cases h
              | ok v =>
                obtain ⟨o2, b2⟩ := v
                rw [hr] at h
                cases h
                obtain ⟨out, p, i1, i2⟩ := ih c' pos1 aux1 k' o2 b2 (by omega) c1 (fun hh => absurd hh c3) hr
                refine ⟨op.emit M.addr ++ b1 ++ out, p, by rw [i1, ← List.append_assoc], ?_⟩
                have hs := ackIfDue_silent hk
                have ht : k + tickCount (op :: o1 ++ o2) = k' + tickCount o2 := by
                  rw [show op :: o1 ++ o2 = [op] ++ (o1 ++ o2) by simp, tickCount_append, tickCount_append, hs, c2]; omega
                rw [ht, i2]
                split <;> rfl

/-- **C80.** An input whose sound fails with the exception `e` after the samples `hostSound`, and all else good: whatever the words of the command line are and however the two threads are interleaved, the output
file has at every moment a beginning of the stream of these samples and the pictures; if the stream uses them all up, the program ends with `e`, never otherwise, and the file is
the stream up to, and without, its end marker; if not (the limit was reached or the pictures ran out before), it finishes with the complete stream. -/
theorem C80_sound_fails {H : Host} {argv : List Text} {fs : FS} {c : Command} {norm : Flt} {tpf : Rat} {e : PyErr} (h : Starts H argv c norm tpf)
    (hs : Hoarse H c norm fs e) (hf : Separate H c) (ha : ∀ x, H.addr x < 65536) :
    ∃ t ops bytes, c.mode.loadEditDistances H.files c.palette = .ok t ∧
      MovieInput (hostMovie H c tpf t) (hostSound H c norm) (wholeVideo (hostGrabber H c) fs).1 ∧
      (hostMovie H c tpf t).stream H.tape (hostSound H c norm) (wholeVideo (hostGrabber H c) fs).1 = .ok (ops, bytes) ∧
      (∃ s, Running H argv fs 0 s) ∧ ∀ n s, Running H argv fs n s →
        n ≤ 4 * H.images.length + (hostSound H c norm).length + 7 ∧
        ∃ d, s.disk (outFilename c.output c.input) = some d ∧ numbers d <+: bytes ∧
          if (hostSound H c norm).length ≤ (ticksOf false ops).length then
            s.main ≠ .finished ∧ (∀ e', s.main = .raised e' → e' = e ∧ LacksEnd H.addr (numbers d) bytes) ∧ (Still H argv fs s → s.main = .raised e)
          else
            (∀ e', s.main ≠ .raised e') ∧ (s.main = .finished → numbers d = bytes) ∧ (Still H argv fs s → s.main = .finished) := by
  obtain ⟨P, s0, v, hl, hv, hP, hc⟩ := starts_launch (fs := fs) h
  obtain ⟨t, ht⟩ : ∃ t, c.mode.loadEditDistances H.files c.palette = .ok t := by
    rcases load_cases H.files c.mode c.palette with ⟨-, h⟩ | ⟨h, -⟩
    · exact h
    · exact absurd hs.table h
  have hlim : limitNumber (maxBytes c.maxMb) = match c.maxMb with | .fin x => 1024 * 1024 * x | _ => 0 := by
    cases hm : c.maxMb with
    | negInf => exact absurd hm hs.limit.1
    | _ => rfl
  have hM : hostMovie H c tpf t = { P.movie with table := t } := by
    rw [hP]; unfold hostMovie; simp only [hlim]; rfl
  have hin : MovieInput (hostMovie H c tpf t) (hostSound H c norm) (wholeVideo (hostGrabber H c) fs).1 := by
    refine ⟨hs.stride, ?_, ?_, ?_, ?_⟩
    · unfold hostMovie
      simp only
      cases hm : c.maxMb with
      | fin q => have := hs.limit.2 q hm; simp only; positivity
      | _ => exact le_refl _
    · show (H.double (tpf * H.double ((0 : Nat) : Rat))).ceil.toNat = 0
      rw [Nat.cast_zero, hs.zero, mul_zero, hs.zero]; rfl
    · exact stream_range _ _ _ _ _
    · intro f hf
      obtain ⟨fs1, i, image, fs2, item, h1, h2⟩ := video_items _ _ _ _ f hf
      obtain ⟨t1, t2⟩ := toFrame_ok h2
      refine ⟨t1.2.1, ?_, ?_⟩
      · intro hm
        obtain ⟨x, hx⟩ := decode_aux h1 hm
        rcases t2 with ⟨t2, -⟩ | ⟨y, b, t2, t3, t4⟩
        · rw [hx] at t2; cases t2
        · exact ⟨b, t3, t4.2.1, hs.clean hm f hf b (.inr t3)⟩
      · intro hm
        exact hs.clean hm f hf _ (.inl rfl)
  obtain ⟨body, bytes, -, -, -, hstream, -⟩ := movie_facts _ _ _ hin H.tape
  have hG : P.grabber = hostGrabber H c := by rw [hP]
  have hN : P.name = outFilename c.output c.input := by rw [hP]
  have hA : P.movie.addr = H.addr := by rw [hP]
  generalize hops : (Opcode.header (hostMovie H c tpf t).mode :: body ++ [.terminate]) = ops at hstream
  obtain ⟨out, p, hbytes, hplain⟩ : ∃ out p, bytes = out ++ (P.movie.done p).2 ∧
      Setup.plain P fs s0 = if (hostSound H c norm).length ≤ tickCount ops then (out, .raised e) else (bytes, .complete) := by
    unfold Setup.plain
    rw [hG, hs.video, hc]
    have hnx : ∀ aux x, P.next aux x = if x.phase ≠ .new ∧ x.audio = [] then .error e else Coder.next (hostMovie H c tpf t) aux x := by
      intro aux x
      unfold Setup.next
      have : P.soundEnd = some e := by
        rw [hP]
        rcases hs.sound with h | ⟨h1, h2⟩
        · simp only [h]; rfl
        · simp only [h1, h2]; rfl
      rw [this]
      simp only
      rw [← nextT_ok, hM, show P.load = .ok t by rw [hP]; exact ht]
      rfl
    have hlim0 : 0 ≤ P.movie.limit := by
      have := hin.limit
      rw [hM] at this
      exact this
    have := follow_fails (A := hostSound H c norm) ⟨t, hM⟩ hlim0 hnx ((hostSound H c norm).length + 2)
      { phase := .new, audio := hostSound H c norm, frames := (wholeVideo (hostGrabber H c) fs).1, ticks := 0, frameNumber := 0, v,
        rng := ⟨H.tape, 0⟩, gen := none, target := none, lastBank := false } 0 false 0 ops bytes (by simp [Coder.left]; omega)
      ⟨rfl, rfl, rfl⟩ (fun _ => rfl) (by
        unfold Movie.stream Movie.start at hstream
        rw [show Video.new (hostMovie H c tpf t).mode = .ok v from hv] at hstream
        exact hstream)
    rw [Nat.zero_add] at this
    exact this
  obtain ⟨p0, p1⟩ := C80_program hl ha (by rw [hG, hN]; exact hf.blind) (by rw [hG, hN]; exact hf.name) (by rw [hG]; exact hf.tool)
  rw [hplain, hN, hG, hc] at p1
  refine ⟨t, ops, bytes, ht, hin, hstream, ⟨s0, p0⟩, ?_⟩
  intro n s hr
  obtain ⟨q1, ⟨d, q2, q3, q4, q5, q6, q7⟩, q8⟩ := p1 n s hr
  by_cases hk : (hostSound H c norm).length ≤ tickCount ops
  · rw [if_pos hk] at q3 q5 q6 q7
    refine ⟨q1, d, q2, q3.trans (by rw [hbytes]; exact List.prefix_append _ _), ?_⟩
    rw [if_pos (show (hostSound H c norm).length ≤ (ticksOf false ops).length from hk)]
    refine ⟨fun hh => (nomatch (q5 hh).2), ?_, fun hh => (q7 hh).2⟩
    intro e' he
    obtain ⟨r1, r2⟩ := q6 e' he
    cases r2
    refine ⟨rfl, 2048 - (p + (Opcode.terminate.emit H.addr).length) % 2048, ?_⟩
    rw [r1, hbytes, List.append_assoc, ← hA]
    rfl
  · rw [if_neg hk] at q3 q5 q6 q7
    refine ⟨q1, d, q2, q3, ?_⟩
    rw [if_neg (show ¬ (hostSound H c norm).length ≤ (ticksOf false ops).length from hk)]
    exact ⟨fun e' he => (nomatch (q6 e' he).2), fun hh => (q5 hh).1, fun hh => (q7 hh).2⟩

/-- **C80.** In particular, without a size limit and with pictures for all of the sound, the program cannot stop except with the exception of the sound. -/
theorem C80_never_silent {H : Host} {argv : List Text} {fs : FS} {c : Command} {norm : Flt} {tpf : Rat} {e : PyErr} (h : Starts H argv c norm tpf)
    (hs : Hoarse H c norm fs e) (hf : Separate H c) (ha : ∀ x, H.addr x < 65536) (hlim : c.maxMb = .fin 0)
    (hfr : fetched (tickThreshold H.double tpf) (hostSound H c norm).length ≤ (wholeVideo (hostGrabber H c) fs).1.length)
    {n : Nat} {s : Prog} (hr : Running H argv fs n s) (hst : Still H argv fs s) : s.main = .raised e := by
  obtain ⟨t, ops, bytes, -, hin, h1, -, h2⟩ := C80_sound_fails h hs hf ha
  obtain ⟨-, d, -, -, hm⟩ := h2 n s hr
  obtain ⟨body, bytes', calls, en, steps, g1, -, -, g4, -, g6, -⟩ := movie_facts _ _ _ hin H.tape
  have g := congrArg Prod.fst (Except.ok.inj (g1.symm.trans h1))
  simp only at g
  have hk : (ticksOf false ops).length = steps.length := by
    rw [← g, ← g4]
    exact congrArg List.length (ticksOf_terminate body false)
  have hall : (hostSound H c norm).length ≤ (ticksOf false ops).length := by
    rw [hk]
    cases g6 with
    | audio g => omega
    | video g g' g'' =>
      exfalso
      have hf : fetched (tickThreshold H.double tpf) (steps.length + 1) = fetched (tickThreshold H.double tpf) steps.length + 1 := by
        rw [fetched_succ]; exact if_pos g'
      have := fetched_mono (tickThreshold H.double tpf) (steps.length + 1) ((hostSound H c norm).length - (steps.length + 1))
      rw [show steps.length + 1 + ((hostSound H c norm).length - (steps.length + 1)) = (hostSound H c norm).length by omega] at this
      have e1 : fetched (tickThreshold H.double tpf) steps.length = (wholeVideo (hostGrabber H c) fs).1.length := g''
      omega
    | limit _ g =>
      exfalso
      have : (hostMovie H c tpf t).atLimit (posOf (steps.length + 1)) = false := by simp [Movie.atLimit, hostMovie, hlim]
      rw [this] at g; cases g
  rw [if_pos hall] at hm
  exact hm.2.2 hst

/-- **C80.** An input whose sound cannot be opened or read (`e`), with words that make sense and no normalisation given: the program ends with `e` before it has touched the output file, unless more than 10 MB
could be read. -/
theorem C80_unreadable {H : Host} {argv : List Text} {c : Command} {e : PyErr} (hw : ∃ l, Spells argv l ∧ Meaning H.reads l c)
    (hn : c.normalization = none ∨ c.normalization = some (.fin 0)) (he : H.analysisError = some e) (hl : H.analysed.flatten.length ≤ 10485760) (fs : FS) :
    launch H argv fs = .error (.exception e) ∧ ∀ n s, ¬ Running H argv fs n s := by
  have h : launch H argv fs = .error (.exception e) := by
    unfold launch Host.normalize
    rw [(C77_command_line _ _ _).2 hw, he]
    simp only [Except.bind_ok]
    rw [if_pos ⟨hn, by rw [(Pcm.C71_analysed H.analysed).2.1 hl]; exact hl⟩]
    rfl
  refine ⟨h, ?_⟩
  rintro n s ⟨P, s0, h', -⟩
  cases h.symm.trans h'

/-- C80_unreadable: an input that is not there. -/
example : launch { demoHost with analysisError := some .fileNotFound } [txt "v.mp4"] (fun _ => none) = .error (.exception .fileNotFound) :=
  (C80_unreadable (c := { demoSettings with normalization := none }) ((C77_command_line _ _ _).1 rfl) (.inl rfl) rfl (by decide) _).1

/-- The input of `demoHost` with a file that breaks off after its sound. -/
def hoarseHost : Host := { demoHost with soundError := some .valueError }

/-- C80_sound_fails: the hypotheses are met, and a run of it to its end. -/
theorem demo_hoarse : Hoarse hoarseHost demoSettings (.fin (3 / 2)) (fun _ => none) .valueError ∧
    ∃ n s, Running hoarseHost demoWords (fun _ => none) n s ∧ s.main = .raised .valueError := by
  have hst : Starts hoarseHost demoWords demoSettings (.fin (3 / 2)) 490 := by
    have h := demo_starts
    exact ⟨h.words, h.normalization, h.readable, h.pace, h.opens⟩
  have hs : Hoarse hoarseHost demoSettings (.fin (3 / 2)) (fun _ => none) .valueError := by
    have h := demo_smooth
    exact ⟨h.zero, h.stride, h.limit, .inr ⟨h.sound.1, rfl⟩, h.table, h.video, h.clean⟩
  have hsep : Separate hoarseHost demoSettings := ⟨demo_separate.blind, demo_separate.name, demo_separate.tool⟩
  obtain ⟨t, ops, bytes, -, -, -, ⟨s, h0⟩, h⟩ := C80_sound_fails hst hs hsep player_small
  obtain ⟨n, s, h1, h2⟩ := exists_still (fun n s hr => (h n s hr).1) _ 0 s h0 (Nat.le_add_left _ _)
  refine ⟨hs, n, s, h1, C80_never_silent hst hs hsep player_small rfl ?_ h1 h2⟩
  have hv := demo_video [[1#8], [2#8], [3#8]] [] none [[1#8], [2#8], [3#8]] 0 (fun _ => none) (by decide) (fun _ _ => rfl)
  refine le_trans (show _ ≤ 1 by decide +kernel) ?_
  have h3 : (wholeVideo (hostGrabber hoarseHost demoSettings) (fun _ => none)).1.length = 3 := hv.1
  omega

end IIVision
