import Verif.Spec.Buffered
import Verif.Props.Entire

/-! The buffered output file: the invariant of a session. -/

namespace IIVision
open Spec

theorem numbers_append (a b : List U8) : numbers (a ++ b) = numbers a ++ numbers b := List.map_append

theorem numbers_length (a : List U8) : (numbers a).length = a.length := List.length_map _

theorem numbers_one {b : Nat} (h : b < 256) : numbers [BitVec.ofNat 8 b] = [b] := by
  simp [numbers]; omega

/-- What is known of a session: `d` is what the file has, `x` the program with its bytes in a list. -/
structure SInv (P : Setup) (size : Nat) (dev : Device) (x0 : Prog) (s : Session) (d : List U8) (k : Nat) (x : Prog) : Prop where
  steps : WSteps P k x0 x
  prog : s.prog = x.onDisk (x.disk.put P.name d)
  whole : s.error = none → x.out = numbers d ++ numbers s.buf ++ s.todo
  part : numbers d ++ numbers s.buf <+: x.out
  room : s.buf.length ≤ size
  none_left : s.error ≠ none → s.todo = []
  done : s.closed = true → s.error = none → s.buf = [] ∧ s.todo = [] ∧ (x.main = .finished ∨ ∃ e, x.main = .raised e)
  ok : s.error = none → ∀ j, j < s.calls → ∃ k, dev j = .ok k
  err : ∀ e, s.error = some e → ∃ j, j < s.calls ∧ dev j = .error e
  cap : d.length ≤ taken dev s.calls

/-- The steps a session has left. -/
def Session.left (T : Nat) (s : Session) (d : List U8) (x : Prog) : Nat :=
  x.weight + 2 * (T - (d.length + s.buf.length)) + s.buf.length + (if s.closed then 0 else 1) + (if s.error = none then 1 else 0)

theorem append_onDisk (x : Prog) (name : Text) (d b : List U8) :
    (x.onDisk (x.disk.put name d)).append name b = x.onDisk (x.disk.put name (d ++ b)) := by
  unfold Prog.append
  show x.onDisk ((x.disk.put name d).put name (((x.disk.put name d) name).getD [] ++ b)) = _
  rw [put_put, put_same]; rfl

theorem over_iff (s : Session) : s.over = true ↔ s.todo = [] ∧ (s.error ≠ none ∨ s.prog.main = .finished ∨ ∃ e, s.prog.main = .raised e) := by
  unfold Session.over
  cases s.error <;> cases s.prog.main <;> simp

/-- `write` of the operating system. -/
theorem raw_inv {P : Setup} {size : Nat} {dev : Device} {x0 : Prog} {s : Session} {d : List U8} {k : Nat} {x : Prog} (h : SInv P size dev x0 s d k x)
    (hc : s.closed = false) (T : Nat) (hb : s.buf ≠ []) (ho : s.over = true ∨ s.error = none) :
    ∃ d', SInv P size dev x0 (s.rawWrite P.name dev) d' k x ∧ (s.rawWrite P.name dev).left T d' x + 1 ≤ s.left T d x := by
  unfold Session.rawWrite
  cases hd : dev s.calls with
  | error e =>
    refine ⟨d, ⟨h.steps, h.prog, fun h' => (nomatch h'), h.part, h.room, fun _ => rfl, fun _ h' => (nomatch h'), fun h' => (nomatch h'), ?_, Nat.le_add_right_of_le h.cap⟩, ?_⟩
    · intro e' he
      cases he
      exact ⟨s.calls, Nat.lt_succ_self _, hd⟩
    · unfold Session.left
      simp only [hc]
      rcases ho with ho | ho
      · rw [ho]; simp
      · rw [ho]; simp; split <;> omega
  | ok j =>
    have hl : 0 < s.buf.length := List.length_pos_iff.2 hb
    have hsp : numbers (d ++ s.buf.take (j + 1)) ++ numbers (s.buf.drop (j + 1)) = numbers d ++ numbers s.buf := by
      rw [numbers_append, List.append_assoc, ← numbers_append, List.take_append_drop]
    refine ⟨d ++ s.buf.take (j + 1), ⟨h.steps, ?_, ?_, ?_, ?_, h.none_left, fun h' => ?_, ?_, ?_, ?_⟩, ?_⟩
    · show s.prog.append P.name (s.buf.take (j + 1)) = _
      rw [h.prog, append_onDisk]
    · intro he
      rw [h.whole he]
      show _ = numbers (d ++ s.buf.take (j + 1)) ++ numbers (s.buf.drop (j + 1)) ++ s.todo
      rw [hsp]
    · show numbers (d ++ s.buf.take (j + 1)) ++ numbers (s.buf.drop (j + 1)) <+: _
      rw [hsp]; exact h.part
    · show (s.buf.drop (j + 1)).length ≤ size
      rw [List.length_drop]; have := h.room; omega
    · rw [show s.closed = true from h'] at hc; cases hc
    · intro he i hi
      rcases Nat.lt_succ_iff_lt_or_eq.1 hi with hi | rfl
      · exact h.ok he i hi
      · exact ⟨j, hd⟩
    · intro e he
      obtain ⟨i, h1, h2⟩ := h.err e he
      exact ⟨i, Nat.lt_succ_of_lt h1, h2⟩
    · show _ ≤ taken dev s.calls + _
      rw [hd]
      have := h.cap
      simp only [List.length_append, List.length_take]
      omega
    · unfold Session.left
      simp only [List.length_append, List.length_take, List.length_drop]
      have e1 : d.length + min (j + 1) s.buf.length + (s.buf.length - (j + 1)) = d.length + s.buf.length := by omega
      rw [e1]; omega

/-- A step of the worker. -/
theorem worker_onDisk {P : Setup} (hb : Blind P.grabber P.name) (hn : ∀ i, ¬ OwnFile P.grabber i P.name) (s : Prog) (d : List U8) :
    (s.onDisk (s.disk.put P.name d)).workerStep P.grabber = (s.workerStep P.grabber).map fun t => t.onDisk (t.disk.put P.name d) := by
  unfold Prog.workerStep
  show (if s.started = true then _ else _) = _
  by_cases hs : s.started = true
  · rw [if_pos hs, if_pos hs]
    have : P.grabber.workerStep (s.onDisk (s.disk.put P.name d)).g = (P.grabber.workerStep s.g).map fun g' => { g' with fs := g'.fs.put P.name d } :=
      worker_put hb hn s.g _
    rw [this]
    cases P.grabber.workerStep s.g <;> rfl
  · rw [if_neg hs, if_neg hs]; rfl

theorem sess_step {P : Setup} {size : Nat} (hz : 0 < size) {dev : Device} (ha : ∀ c, P.movie.addr c < 65536) (hb : Blind P.grabber P.name)
    (hn : ∀ i, ¬ OwnFile P.grabber i P.name) {x0 : Prog} {s t : Session} {d : List U8} {k : Nat} {x : Prog} (h : SInv P size dev x0 s d k x)
    (hs : Session.Step P size dev s t) (hsm : ∀ b ∈ x.out, b < 256) (T : Nat) (hT : ∀ k x, WSteps P k x0 x → x.out.length ≤ T) :
    ∃ d' k' x', SInv P size dev x0 t d' k' x' ∧ t.left T d' x' + 1 ≤ s.left T d x := by
  cases hs with
  | @worker t hw =>
    rw [h.prog, worker_onDisk hb hn] at hw
    obtain ⟨y, hy, rfl⟩ := Option.map_eq_some_iff.1 hw
    have hst : WStep P x y := .worker hy
    have ho : y.out = x.out := worker_small hy
    have hmain : y.main = x.main := by
      unfold Prog.workerStep at hy
      split at hy
      · split at hy
        · cases hy; rfl
        · cases hy
      · cases hy
    refine ⟨d, k + 1, y, ⟨.succ h.steps hst, rfl, by rw [ho]; exact h.whole, by rw [ho]; exact h.part, h.room, h.none_left, by rw [hmain]; exact h.done, h.ok, h.err, h.cap⟩, ?_⟩
    have := wstep_weight hst
    unfold Session.left
    simp only
    omega
  | main hm =>
    unfold Session.mainStep at hm
    have hc : s.closed = false := by
      cases hc : s.closed with
      | true => rw [if_pos hc] at hm; cases hm
      | false => rfl
    rw [if_neg (by rw [hc]; simp)] at hm
    cases htd : s.todo with
    | cons b rest =>
      rw [htd] at hm
      simp only at hm
      have he : s.error = none := by
        by_contra he
        have := h.none_left he
        rw [htd] at this; cases this
      have hwh := h.whole he
      have hb256 : b < 256 := hsm b (by rw [hwh, htd]; simp)
      rw [if_neg (by omega)] at hm
      split at hm
      · rename_i hroom
        cases hm
        simp only [Bool.and_eq_true, decide_eq_true_eq] at hroom
        have hout : x.out = numbers d ++ numbers (s.buf ++ [BitVec.ofNat 8 b]) ++ rest := by
          rw [hwh, htd, numbers_append, numbers_one hb256]; simp
        refine ⟨d, k, x, ⟨h.steps, h.prog, fun _ => hout, ?_, ?_, ?_, ?_, h.ok, h.err, h.cap⟩, ?_⟩
        · rw [hout]; exact List.prefix_append _ _
        · show (s.buf ++ [_]).length ≤ size
          simp; omega
        · intro h'; exact absurd he h'
        · intro h'; rw [show s.closed = true from h'] at hc; cases hc
        · have hlen : d.length + s.buf.length + 1 ≤ x.out.length := by
            rw [hwh, htd]; simp [numbers_length]; omega
          have := hT k x h.steps
          unfold Session.left
          simp only [List.length_append, List.length_cons, List.length_nil]
          omega
      · rename_i hroom
        cases hm
        have hne : s.buf ≠ [] := by
          intro h0
          apply hroom
          simp [h0, hz]
        obtain ⟨d', h1, h2⟩ := raw_inv h hc T hne (.inr he)
        exact ⟨d', k, x, h1, h2⟩
    | nil =>
      rw [htd] at hm
      simp only at hm
      split at hm
      · rename_i hov
        split at hm
        · rename_i hbe
          cases hm
          have hbe : s.buf = [] := List.isEmpty_iff.1 hbe
          refine ⟨d, k, x, ⟨h.steps, h.prog, fun he => by have := h.whole he; rw [htd] at this; exact this, h.part, h.room, fun _ => rfl, ?_, h.ok, h.err, h.cap⟩, ?_⟩
          · intro _ he
            refine ⟨hbe, rfl, ?_⟩
            obtain ⟨-, h1⟩ := (over_iff s).1 hov
            rcases h1 with h1 | h1
            · exact absurd he h1
            · rw [h.prog] at h1; exact h1
          · unfold Session.left
            simp only [hc]
            simp; split <;> omega
        · rename_i hbe
          cases hm
          obtain ⟨d', h1, h2⟩ := raw_inv h hc T (fun h0 => hbe (by rw [h0]; rfl)) (.inl hov)
          exact ⟨d', k, x, h1, h2⟩
      · rename_i hov
        have he : s.error = none := by
          by_contra he
          exact hov ((over_iff s).2 ⟨htd, .inl he⟩)
        rw [h.prog, mainW_onDisk, Option.map_map] at hm
        obtain ⟨y, hy, rfl⟩ := Option.map_eq_some_iff.1 hm
        have hst : WStep P x y := .main hy
        obtain ⟨b, h1, -⟩ := mainW_out ha hy
        have hdisk := mainW_disk hy
        have hwh := h.whole he
        rw [htd, List.append_nil] at hwh
        have hdrop : y.out.drop x.out.length = b := by rw [h1, List.drop_left]
        have hout : y.out = numbers d ++ numbers s.buf ++ b := by rw [h1, hwh]
        refine ⟨d, k + 1, y, ⟨.succ h.steps hst, ?_, ?_, ?_, h.room, ?_, ?_, h.ok, h.err, h.cap⟩, ?_⟩
        · show y.onDisk _ = _
          rw [hdisk]
        · intro _
          show _ = _ ++ y.out.drop x.out.length
          rw [hdrop]; exact hout
        · rw [hout]; exact List.prefix_append _ _
        · intro h'; exact absurd he h'
        · intro h'; rw [show s.closed = true from h'] at hc; cases hc
        · have := wstep_weight hst
          unfold Session.left
          simp only [Function.comp]
          omega

theorem sess_steps {P : Setup} {size : Nat} (hz : 0 < size) {dev : Device} (ha : ∀ c, P.movie.addr c < 65536) (hb : Blind P.grabber P.name)
    (hn : ∀ i, ¬ OwnFile P.grabber i P.name) {x0 : Prog} (T : Nat) (hT : ∀ k x, WSteps P k x0 x → x.out.length ≤ T ∧ ∀ b ∈ x.out, b < 256) (hout : x0.out = [])
    {n : Nat} {s : Session} (h : Session.Steps P size dev n (Session.start (x0.onDisk (x0.disk.put P.name []))) s) :
    ∃ d k x, SInv P size dev x0 s d k x ∧ n + s.left T d x ≤ x0.weight + 2 * T + 2 := by
  induction n generalizing s with
  | zero =>
    cases h
    refine ⟨[], 0, x0, ⟨.zero _, rfl, ?_, ?_, Nat.zero_le _, fun _ => rfl, fun h => (nomatch h), ?_, fun _ h => (nomatch h), Nat.zero_le _⟩, ?_⟩
    · intro _; rw [hout]; rfl
    · rw [hout]; exact List.prefix_rfl
    · intro _ j hj; cases hj
    · simp [Session.left, Session.start]
  | succ n ih =>
    cases h with
    | succ h1 h2 =>
      obtain ⟨d, k, x, hi, hw⟩ := ih h1
      obtain ⟨d', k', x', hi', hw'⟩ := sess_step hz ha hb hn hi h2 (hT k x hi.steps).2 T (fun k x h => (hT k x h).1)
      exact ⟨d', k', x', hi', by omega⟩

/-- The state right after the start. -/
theorem launch_begins {H : Host} {argv : List Text} {fs : FS} {P : Setup} {s0 : Prog} (h : launch H argv fs = .ok (P, s0)) (ha : ∀ c, H.addr c < 65536) :
    (∀ c, P.movie.addr c < 65536) ∧ ∃ x, s0 = x.onDisk (x.disk.put P.name []) ∧ x.out = [] ∧ x.disk = fs ∧ WInv P.movie P.next P.grabber fs (Setup.plain P fs s0) x ∧
      x.weight ≤ 4 * H.images.length + s0.coder.audio.length + 7 ∧ x.g.worker.within H.images.length := by
  obtain ⟨c, norm, text, rate, tpf, v, -, -, -, -, -, -, -, hP, hs0⟩ := launch_parts h
  have haddr : P.movie.addr = H.addr := by rw [hP]
  have himg : P.grabber.images = H.images := by rw [hP]
  refine ⟨by rw [haddr]; exact ha, ?_⟩
  generalize hx : ({ g := P.grabber.start fs, started := false, main := .running, coder := { phase := .new, audio := ((H.format c.bitrate).stream H.rnd H.bad norm H.buffers).1, frames := [], ticks := 0, frameNumber := 0, v, rng := ⟨H.tape, 0⟩, gen := none, target := none, lastBank := false }, pos := 0, aux := false, out := [] } : Prog) = x at hs0
  have hcoder : s0.coder = x.coder := by rw [hs0]; rfl
  refine ⟨x, ?_, ?_, ?_, ?_, ?_, ?_⟩
  · rw [hs0]; subst hx; rfl
  · subst hx; rfl
  · subst hx; rfl
  · unfold Setup.plain
    rw [hcoder]
    subst hx
    refine ⟨gInv_start _ fs, fun _ => rfl, fun _ => ?_, ?_, ?_, ?_, ?_⟩
    · refine ⟨((H.format c.bitrate).stream H.rnd H.bad norm H.buffers).1.length + 2, ?_, ?_⟩
      rotate_left
      · simp only [List.nil_append]
        rfl
      · simp [Coder.left]; omega
    · intro _ hh; cases hh
    · intro hh; cases hh
    · intro hh; cases hh
    · intro e hh; cases hh
  · rw [hcoder, ← himg]
    subst hx
    simp [Prog.weight, GState.weight, Grabber.start, Worker.weight, Consumer.weight, Coder.left, MainStatus.weight]
    omega
  · subst hx; show 0 + P.grabber.images.length = _; rw [himg]; omega

theorem winv_prefix {M : Movie} {nx : Bool → Coder → Resumed} {G : Grabber} {fs : FS} {T : List Nat × Ending} {s : Prog} (hi : WInv M nx G fs T s) : s.out <+: T.1 := by
  cases hm : s.main with
  | running => obtain ⟨r, -, h⟩ := hi.loop (.inl hm); rw [h]; exact List.prefix_append _ _
  | asking => obtain ⟨r, -, h⟩ := hi.loop (.inr hm); rw [h]; exact List.prefix_append _ _
  | finished => rw [hi.fin hm]
  | raised e => rw [hi.raised e hm]

end IIVision
