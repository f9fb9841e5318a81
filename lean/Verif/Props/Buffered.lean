import Verif.Proofs.Buffered

/-! The buffer of the output file, kills and full disks. -/

namespace IIVision
open Spec

/-- **C84.** However the threads are interleaved, however large the buffer of the output file is, and whatever each `write` of the operating
system takes or refuses: the bytes in the file, followed by those in the buffer, are always a prefix of the bytes of the simple loop, and as long as
nothing has been refused, all that has been made is in the file, in the buffer, or about to be written; the buffer has at most its size.
When the file has been closed and no `write` has failed, it has all the bytes, and the program ends as the simple loop does.  An exception of
`write` is reported exactly if a `write` has failed.  When nothing moves any more, the file is closed, unless the main thread waits for a
frame forever; this is so after a bounded number of steps.  Other files change only if they are files of the pictures. -/
theorem C84_buffered {H : Host} {argv : List Text} {fs : FS} {P : Setup} {s0 : Prog} (h : launch H argv fs = .ok (P, s0)) (ha : ∀ c, H.addr c < 65536)
    (hb : Blind P.grabber P.name) (hn : ∀ i, ¬ OwnFile P.grabber i P.name) (hl : LocalTool P.grabber) {size : Nat} (hz : 0 < size) (dev : Device) :
    Working H argv fs size dev 0 (Session.start s0) ∧ ∀ n s, Working H argv fs size dev n s →
      n ≤ 4 * H.images.length + s0.coder.audio.length + 2 * (Setup.plain P fs s0).1.length + 9 ∧
      (∃ d, s.prog.disk P.name = some d ∧ numbers d ++ numbers s.buf <+: (Setup.plain P fs s0).1 ∧ s.buf.length ≤ size ∧ d.length ≤ taken dev s.calls ∧
        (s.error = none → s.prog.out = numbers d ++ numbers s.buf ++ s.todo) ∧
        (s.over = true → s.error = none → numbers d ++ numbers s.buf = (Setup.plain P fs s0).1 ∧ (Setup.plain P fs s0).2 ≠ .waiting) ∧
        (s.closed = true → s.error = none → numbers d = (Setup.plain P fs s0).1 ∧ s.ending = (Setup.plain P fs s0).2.status ∧ (Setup.plain P fs s0).2 ≠ .waiting) ∧
        (Stuck H argv fs size dev s → s.closed = true ∨ (s.error = none ∧ s.todo = [] ∧ numbers d ++ numbers s.buf = (Setup.plain P fs s0).1 ∧ (Setup.plain P fs s0).2 = .waiting))) ∧
      (s.error = none ↔ ∀ j, j < s.calls → ∃ k, dev j = .ok k) ∧ (∀ e, s.error = some e → ∃ j, j < s.calls ∧ dev j = .error e) ∧
      ∀ q, q ≠ P.name → (∀ i, i < H.images.length → ¬ OwnFile P.grabber i q) → s.prog.disk q = fs q := by
  refine ⟨⟨P, s0, h, .zero _⟩, ?_⟩
  rintro n s ⟨P', s0', h', hst⟩
  cases h.symm.trans h'
  obtain ⟨ha', x0, e0, e1, e2, e3, e4, e5⟩ := launch_begins h ha
  have facts : ∀ k x, WSteps P k x0 x → WInv P.movie P.next P.grabber fs (Setup.plain P fs s0) x ∧ (∀ b ∈ x.out, b < 256) ∧ _ := fun k x hk =>
    wsteps_facts ha' hl (k := H.images.length) hk e3 (by rw [e1]; intro b hb; cases hb) e5
  rw [show Session.start s0 = Session.start (x0.onDisk (x0.disk.put P.name [])) by rw [← e0]] at hst
  obtain ⟨d, k, x, hi, hw⟩ := sess_steps hz ha' hb hn (Setup.plain P fs s0).1.length
    (fun k x hk => ⟨(winv_prefix (facts k x hk).1).length_le, (facts k x hk).2.1⟩) e1 hst
  obtain ⟨hx, hsm, -, hq, -⟩ := facts k x hi.steps
  have hmain : s.prog.main = x.main := by rw [hi.prog]; rfl
  refine ⟨by omega, ⟨d, ?_, hi.part.trans (winv_prefix hx), hi.room, hi.cap, ?_, ?_, ?_, ?_⟩, ⟨hi.ok, ?_⟩, hi.err, ?_⟩
  · rw [hi.prog]; exact put_same _ _ _
  · intro he; rw [hi.prog]; exact hi.whole he
  · intro hov he
    obtain ⟨o1, o2⟩ := (over_iff s).1 hov
    have hout := hi.whole he
    rw [o1, List.append_nil] at hout
    rw [← hout]
    rcases o2 with o2 | o2 | ⟨e, o2⟩
    · exact absurd he o2
    · rw [hmain] at o2; rw [hx.fin o2]; exact ⟨rfl, by simp⟩
    · rw [hmain] at o2; rw [hx.raised e o2]; exact ⟨rfl, by simp⟩
  · intro hc he
    obtain ⟨b1, b2, b3⟩ := hi.done hc he
    have hout := hi.whole he
    rw [b1, b2] at hout
    simp only [numbers, List.map_nil, List.append_nil] at hout
    have hend : s.ending = x.main := by unfold Session.ending; rw [he]; exact hmain
    rw [hend]
    rcases b3 with b3 | ⟨e, b3⟩
    · rw [hx.fin b3, b3]; exact ⟨hout.symm, rfl, by simp⟩
    · rw [hx.raised e b3, b3]; exact ⟨hout.symm, rfl, by simp⟩
  · intro hstk
    cases hc : s.closed with
    | true => exact .inl rfl
    | false =>
      right
      have hno := hstk P s0 h
      have hms : s.mainStep P size dev = none := by
        cases hm : s.mainStep P size dev with
        | none => rfl
        | some t => exact absurd ⟨t, .main hm⟩ hno
      unfold Session.mainStep at hms
      rw [if_neg (by rw [hc]; simp)] at hms
      have htd : s.todo = [] := by
        cases htd : s.todo with
        | nil => rfl
        | cons b rest =>
          rw [htd] at hms
          simp only at hms
          split at hms
          · cases hms
          · split at hms <;> cases hms
      rw [htd] at hms
      simp only at hms
      split at hms
      · split at hms <;> cases hms
      · rename_i hov
        have he : s.error = none := by
          by_contra he
          exact hov ((over_iff s).2 ⟨htd, .inl he⟩)
        have hms : x.mainStepW P.movie P.next = none := by
          rw [hi.prog, mainW_onDisk] at hms
          cases hy : x.mainStepW P.movie P.next with
          | none => rfl
          | some y => rw [hy] at hms; cases hms
        have hhalt : ¬∃ t, WStep P x t := by
          rintro ⟨y, hy⟩
          cases hy with
          | main hy => rw [hms] at hy; cases hy
          | worker hy =>
            apply hno
            refine ⟨{ s with prog := y.onDisk (y.disk.put P.name d) }, .worker ?_⟩
            rw [hi.prog, worker_onDisk hb hn, hy]; rfl
        obtain ⟨o1, o2⟩ := winv_halted hx hhalt
        have hwh := hi.whole he
        rw [htd, List.append_nil] at hwh
        refine ⟨he, htd, by rw [← hwh]; exact o1, ?_⟩
        cases hE : (Setup.plain P fs s0).2 with
        | waiting => rfl
        | complete => rw [hE] at o2; exact absurd ((over_iff s).2 ⟨htd, .inr (.inl (by rw [hmain]; exact o2))⟩) hov
        | raised e => rw [hE] at o2; exact absurd ((over_iff s).2 ⟨htd, .inr (.inr ⟨e, by rw [hmain]; exact o2⟩)⟩) hov
  · intro hall
    cases he : s.error with
    | none => rfl
    | some e =>
      obtain ⟨j, h1, h2⟩ := hi.err e he
      obtain ⟨k, h3⟩ := hall j h1
      rw [h2] at h3; cases h3
  · intro q hq1 hown
    rw [hi.prog, show (x.onDisk (x.disk.put P.name d)).disk q = x.disk q from put_other _ hq1 _, hq q hown, e2]

/-! ### Whole buffers -/

/-- What is known when every `write` takes all it is offered, until the file is being closed. -/
structure Blocks (size : Nat) (s : Session) (d : List U8) : Prop where
  whole : size ∣ d.length
  flushed : s.flushing = true → s.buf = [] ∧ s.todo ≠ []
  filled : s.flushing = false → d = [] ∨ s.buf ≠ []

theorem over_worker {G : Grabber} {s : Session} {t : Prog} (h : s.prog.workerStep G = some t) : ({ s with prog := t } : Session).over = s.over := by
  unfold Prog.workerStep at h
  split at h
  · split at h
    · cases h; rfl
    · cases h
  · cases h

theorem blocks_step {P : Setup} {size : Nat} (hz : 0 < size) {dev : Device} (hg : Generous size dev) (hb : Blind P.grabber P.name)
    (hn : ∀ i, ¬ OwnFile P.grabber i P.name) {x0 : Prog} {s t : Session} {d : List U8} {k : Nat} {x : Prog} (h : SInv P size dev x0 s d k x)
    (hs : Session.Step P size dev s t) (hB : s.over = true ∨ Blocks size s d) :
    ∃ d', t.prog.disk P.name = some d' ∧ (t.over = true ∨ Blocks size t d') := by
  have hdisk : s.prog.disk P.name = some d := by rw [h.prog]; exact put_same _ _ _
  have hraw : ∃ d', (s.rawWrite P.name dev).prog.disk P.name = some d' ∧ d' = d ++ s.buf.take size ∧ (s.over = true → (s.rawWrite P.name dev).over = true) ∧
      (s.rawWrite P.name dev).flushing = true ∧ (s.rawWrite P.name dev).buf = [] ∧ (s.rawWrite P.name dev).todo = s.todo := by
    obtain ⟨j, h1, h2⟩ := hg s.calls
    have hr := h.room
    unfold Session.rawWrite
    rw [h1]
    refine ⟨d ++ s.buf.take (j + 1), ?_, ?_, fun h => h, rfl, List.drop_eq_nil_of_le (by omega), rfl⟩
    · show (s.prog.append P.name (s.buf.take (j + 1))).disk P.name = _
      rw [h.prog, append_onDisk]; exact put_same _ _ _
    · rw [List.take_of_length_le (by omega), List.take_of_length_le hr]
  cases hs with
  | @worker t hw =>
    refine ⟨d, ?_, ?_⟩
    · have hw0 := hw
      rw [h.prog, worker_onDisk hb hn] at hw
      obtain ⟨y, hy, rfl⟩ := Option.map_eq_some_iff.1 hw
      exact put_same _ _ _
    · rw [over_worker hw]
      rcases hB with hB | hB
      · exact .inl hB
      · exact .inr ⟨hB.whole, hB.flushed, hB.filled⟩
  | main hm =>
    unfold Session.mainStep at hm
    have hc : s.closed = false := by
      cases hc : s.closed with
      | true => rw [if_pos hc] at hm; cases hm
      | false => rfl
    rw [if_neg (by rw [hc]; simp)] at hm
    cases htd : s.todo with
    | cons b rest =>
      have hB : Blocks size s d := by
        rcases hB with hB | hB
        · have := ((over_iff s).1 hB).1; rw [htd] at this; cases this
        · exact hB
      rw [htd] at hm
      simp only at hm
      split at hm
      · cases hm
        exact ⟨d, hdisk, .inl ((over_iff _).2 ⟨rfl, .inl (by simp)⟩)⟩
      · split at hm
        · cases hm
          exact ⟨d, hdisk, .inr ⟨hB.whole, fun h => (nomatch h), fun _ => .inr (by simp)⟩⟩
        · rename_i hroom
          cases hm
          obtain ⟨d', r1, r2, -, r3, r4, r5⟩ := hraw
          have hfull : s.buf.length = size := by
            have hr := h.room
            by_contra hne
            apply hroom
            have hlt : s.buf.length < size := by omega
            cases hf : s.flushing with
            | false => simp [hlt]
            | true => simp [(hB.flushed hf).1, hz]
          refine ⟨d', r1, .inr ⟨?_, fun _ => ⟨r4, by rw [r5, htd]; simp⟩, fun hf => ?_⟩⟩
          · rw [r2, List.length_append, List.length_take, hfull, Nat.min_self]
            exact Nat.dvd_add hB.whole (Nat.dvd_refl _)
          · rw [r3] at hf; cases hf
    | nil =>
      rw [htd] at hm
      simp only at hm
      split at hm
      · rename_i hov
        split at hm
        · cases hm
          exact ⟨d, hdisk, .inl ((over_iff _).2 ⟨rfl, ((over_iff s).1 hov).2⟩)⟩
        · cases hm
          obtain ⟨d', r1, -, r3, -⟩ := hraw
          exact ⟨d', r1, .inl (r3 hov)⟩
      · rename_i hov
        have hB : Blocks size s d := by
          rcases hB with hB | hB
          · exact absurd hB hov
          · exact hB
        rw [h.prog, mainW_onDisk, Option.map_map] at hm
        obtain ⟨y, hy, rfl⟩ := Option.map_eq_some_iff.1 hm
        have hf : s.flushing = false := by
          cases hf : s.flushing with
          | false => rfl
          | true => exact absurd htd (hB.flushed hf).2
        refine ⟨d, ?_, .inr ⟨hB.whole, fun h => ?_, hB.filled⟩⟩
        · show (y.onDisk (x.disk.put P.name d)).disk P.name = _
          exact put_same _ _ _
        · rw [show s.flushing = true from h] at hf; cases hf

theorem blocks_steps {P : Setup} {size : Nat} (hz : 0 < size) {dev : Device} (hg : Generous size dev) (ha : ∀ c, P.movie.addr c < 65536) (hb : Blind P.grabber P.name)
    (hn : ∀ i, ¬ OwnFile P.grabber i P.name) {x0 : Prog} (T : Nat) (hT : ∀ k x, WSteps P k x0 x → x.out.length ≤ T ∧ ∀ b ∈ x.out, b < 256) (hout : x0.out = [])
    {n : Nat} {s : Session} (h : Session.Steps P size dev n (Session.start (x0.onDisk (x0.disk.put P.name []))) s) :
    ∃ d, s.prog.disk P.name = some d ∧ (s.over = true ∨ Blocks size s d) := by
  induction n generalizing s with
  | zero =>
    cases h
    exact ⟨[], put_same _ _ _, .inr ⟨⟨0, rfl⟩, fun h => (nomatch h), fun _ => .inl rfl⟩⟩
  | succ n ih =>
    cases h with
    | succ h1 h2 =>
      obtain ⟨d, h3, h4⟩ := ih h1
      obtain ⟨d', k, x, hi, -⟩ := sess_steps hz ha hb hn T hT hout h1
      have : d' = d := by
        have e : some d' = some d := by rw [← h3, hi.prog]; exact (put_same x.disk P.name d').symm
        exact Option.some.inj e
      subst this
      exact blocks_step hz hg hb hn hi h2 h4

/-- **C84.** If the operating system takes whole buffers, then at every moment before the loop is over - so when the program is killed, or
waits forever - the file has a whole number of buffers, at most one buffer less than what has been written.  Between two writes it has
`size * ((w - 1) / size)` of the `w` bytes written. -/
theorem C84_blocks {H : Host} {argv : List Text} {fs : FS} {P : Setup} {s0 : Prog} (h : launch H argv fs = .ok (P, s0)) (ha : ∀ c, H.addr c < 65536)
    (hb : Blind P.grabber P.name) (hn : ∀ i, ¬ OwnFile P.grabber i P.name) (hl : LocalTool P.grabber) {size : Nat} (hz : 0 < size) {dev : Device}
    (hg : Generous size dev) {n : Nat} {s : Session} (hw : Working H argv fs size dev n s) (ho : s.over = false) :
    ∃ d, s.prog.disk P.name = some d ∧ size ∣ d.length ∧ numbers d <+: (Setup.plain P fs s0).1 ∧ s.prog.out.length ≤ d.length + size + s.todo.length ∧
      (s.todo = [] → d.length = size * ((s.prog.out.length - 1) / size)) := by
  obtain ⟨-, hall⟩ := C84_buffered h ha hb hn hl hz dev
  obtain ⟨-, ⟨d, c1, c2, c3, cap, c4, -, c5, -⟩, c6, -⟩ := hall n s hw
  have herr : s.error = none := c6.2 fun j _ => let ⟨k, hk, _⟩ := hg j; ⟨k, hk⟩
  have hout := c4 herr
  have hlen : s.prog.out.length = d.length + s.buf.length + s.todo.length := by
    rw [hout]; simp [numbers_length]; omega
  obtain ⟨P', s0', h', hst⟩ := hw
  cases h.symm.trans h'
  obtain ⟨ha', x0, e0, e1, e2, e3, e4, e5⟩ := launch_begins h ha
  have facts : ∀ k x, WSteps P k x0 x → WInv P.movie P.next P.grabber fs (Setup.plain P fs s0) x ∧ (∀ b ∈ x.out, b < 256) ∧ _ := fun k x hk =>
    wsteps_facts ha' hl (k := H.images.length) hk e3 (by rw [e1]; intro b hb; cases hb) e5
  rw [show Session.start s0 = Session.start (x0.onDisk (x0.disk.put P.name [])) by rw [← e0]] at hst
  obtain ⟨d', h3, h4⟩ := blocks_steps hz hg ha' hb hn (Setup.plain P fs s0).1.length
    (fun k x hk => ⟨(winv_prefix (facts k x hk).1).length_le, (facts k x hk).2.1⟩) e1 hst
  cases c1.symm.trans h3
  have hB : Blocks size s d := by
    rcases h4 with h4 | h4
    · rw [ho] at h4; cases h4
    · exact h4
  refine ⟨d, c1, hB.whole, (List.prefix_append _ _).trans c2, by omega, ?_⟩
  intro htd
  have hf : s.flushing = false := by
    cases hf : s.flushing with
    | false => rfl
    | true => exact absurd htd (hB.flushed hf).2
  rw [htd] at hlen
  simp only [List.length_nil, Nat.add_zero] at hlen
  obtain ⟨m, hm⟩ := hB.whole
  rcases hB.filled hf with h0 | h0
  · rw [h0] at hlen ⊢
    simp only [List.length_nil, Nat.zero_add] at hlen ⊢
    rw [hlen, Nat.div_eq_of_lt (by omega)]; rfl
  · have hpos : 0 < s.buf.length := List.length_pos_iff.2 h0
    have : (s.prog.out.length - 1) / size = m := by
      rw [hlen, hm, show size * m + s.buf.length - 1 = (s.buf.length - 1) + size * m by omega, Nat.add_mul_div_left _ _ hz, Nat.div_eq_of_lt (by omega)]
      omega
    rw [this, hm]

/-! ### Good and bad endings -/

/-- The simple loop on a good input. -/
theorem good_plain {H : Host} {argv : List Text} {fs : FS} {c : Command} {norm : Flt} {tpf : Rat} (h : Starts H argv c norm tpf)
    (hs : Smooth H c norm fs) (hf : Separate H c) (ha : ∀ x, H.addr x < 65536) {P : Setup} {s0 : Prog} (hl : launch H argv fs = .ok (P, s0)) :
    P.grabber = hostGrabber H c ∧ P.name = outFilename c.output c.input ∧ s0.coder.audio = hostSound H c norm ∧ (Setup.plain P fs s0).2 = .complete ∧
    ∃ t ops, c.mode.loadEditDistances H.files c.palette = .ok t ∧
      (hostMovie H c tpf t).stream H.tape (hostSound H c norm) (wholeVideo (hostGrabber H c) fs).1 = .ok (ops, (Setup.plain P fs s0).1) := by
  obtain ⟨t, ops, bytes, g1, -, g3, ⟨s, h0⟩, h4⟩ := C80_good h hs hf ha
  obtain ⟨P', s0', v, hl', -, hP, hc⟩ := starts_launch (fs := fs) h
  cases hl.symm.trans hl'
  have hG : P.grabber = hostGrabber H c := by rw [hP]
  have hN : P.name = outFilename c.output c.input := by rw [hP]
  obtain ⟨n, u, hr, hst⟩ := exists_still (fun n s hr => (h4 n s hr).1) _ 0 s h0 (Nat.le_add_left _ _)
  obtain ⟨-, -, ⟨d, d1, -, -, d2, d3⟩, -⟩ := h4 n u hr
  obtain ⟨-, hall⟩ := C80_program hl ha (by rw [hG, hN]; exact hf.blind) (by rw [hG, hN]; exact hf.name) (by rw [hG]; exact hf.tool)
  obtain ⟨-, ⟨d', e1, -, -, e2, -⟩, -⟩ := hall n u hr
  have hfin := d3 hst
  rw [hN] at e1
  cases d1.symm.trans e1
  obtain ⟨f1, f2⟩ := e2 hfin
  exact ⟨hG, hN, by rw [hc], f2, t, ops, g1, by rw [← f1, d2 hfin]; exact g3⟩

/-- **C84.** A good input and an operating system that never refuses anything, however little it takes at a time: when nothing moves any more,
the file is closed, the program has ended normally, and the file is the stream.  If something is refused, the program always ends with an
exception of a refused `write`, never normally, and the file has a prefix of the stream.  In particular it does so when the disk has no
room for the stream. -/
theorem C84_good {H : Host} {argv : List Text} {fs : FS} {c : Command} {norm : Flt} {tpf : Rat} (h : Starts H argv c norm tpf)
    (hs : Smooth H c norm fs) (hf : Separate H c) (ha : ∀ x, H.addr x < 65536) {size : Nat} (hz : 0 < size) (dev : Device) :
    ∃ t ops bytes B, c.mode.loadEditDistances H.files c.palette = .ok t ∧
      (hostMovie H c tpf t).stream H.tape (hostSound H c norm) (wholeVideo (hostGrabber H c) fs).1 = .ok (ops, bytes) ∧
      (∃ s, Working H argv fs size dev 0 s) ∧ ∀ n s, Working H argv fs size dev n s → n ≤ B ∧
        ∃ d, s.prog.disk (outFilename c.output c.input) = some d ∧ numbers d <+: bytes ∧
          (Stuck H argv fs size dev s → s.closed = true ∧
            (s.ending = .finished ∧ numbers d = bytes ∧ bytes.length ≤ taken dev s.calls ∧ (∀ j, j < s.calls → ∃ k, dev j = .ok k) ∨
             ∃ e j, s.ending = .raised e ∧ j < s.calls ∧ dev j = .error e)) := by
  obtain ⟨P, s0, v, hl, -⟩ := starts_launch (fs := fs) h
  obtain ⟨hG, hN, hA, hE, t, ops, h1, h2⟩ := good_plain h hs hf ha hl
  obtain ⟨w0, hall⟩ := C84_buffered hl ha (by rw [hG, hN]; exact hf.blind) (by rw [hG, hN]; exact hf.name) (by rw [hG]; exact hf.tool) hz dev
  refine ⟨t, ops, (Setup.plain P fs s0).1, 4 * H.images.length + s0.coder.audio.length + 2 * (Setup.plain P fs s0).1.length + 9, h1, h2, ⟨_, w0⟩, fun n s hw => ?_⟩
  obtain ⟨c0, ⟨d, c1, c2, c3, cap, c4, -, c5, c6⟩, c7, c8, -⟩ := hall n s hw
  refine ⟨c0, d, by rw [← hN]; exact c1, (List.prefix_append _ _).trans c2, fun hst => ?_⟩
  rcases c6 hst with hc | ⟨-, -, -, hw⟩
  · refine ⟨hc, ?_⟩
    cases he : s.error with
    | none =>
      obtain ⟨d1, d2, -⟩ := c5 hc he
      exact .inl ⟨by rw [d2, hE]; rfl, d1, by rw [← d1, numbers_length]; exact cap, c7.1 he⟩
    | some e =>
      obtain ⟨j, j1, j2⟩ := c8 e he
      exact .inr ⟨e, j, by unfold Session.ending; rw [he], j1, j2⟩
  · rw [hE] at hw; cases hw

/-- A session with a bound on its length can be continued to its end. -/
theorem exists_stuck {H : Host} {argv : List Text} {fs : FS} {size : Nat} {dev : Device} {B : Nat} (hB : ∀ n s, Working H argv fs size dev n s → n ≤ B) :
    ∀ (k n : Nat) (s : Session), Working H argv fs size dev n s → B ≤ n + k → ∃ m t, Working H argv fs size dev m t ∧ Stuck H argv fs size dev t := by
  have hext : ∀ {n s} {P s0}, Working H argv fs size dev n s → launch H argv fs = .ok (P, s0) → ∀ u, Session.Step P size dev s u → Working H argv fs size dev (n + 1) u := by
    rintro n s P s0 ⟨P', s0', h0, h1⟩ hl u hu
    cases h0.symm.trans hl
    exact ⟨P, s0, hl, .succ h1 hu⟩
  intro k
  induction k with
  | zero =>
    intro n s h hk
    refine ⟨n, s, h, ?_⟩
    rintro P s0 hl ⟨u, hu⟩
    have := hB (n + 1) u (hext h hl u hu)
    omega
  | succ k ih =>
    intro n s h hk
    by_cases hu : Stuck H argv fs size dev s
    · exact ⟨n, s, h, hu⟩
    · unfold Stuck at hu
      simp only [not_forall, not_not] at hu
      obtain ⟨P, s0, hl, u, hu⟩ := hu
      exact ih (n + 1) u (hext h hl u hu) (by omega)

/-- The simple loop when the conversion of the first picture fails: the header, and then it waits. -/
theorem plain_hangs {H : Host} {argv : List Text} {fs : FS} {c : Command} {norm : Flt} {tpf : Rat} (h : Starts H argv c norm tpf)
    (h0 : H.double 0 = 0) (hm : c.maxMb = .fin 0) (hs : hostSound H c norm ≠ []) {e : PyErr} (hv : wholeVideo (hostGrabber H c) fs = ([], .hangs e))
    {P : Setup} {s0 : Prog} (hl : launch H argv fs = .ok (P, s0)) : Setup.plain P fs s0 = (Opcode.emit H.addr (.header c.mode), .waiting) := by
  obtain ⟨P', s0', v, hl', -, hP, hc⟩ := starts_launch (fs := fs) h
  cases hl.symm.trans hl'
  have hG : P.grabber = hostGrabber H c := by rw [hP]
  have haddr : P.movie.addr = H.addr := by rw [hP]
  have hmode : P.movie.mode = c.mode := by rw [hP]
  have hlim : P.movie.limit = 0 := by rw [hP, hm]; simp [maxBytes, limitNumber]
  have hthr : P.movie.thr 0 = 0 := by rw [hP]; simp [tickThreshold, h0]; decide
  have hstop : P.movie.atLimit 0 = false := by unfold Movie.atLimit; rw [hlim]; rfl
  have e7 : s0.coder.phase = .new := by rw [hc]
  have e8 : s0.coder.audio = hostSound H c norm := by rw [hc]
  have e9 : s0.coder.frameNumber = 0 := by rw [hc]
  have hnext : P.next false { s0.coder with frames := [] } = .ok (some (.header c.mode, { s0.coder with frames := [], phase := .header })) := by
    have : Coder.nextT P.movie P.load false { s0.coder with frames := [] } = .ok (some (.header c.mode, { s0.coder with frames := [], phase := .header })) := by
      unfold Coder.nextT; simp only [e7, hmode]
    unfold Setup.next
    rw [this]
    cases P.soundEnd with
    | none => rfl
    | some e => simp only; rw [if_neg (fun hh => hh.1 e7)]
  have hack : P.movie.ackIfDue (0 + (Opcode.emit P.movie.addr (.header c.mode)).length) false =
      .ok ([], [], 0 + (Opcode.emit P.movie.addr (.header c.mode)).length, false) := by
    unfold Movie.ackIfDue
    rw [header_length]
    rfl
  have n1 : ({ s0.coder with frames := [] } : Coder).needsFrame P.movie = false := by unfold Coder.needsFrame; simp only [e7]
  have n2 : ({ s0.coder with frames := [], phase := .header } : Coder).needsFrame P.movie = true := by
    obtain ⟨a, l, hal⟩ := List.exists_cons_of_ne_nil hs
    unfold Coder.needsFrame
    simp only [e8, hal, e9, hthr]
    simp
  unfold Setup.plain
  rw [hG, hv]
  rw [follow]
  simp only [n1, Bool.false_eq_true, false_and, if_false, hnext, hstop, hack]
  rw [follow]
  simp only [n2, if_true, and_self, haddr, List.append_nil]

/-- **C84.** (A defect:) if the conversion of the first picture fails in the other thread, the program waits forever, and the file stays empty: not
even the header is in it. -/
theorem C84_hang {H : Host} {argv : List Text} {fs : FS} {c : Command} {norm : Flt} {tpf : Rat} (h : Starts H argv c norm tpf) (hf : Separate H c)
    (ha : ∀ x, H.addr x < 65536) (h0 : H.double 0 = 0) (hm : c.maxMb = .fin 0) (hs : hostSound H c norm ≠ []) {e : PyErr}
    (hv : wholeVideo (hostGrabber H c) fs = ([], .hangs e)) {size : Nat} (hz : 7 < size) {dev : Device} (hg : Generous size dev) :
    (∃ n s, Working H argv fs size dev n s ∧ Stuck H argv fs size dev s) ∧ ∀ n s, Working H argv fs size dev n s → s.closed = false ∧ s.prog.disk (outFilename c.output c.input) = some [] := by
  obtain ⟨P, s0, v, hl, -, hP, -⟩ := starts_launch (fs := fs) h
  have hG : P.grabber = hostGrabber H c := by rw [hP]
  have hN : P.name = outFilename c.output c.input := by rw [hP]
  have hp := plain_hangs h h0 hm hs hv hl
  have b1 : Blind P.grabber P.name := by rw [hG, hN]; exact hf.blind
  have b2 : ∀ i, ¬ OwnFile P.grabber i P.name := by rw [hG, hN]; exact hf.name
  have b3 : LocalTool P.grabber := by rw [hG]; exact hf.tool
  obtain ⟨w0, hall⟩ := C84_buffered hl ha b1 b2 b3 (by omega : 0 < size) dev
  refine ⟨exists_stuck (fun n s hr => (hall n s hr).1) _ 0 _ w0 (Nat.le_add_left _ _), fun n s hw => ?_⟩
  obtain ⟨-, ⟨d, c1, c2, c3, cap, c4, o5, c5, -⟩, c6, -⟩ := hall n s hw
  have herr : s.error = none := c6.2 fun j _ => let ⟨k, hk, _⟩ := hg j; ⟨k, hk⟩
  have hclosed : s.closed = false := by
    cases hc : s.closed with
    | false => rfl
    | true => exact absurd (by rw [hp]) (c5 hc herr).2.2
  have hov : s.over = false := by
    cases ho : s.over with
    | false => rfl
    | true => exact absurd (by rw [hp]) (o5 ho herr).2
  obtain ⟨d', d1, d2, d3, -, d4⟩ := C84_blocks hl ha b1 b2 b3 (by omega : 0 < size) hg hw hov
  refine ⟨hclosed, ?_⟩
  have hle := d3.length_le
  rw [hp, numbers_length, header_length] at hle
  have : d'.length = 0 := Nat.eq_zero_of_dvd_of_lt d2 (by omega)
  rw [← hN, d1, List.length_eq_zero_iff.1 this]

/-! ### The hypotheses can be met -/

theorem stream_nonempty {M : Movie} {tape : Nat → Nat} {A : List Int} {F : List Frame} {ops : List Opcode} {bytes : List Nat}
    (h : M.stream tape A F = .ok (ops, bytes)) : 0 < bytes.length := by
  unfold Movie.stream at h
  cases hc : M.start tape A F with
  | error e => rw [hc] at h; cases h
  | ok c =>
    rw [hc, Except.bind_ok] at h
    exact (C24_terminated _ _ (fun _ _ _ _ h => coder_frameOp h) _ _ _ _ h).2.1

/-- C84_good: a disk that takes three bytes at a time, and one that is full from the beginning. -/
theorem demo_buffered : (∃ n s, Working demoHost demoWords (fun _ => none) 4096 (fun _ => .ok 2) n s ∧ s.closed = true ∧ s.ending = .finished) ∧
    ∃ n s, Working demoHost demoWords (fun _ => none) 4096 (fun _ => .error .valueError) n s ∧ s.closed = true ∧ s.ending = .raised .valueError := by
  constructor
  · obtain ⟨t, ops, bytes, B, -, -, ⟨s, h0⟩, h⟩ := C84_good demo_starts demo_smooth demo_separate player_small (by decide : 0 < 4096) (fun _ => .ok 2)
    obtain ⟨n, u, hw, hst⟩ := exists_stuck (fun n s hr => (h n s hr).1) _ 0 s h0 (Nat.le_add_left _ _)
    obtain ⟨-, d, -, -, hend⟩ := h n u hw
    obtain ⟨h1, ⟨h2, -⟩ | ⟨e, j, -, -, h3⟩⟩ := hend hst
    · exact ⟨n, u, hw, h1, h2⟩
    · cases h3
  · obtain ⟨t, ops, bytes, B, -, h2, ⟨s, h0⟩, h⟩ := C84_good demo_starts demo_smooth demo_separate player_small (by decide : 0 < 4096) (fun _ => .error .valueError)
    obtain ⟨n, u, hw, hst⟩ := exists_stuck (fun n s hr => (h n s hr).1) _ 0 s h0 (Nat.le_add_left _ _)
    obtain ⟨-, d, hd, -, hend⟩ := h n u hw
    obtain ⟨h1, ⟨-, h3, h4, h5⟩ | ⟨e, j, h5, -, h3⟩⟩ := hend hst
    · cases hc : u.calls with
      | zero =>
        rw [hc] at h4
        have hne := stream_nonempty h2
        exact absurd h4 (by show ¬ _ ≤ 0; omega)
      | succ m =>
        obtain ⟨k, hk⟩ := h5 0 (by omega)
        cases hk
    · cases h3
      exact ⟨n, u, hw, h1, h5⟩

/-- C84_hang: a converter that fails. -/
theorem demo_empty : ∃ n s, Working { demoHost with tool := fun _ _ _ => .error .valueError } demoWords (fun _ => none) 4096 (fun _ => .ok 4095) n s ∧
    Stuck { demoHost with tool := fun _ _ _ => .error .valueError } demoWords (fun _ => none) 4096 (fun _ => .ok 4095) s ∧
    s.prog.disk (txt "v.a2m") = some [] := by
  have hst : Starts { demoHost with tool := fun _ _ _ => .error .valueError } demoWords demoSettings (.fin (3 / 2)) 490 := by
    obtain ⟨h1, h2, h2', h3, h4⟩ := demo_starts
    exact ⟨h1, h2, h2', h3, h4⟩
  have hsep : Separate { demoHost with tool := fun _ _ _ => .error .valueError } demoSettings := by
    refine ⟨fun i fs d => rfl, demo_separate.name, ?_⟩
    intro i cmd fs fs' h
    cases h
  have hs : hostSound { demoHost with tool := fun _ _ _ => .error .valueError } demoSettings (.fin (3 / 2)) ≠ [] := by decide +kernel
  have hv : wholeVideo (hostGrabber { demoHost with tool := fun _ _ _ => .error .valueError } demoSettings) (fun _ => none) = ([], .hangs .valueError) := by
    unfold wholeVideo
    show oneByOne _ 0 _ ([1#8] :: [[2#8], [3#8]]) = _
    rw [oneByOne]
    have : (hostGrabber { demoHost with tool := fun _ _ _ => .error .valueError } demoSettings).decode (fun _ => none) 0 [1#8] = .error .valueError := by
      unfold Grabber.decode
      rw [if_pos (show (hostGrabber { demoHost with tool := fun _ _ _ => .error .valueError } demoSettings).mode = .DHGR from rfl)]
      rfl
    rw [this]
  obtain ⟨⟨n, s, h1, h2⟩, h3⟩ := C84_hang (fs := fun _ => none) hst hsep player_small rfl rfl hs (e := .valueError) hv (by decide : 7 < 4096)
    (dev := fun _ => .ok 4095) (fun j => ⟨4095, rfl, by decide⟩)
  exact ⟨n, s, h1, h2, (h3 n s h1).2⟩

end IIVision
