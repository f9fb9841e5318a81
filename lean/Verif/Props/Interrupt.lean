import Verif.Spec.Interrupt
import Verif.Props.Cut

/-! Claim C87: Ctrl-C. -/

namespace IIVision
open Spec

/-- What is known after Ctrl-C: nothing more is computed, the buffer is written. -/
structure Closing (name : Text) (size : Nat) (full : List Nat) (s : Session) (d : List U8) : Prop where
  disk : s.prog.disk name = some d
  part : numbers d ++ numbers s.buf <+: full
  room : s.buf.length ≤ size
  todo : s.todo = []
  failed : s.error ≠ none

theorem closing_over {name : Text} {size : Nat} {full : List Nat} {s : Session} {d : List U8} (h : Closing name size full s d) : s.over = true :=
  (over_iff s).2 ⟨h.todo, .inl h.failed⟩

theorem worker_keeps {P : Setup} (hb : Blind P.grabber P.name) (hn : ∀ i, ¬ OwnFile P.grabber i P.name) {s t : Prog} {d : List U8}
    (hd : s.disk P.name = some d) (hw : s.workerStep P.grabber = some t) : t.disk P.name = some d := by
  have e : s = s.onDisk (s.disk.put P.name d) := by
    have : s.disk.put P.name d = s.disk := by
      funext q
      by_cases hq : q = P.name
      · subst hq; rw [put_same, hd]
      · rw [put_other _ hq]
    rw [this]; rfl
  rw [e, worker_onDisk hb hn] at hw
  obtain ⟨y, -, rfl⟩ := Option.map_eq_some_iff.1 hw
  exact put_same _ _ _

/-- The main thread, closing the file. -/
theorem closing_main {P : Setup} {size : Nat} {dev : Device} {full : List Nat} {s : Session} {d : List U8} (h : Closing P.name size full s d) (hc : s.closed = false) :
    ∃ t d', s.mainStep P size dev = some t ∧ Closing P.name size full t d' ∧ (t.closed = true ∨ t.buf.length < s.buf.length) ∧
      ((∃ k, dev s.calls = .ok k) → numbers d' ++ numbers t.buf = numbers d ++ numbers s.buf ∧ t.error = s.error ∧ (t.closed = true → t.buf = [])) := by
  have ho := closing_over h
  unfold Session.mainStep
  rw [if_neg (by rw [hc]; simp), h.todo]
  simp only [ho, if_true]
  by_cases hbuf : s.buf = []
  · rw [if_pos (by rw [hbuf]; rfl)]
    exact ⟨_, d, rfl, ⟨h.disk, h.part, h.room, rfl, h.failed⟩, .inl rfl, fun _ => ⟨rfl, rfl, fun _ => hbuf⟩⟩
  · rw [if_neg (by simpa using hbuf)]
    have hpos : 0 < s.buf.length := List.length_pos_iff.2 hbuf
    unfold Session.rawWrite
    cases hd : dev s.calls with
    | error e =>
      refine ⟨_, d, rfl, ⟨h.disk, h.part, h.room, rfl, by simp⟩, .inl ho, ?_⟩
      rintro ⟨k, hk⟩; cases hk
    | ok k =>
      have hdisk : (s.prog.append P.name (s.buf.take (k + 1))).disk P.name = some (d ++ s.buf.take (k + 1)) := by
        show (s.prog.disk.put P.name _) P.name = _
        rw [put_same, h.disk]; rfl
      have hnum : numbers (d ++ s.buf.take (k + 1)) ++ numbers (s.buf.drop (k + 1)) = numbers d ++ numbers s.buf := by
        rw [numbers_append, List.append_assoc, ← numbers_append, List.take_append_drop]
      refine ⟨_, d ++ s.buf.take (k + 1), rfl, ⟨hdisk, ?_, ?_, h.todo, h.failed⟩, .inr ?_, fun _ => ⟨hnum, rfl, fun hc' => ?_⟩⟩
      · show numbers (d ++ s.buf.take (k + 1)) ++ numbers (s.buf.drop (k + 1)) <+: full
        rw [hnum]; exact h.part
      · show (s.buf.drop (k + 1)).length ≤ size
        have := h.room
        simp only [List.length_drop]; omega
      · show (s.buf.drop (k + 1)).length < s.buf.length
        simp only [List.length_drop]; omega
      · exact absurd (hc.symm.trans hc') (by simp)

/-- Closing takes at most one step for each byte in the buffer, and one more. -/
theorem closing_ends {P : Setup} {size : Nat} {dev : Device} {full : List Nat} : ∀ (k : Nat) (s : Session) (d : List U8), s.buf.length ≤ k →
    Closing P.name size full s d → s.closed = false → ∃ m t, m ≤ k + 1 ∧ Alone P size dev m s t ∧ t.closed = true := by
  intro k
  induction k with
  | zero =>
    intro s d hk h hc
    obtain ⟨t, d', h1, h2, h3, -⟩ := closing_main (dev := dev) h hc
    rcases h3 with h3 | h3
    · exact ⟨1, t, by omega, .succ h1 (.zero _), h3⟩
    · omega
  | succ k ih =>
    intro s d hk h hc
    obtain ⟨t, d', h1, h2, h3, -⟩ := closing_main (dev := dev) h hc
    cases hc' : t.closed with
    | true => exact ⟨1, t, by omega, .succ h1 (.zero _), hc'⟩
    | false =>
      rcases h3 with h3 | h3
      · rw [hc'] at h3; cases h3
      · obtain ⟨m, u, a1, a2, a3⟩ := ih t d' (by omega) h2 hc'
        exact ⟨m + 1, u, by omega, .succ h1 a2, a3⟩

/-- What a step keeps, once Ctrl-C has been pressed. -/
theorem closing_step {P : Setup} {size : Nat} {dev : Device} (hb : Blind P.grabber P.name) (hn : ∀ i, ¬ OwnFile P.grabber i P.name) {full : List Nat} {s t : Session} {d : List U8}
    (h : Closing P.name size full s d) (hs : Session.Step P size dev s t) : ∃ d', Closing P.name size full t d' ∧
      (Reliable dev → (s.closed = true → s.buf = []) → numbers d' ++ numbers t.buf = numbers d ++ numbers s.buf ∧ t.error = s.error ∧ (t.closed = true → t.buf = [])) := by
  cases hs with
  | @worker t hw =>
    have hd := worker_keeps hb hn h.disk hw
    exact ⟨d, ⟨hd, h.part, h.room, h.todo, h.failed⟩, fun _ hbuf => ⟨rfl, rfl, hbuf⟩⟩
  | main hm =>
    cases hc : s.closed with
    | true => unfold Session.mainStep at hm; rw [if_pos hc] at hm; cases hm
    | false =>
      obtain ⟨t', d', h1, h2, -, h4⟩ := closing_main (dev := dev) h hc
      cases hm.symm.trans h1
      exact ⟨d', h2, fun hr _ => h4 (hr _)⟩

theorem interrupt_closing {H : Host} {argv : List Text} {fs : FS} {P : Setup} {s0 : Prog} (h : launch H argv fs = .ok (P, s0)) (ha : ∀ c, H.addr c < 65536)
    (hb : Blind P.grabber P.name) (hn : ∀ i, ¬ OwnFile P.grabber i P.name) (hl : LocalTool P.grabber) {size : Nat} (hz : 0 < size) (dev : Device) {ki : PyErr}
    {k : Nat} {s : Session} (hr : Session.Runs P size dev ki k (Session.start s0) s) :
    (k = 0 ∧ ∃ n, Working H argv fs size dev n s) ∨ (0 < k ∧ ∃ d, Closing P.name size (Setup.plain P fs s0).1 s d) := by
  obtain ⟨-, hall⟩ := C84_buffered h ha hb hn hl hz dev
  generalize hs : Session.start s0 = x at hr
  induction hr with
  | start => subst hs; exact .inl ⟨rfl, 0, P, s0, h, .zero _⟩
  | step _ hst ih =>
    rcases ih hs with ⟨rfl, n, P', s0', h', hw⟩ | ⟨hk, d, hc⟩
    · cases h.symm.trans h'
      exact .inl ⟨rfl, n + 1, P, s0, h, .succ hw hst⟩
    · obtain ⟨d', hc', -⟩ := closing_step hb hn hc hst
      exact .inr ⟨hk, d', hc'⟩
  | interrupt _ hi ih =>
    refine .inr ⟨Nat.succ_pos _, ?_⟩
    rcases ih hs with ⟨rfl, n, hw⟩ | ⟨hk, d, hc⟩
    · obtain ⟨-, ⟨d, c1, c2, c3, -⟩, -⟩ := hall n _ hw
      refine ⟨d, ?_⟩
      cases hi with
      | loop => exact ⟨c1, c2, c3, rfl, by simp⟩
      | before _ ho => exact ⟨c1, c2, c3, ((over_iff _).1 ho).1, by simp⟩
      | closing _ ho => exact ⟨c1, c2, c3, ((over_iff _).1 ho).1, by simp⟩
    · refine ⟨d, ?_⟩
      cases hi with
      | loop => exact ⟨hc.disk, hc.part, hc.room, rfl, by simp⟩
      | before => exact ⟨hc.disk, hc.part, hc.room, hc.todo, by simp⟩
      | closing => exact ⟨hc.disk, hc.part, hc.room, hc.todo, by simp⟩

/-- **C87.** Ctrl-C, pressed any number of times at any moments, with any disk: at every moment the output file and the buffer are the beginning of the stream.  Once it has been
pressed, the main thread does not wait for anything any more (not even for a conversion thread that is dead, C43): it closes the file after at most one call of `write` for each byte
in the buffer, and one step. -/
theorem C87_interrupt {H : Host} {argv : List Text} {fs : FS} {P : Setup} {s0 : Prog} (h : launch H argv fs = .ok (P, s0)) (ha : ∀ c, H.addr c < 65536)
    (hb : Blind P.grabber P.name) (hn : ∀ i, ¬ OwnFile P.grabber i P.name) (hl : LocalTool P.grabber) {size : Nat} (hz : 0 < size) (dev : Device) (ki : PyErr)
    (k : Nat) (s : Session) (hs : CtrlC H argv fs size dev ki k s) :
    (∃ d, s.prog.disk P.name = some d ∧ numbers d ++ numbers s.buf <+: (Setup.plain P fs s0).1 ∧ s.buf.length ≤ size) ∧
    (0 < k → s.closed = false → ∃ m t, m ≤ s.buf.length + 1 ∧ Alone P size dev m s t ∧ t.closed = true) := by
  obtain ⟨P', s0', h', hr⟩ := hs
  cases h.symm.trans h'
  rcases interrupt_closing h ha hb hn hl hz dev hr with ⟨rfl, n, hw⟩ | ⟨hk, d, hc⟩
  · obtain ⟨-, hall⟩ := C84_buffered h ha hb hn hl hz dev
    obtain ⟨-, ⟨d, c1, c2, c3, -⟩, -⟩ := hall n _ hw
    exact ⟨⟨d, c1, c2, c3⟩, fun h => absurd h (by omega)⟩
  · exact ⟨⟨d, hc.disk, hc.part, hc.room⟩, fun _ hcl => closing_ends _ s d (Nat.le_refl _) hc hcl⟩

/-- **C87.** Ctrl-C once, while the loop is running or waiting, on a disk that does not fail: what follows ends with the exception, and with a file that has every byte that had been handed
to `out.write` by then, those in the buffer included.  If the program was hanging (C43), that is everything it was able to compute. -/
theorem C87_saved {H : Host} {argv : List Text} {fs : FS} {P : Setup} {s0 : Prog} (h : launch H argv fs = .ok (P, s0)) (ha : ∀ c, H.addr c < 65536)
    (hb : Blind P.grabber P.name) (hn : ∀ i, ¬ OwnFile P.grabber i P.name) (hl : LocalTool P.grabber) {size : Nat} (hz : 0 < size) {dev : Device} (hd : Reliable dev) (ki : PyErr)
    {n : Nat} {s s' : Session} (hw : Working H argv fs size dev n s) (ho : s.over = false) (hi : Session.Interrupt ki s s') :
    ∃ written, numbers written ++ s.todo = s.prog.out ∧
      (Stuck H argv fs size dev s → numbers written = (Setup.plain P fs s0).1) ∧
      (∃ m t, m ≤ size + 1 ∧ Alone P size dev m s' t ∧ t.closed = true) ∧
      ∀ m t, Session.Steps P size dev m s' t → t.error = some ki ∧
        ((¬∃ u, Session.Step P size dev t u) → t.closed = true) ∧
        (t.closed = true → t.prog.disk P.name = some written ∧ t.ending = .raised ki) := by
  obtain ⟨-, hall⟩ := C84_buffered h ha hb hn hl hz dev
  obtain ⟨-, ⟨d, c1, c2, c3, -, c4, -, -, c5⟩, c6, -⟩ := hall n s hw
  have herr : s.error = none := c6.2 fun j _ => hd j
  cases hi with
  | before _ h => rw [ho] at h; cases h
  | closing _ h => rw [ho] at h; cases h
  | loop hcl _ =>
    have hc : Closing P.name size (Setup.plain P fs s0).1 { s with todo := [], flushing := false, error := some ki } d := ⟨c1, c2, c3, rfl, by simp⟩
    have steps : ∀ m t, Session.Steps P size dev m { s with todo := [], flushing := false, error := some ki } t → ∃ d', Closing P.name size (Setup.plain P fs s0).1 t d' ∧
        numbers d' ++ numbers t.buf = numbers (d ++ s.buf) ∧ t.error = some ki ∧ (t.closed = true → t.buf = []) := by
      intro m t hst
      induction m generalizing t with
      | zero =>
        cases hst
        exact ⟨d, hc, (numbers_append _ _).symm, rfl, fun h => absurd (hcl.symm.trans h) (by simp)⟩
      | succ m ih =>
        cases hst with
        | succ h1 h2 =>
          obtain ⟨d1, a1, a2, a3, a4⟩ := ih _ h1
          obtain ⟨d2, b1, b2⟩ := closing_step hb hn a1 h2
          obtain ⟨b3, b4, b5⟩ := b2 hd a4
          exact ⟨d2, b1, b3.trans a2, b4.trans a3, b5⟩
    refine ⟨d ++ s.buf, ?_, fun hst => ?_, ?_, fun m t hst => ?_⟩
    · rw [numbers_append]; exact (c4 herr).symm
    · rcases c5 hst with h | ⟨-, -, h, -⟩
      · rw [hcl] at h; cases h
      · rw [numbers_append]; exact h
    · obtain ⟨m, t, a1, a2, a3⟩ := closing_ends (dev := dev) s.buf.length { s with todo := [], flushing := false, error := some ki } d (Nat.le_refl _) hc hcl
      exact ⟨m, t, by omega, a2, a3⟩
    · obtain ⟨d', a1, a2, a3, a4⟩ := steps m t hst
      refine ⟨a3, fun hno => ?_, fun hcl' => ?_⟩
      · cases hcl' : t.closed with
        | true => rfl
        | false =>
          obtain ⟨u, -, hu, -⟩ := closing_main (dev := dev) a1 hcl'
          exact absurd ⟨u, .main hu⟩ hno
      · rw [a4 hcl'] at a2
        simp only [numbers, List.map_nil, List.append_nil] at a2
        have : d' = d ++ s.buf := List.map_injective_iff.2 (fun _ _ h => BitVec.eq_of_toNat_eq h) a2
        rw [← this]
        refine ⟨a1.disk, ?_⟩
        unfold Session.ending
        rw [a3]

/-- **C87.** Whatever is left after Ctrl-C, with the input and the other programs as in C80, is served to the player: unless the file has everything up to TERMINATE, the player does with it
what is said in `CutOff` (C85), for the stream the transcoder would have written; if it has, in whole blocks, the player can play it to the end. -/
theorem C87_played {H : Host} {argv : List Text} {fs : FS} {c : Command} {norm : Flt} {tpf : Rat} (h : Starts H argv c norm tpf)
    (hs : Smooth H c norm fs) (hf : Separate H c) (ha : H.addr = playerAddr) {size : Nat} (hz : 0 < size) (dev : Device) (ki : PyErr) :
    ∃ t ops bytes body, c.mode.loadEditDistances H.files c.palette = .ok t ∧
      (hostMovie H c tpf t).stream H.tape (hostSound H c norm) (wholeVideo (hostGrabber H c) fs).1 = .ok (ops, bytes) ∧
      ops = .header c.mode :: body ++ [.terminate] ∧
      ∀ k s, CtrlC H argv fs size dev ki k s → ∃ d, s.prog.disk (outFilename c.output c.input) = some d ∧ numbers d <+: bytes ∧
        (∀ (e : Player.Env) (m : Player.Mach), e.file = d → Player.Connected e m →
          d.length < 2048 * ((7 + (bytesOf playerAddr body).length) / 2048) + 2048 → Player.CutOff e m c.mode body) ∧
        (2048 ∣ d.length → 2048 * ((7 + (bytesOf playerAddr body).length) / 2048) + 2048 ≤ d.length → Player.Playable d c.mode body) := by
  have ha' : ∀ x, H.addr x < 65536 := by rw [ha]; exact player_small
  obtain ⟨t, ops, bytes, h1, hin, h2, -⟩ := C80_good h hs hf ha'
  obtain ⟨body, b1, b2, -⟩ := Player.playable_of_stream hin ha h2
  refine ⟨t, ops, bytes, body, h1, h2, b1, fun k s hk => ?_⟩
  obtain ⟨P, s0, v, hl, -⟩ := starts_launch (fs := fs) h
  obtain ⟨hG, hN, -, -, t', ops', g1, g2⟩ := good_plain h hs hf ha' hl
  cases h1.symm.trans g1
  have hb : (Setup.plain P fs s0).1 = bytes := congrArg Prod.snd (Except.ok.inj (g2.symm.trans h2))
  obtain ⟨⟨d, d1, d2, -⟩, -⟩ := C87_interrupt hl ha' (by rw [hG, hN]; exact hf.blind) (by rw [hG, hN]; exact hf.name) (by rw [hG]; exact hf.tool) hz dev ki k s hk
  rw [hb] at d2
  have d2 : numbers d <+: bytes := (List.prefix_append _ _).trans d2
  have hpre : d <+: bytes.map (BitVec.ofNat 8) := by
    obtain ⟨r, hr⟩ := d2
    refine ⟨r.map (BitVec.ofNat 8), ?_⟩
    rw [← hr, List.map_append]
    congr 1
    unfold numbers
    rw [List.map_map]
    conv => lhs; rw [← List.map_id d]
    refine List.map_congr_left fun x _ => ?_
    simp
  rw [hN] at d1
  refine ⟨d, d1, d2, fun e m he hc hlen => ?_, fun hdiv hle => ?_⟩
  · exact Player.C85_cut b2 (by rw [he]; exact hpre) (by rw [he]; exact hlen) hc
  · exact Player.C85_padding b2 hpre (by omega) hle

/-! ### The hypotheses can be met -/

/-- C87_saved: a converter that fails, so that the transcoder hangs (`demo_empty`); after Ctrl-C the file, which was empty, has the header. -/
theorem demo_rescued : ∃ n s s' P s0, launch { demoHost with tool := fun _ _ _ => .error .valueError } demoWords (fun _ => none) = .ok (P, s0) ∧
    Working { demoHost with tool := fun _ _ _ => .error .valueError } demoWords (fun _ => none) 4096 (fun _ => .ok 4095) n s ∧
    s.prog.disk (txt "v.a2m") = some [] ∧ Session.Interrupt .valueError s s' ∧
    ∃ m t d, Alone P 4096 (fun _ => .ok 4095) m s' t ∧ t.closed = true ∧ t.prog.disk (txt "v.a2m") = some d ∧ numbers d = Opcode.emit playerAddr (.header .DHGR) := by
  have hst : Starts { demoHost with tool := fun _ _ _ => .error .valueError } demoWords demoSettings (.fin (3 / 2)) 490 := by
    obtain ⟨h1, h2, h2', h3, h4⟩ := demo_starts
    exact ⟨h1, h2, h2', h3, h4⟩
  have hsep : Separate { demoHost with tool := fun _ _ _ => .error .valueError } demoSettings := by
    refine ⟨fun i fs d => rfl, demo_separate.name, ?_⟩
    intro i cmd fs fs' h
    cases h
  have hs : hostSound { demoHost with tool := fun _ _ _ => .error .valueError } demoSettings (.fin (3 / 2)) ≠ [] := by decide +kernel
  have hv : wholeVideo (hostGrabber { demoHost with tool := fun _ _ _ => .error .valueError } demoSettings) (fun _ => none) = ([], .hangs .valueError) := by
    unfold wholeVideo
    show oneByOne _ 0 _ ([1#8] :: [[2#8], [3#8]]) = _
    rw [oneByOne]
    have : (hostGrabber { demoHost with tool := fun _ _ _ => .error .valueError } demoSettings).decode (fun _ => none) 0 [1#8] = .error .valueError := by
      unfold Grabber.decode
      rw [if_pos (show (hostGrabber { demoHost with tool := fun _ _ _ => .error .valueError } demoSettings).mode = .DHGR from rfl)]
      rfl
    rw [this]
  have hg : Generous 4096 (fun _ => .ok 4095) := fun j => ⟨4095, rfl, by decide⟩
  obtain ⟨⟨n, s, h1, h2⟩, h3⟩ := C84_hang (fs := fun _ => none) hst hsep player_small rfl rfl hs (e := .valueError) hv (by decide : 7 < 4096) hg
  obtain ⟨P, s0, v, hl, -, hP, -⟩ := starts_launch (fs := fun _ => none) hst
  have hG : P.grabber = hostGrabber { demoHost with tool := fun _ _ _ => .error .valueError } demoSettings := by rw [hP]
  have hN : P.name = outFilename demoSettings.output demoSettings.input := by rw [hP]
  have hp := plain_hangs hst rfl rfl hs hv hl
  have b1 : Blind P.grabber P.name := by rw [hG, hN]; exact hsep.blind
  have b2 : ∀ i, ¬ OwnFile P.grabber i P.name := by rw [hG, hN]; exact hsep.name
  have b3 : LocalTool P.grabber := by rw [hG]; exact hsep.tool
  have hcl := (h3 n s h1).1
  obtain ⟨-, hall⟩ := C84_buffered hl player_small b1 b2 b3 (by decide : 0 < 4096) (fun _ => .ok 4095)
  obtain ⟨-, ⟨d, -, -, -, -, -, o5, -⟩, c6, -⟩ := hall n s h1
  have hov : s.over = false := by
    cases ho : s.over with
    | false => rfl
    | true => exact absurd (by rw [hp]) (o5 ho (c6.2 fun j _ => ⟨4095, rfl⟩)).2
  have hi : Session.Interrupt .valueError s _ := .loop hcl hov
  obtain ⟨w, -, w2, ⟨m, t, -, a1, a2⟩, w3⟩ := C87_saved hl player_small b1 b2 b3 (by decide : 0 < 4096) (dev := fun _ => .ok 4095) (fun j => ⟨4095, rfl⟩) .valueError h1 hov hi
  refine ⟨n, s, _, P, s0, hl, h1, (h3 n s h1).2, hi, m, t, w, a1, a2, ?_, ?_⟩
  · have steps : ∀ {m : Nat} {a b : Session}, Alone P 4096 (fun _ => .ok 4095) m a b → ∀ {j : Nat} {z : Session}, Session.Steps P 4096 (fun _ => .ok 4095) j z a →
        ∃ j', Session.Steps P 4096 (fun _ => .ok 4095) j' z b := by
      intro m a b h
      induction h with
      | zero => exact fun hj => ⟨_, hj⟩
      | succ hm _ ih => exact fun hj => ih (.succ hj (.main hm))
    obtain ⟨j, hj⟩ := steps a1 (.zero _)
    have := ((w3 j t hj).2.2 a2).1
    rw [hN] at this
    exact this
  · rw [w2 h2, hp]; rfl

/-- C87_interrupt, C87_played: Ctrl-C at the very beginning. -/
example : ∃ s, CtrlC demoHost demoWords (fun _ => none) 4096 (fun _ => .ok 2) .valueError 1 s := by
  obtain ⟨P, s0, v, hl, -⟩ := starts_launch (fs := fun _ => none) demo_starts
  obtain ⟨-, x, e0, e1, -, hx, -⟩ := launch_begins hl player_small
  by_cases ho : (Session.start s0).over = true
  · exact ⟨_, P, s0, hl, .interrupt (.start _) (.before rfl ho)⟩
  · exact ⟨_, P, s0, hl, .interrupt (.start _) (.loop rfl (by simpa using ho))⟩

end IIVision
