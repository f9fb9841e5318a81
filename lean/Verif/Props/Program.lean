import Verif.Spec.Program
import Verif.Proofs.Program
import Verif.Proofs.Cache
import Verif.Props.Audio
import Verif.Props.Movie
import Verif.Props.Server
import Verif.Props.Grabber
import Verif.Props.Connect

/-! Properties of the whole transcoder, and of the whole chain from the input to the Apple II. -/

namespace IIVision
open Spec
open Player (Mach Env Started NoKeys PausesEnd Executes Switches)

theorem video_items (G : Grabber) : ∀ (imgs : List (List U8)) (idx : Nat) (fs : FS) (f : Frame),
    f ∈ (oneByOne G idx fs imgs).1 → ∃ fs1 i image fs2 item, G.decode fs1 i image = .ok (fs2, item) ∧ item.toFrame = .ok f := by
  intro imgs
  induction imgs with
  | nil => intro idx fs f h; unfold oneByOne at h; cases hr : G.readError <;> rw [hr] at h <;> cases h
  | cons image rest ih =>
    intro idx fs f h
    unfold oneByOne at h
    cases hd : G.decode fs idx image with
    | error e => rw [hd] at h; cases h
    | ok v =>
      obtain ⟨fs2, item⟩ := v
      rw [hd] at h
      simp only at h
      cases hi : item.toFrame with
      | error e => rw [hi] at h; cases h
      | ok f1 =>
        rw [hi] at h
        simp only [List.mem_cons] at h
        rcases h with rfl | h
        · exact ⟨fs, idx, image, fs2, item, hd, hi⟩
        · exact ih _ _ f h

theorem decode_aux {G : Grabber} {fs fs' : FS} {i : Nat} {image : List U8} {item : Item}
    (h : G.decode fs i image = .ok (fs', item)) (hm : G.mode = .DHGR) : ∃ a, item.aux = some a := by
  unfold Grabber.decode at h
  rw [if_pos hm] at h
  unfold Grabber.dhgrDecode at h
  have key : ∀ fs1 : FS, (do
      let main ← fs1.read (G.path i (txt ".BIN"))
      let aux ← fs1.read (G.path i (txt ".AUX"))
      return (fs1, (⟨main, some aux⟩ : Item)) : Except PyErr (FS × Item)) = .ok (fs', item) → ∃ a, item.aux = some a := by
    intro fs1 h
    cases h1 : fs1.read (G.path i (txt ".BIN")) with
    | error e => rw [h1] at h; cases h
    | ok main =>
      rw [h1, Except.bind_ok] at h
      cases h2 : fs1.read (G.path i (txt ".AUX")) with
      | error e => rw [h2] at h; cases h
      | ok aux => rw [h2] at h; cases h; exact ⟨aux, rfl⟩
  simp only [bind, Except.bind] at h
  split at h
  · exact key _ h
  · split at h
    · cases h
    · exact key _ h

/-- The input of the multiplexer is as its theorems want it. -/
theorem movieInput_of_sound {a : Args} {w : World} {fs : FS} (hs : Sound a w fs) {A : List Int} (hA : a.audio w = .ok A) :
    MovieInput (a.movie w) A (Args.video a w fs).1 := by
  refine ⟨hs.stride, ?_, hs.thr0, ?_, ?_⟩
  · show (0 : Rat) ≤ 1024 * 1024 * a.maxMb
    have := hs.limit
    linarith
  · intro x hx
    obtain ⟨h1, h2, -⟩ := (C31_range _ _ _ _ _ _ hA).2 x hx
    exact ⟨h1, h2⟩
  · intro f hf
    obtain ⟨fs1, i, image, fs2, item, h1, h2⟩ := video_items _ _ _ _ f hf
    obtain ⟨t1, t2⟩ := toFrame_ok h2
    refine ⟨t1.2.1, ?_, ?_⟩
    · intro hm
      obtain ⟨x, hx⟩ := decode_aux h1 hm
      rcases t2 with ⟨t2, -⟩ | ⟨y, b, t2, t3, t4⟩
      · rw [hx] at t2; cases t2
      · exact ⟨b, t3, t4.2.1, hs.clean hm f hf b (.inr t3)⟩
    · intro hm
      exact hs.clean hm f hf _ (.inl rfl)

/-- C60: whatever the interleaving of the two threads, the bytes written are at every moment (so
also when the program is killed) a prefix of one and the same file, the stream of the audio and of
the frames of a simple loop over the pictures; the program takes a bounded number of steps; when it
finishes the file is complete; and it finishes unless a picture that is needed (there is audio left
when it is due) cannot be converted.  If converting it produces files that are not a picture the
program ends with the exception, if reading or converting it raises, the program waits forever; the
file then lacks exactly its end. -/
theorem C60_schedule {a : Args} {w : World} {fs : FS} (hs : Sound a w fs) {A : List Int} (hA : a.audio w = .ok A) :
    ∃ ops bytes, (a.movie w).stream w.tape A (Args.video a w fs).1 = .ok (ops, bytes) ∧
      (∃ s0, Execution a w fs 0 s0 ∧ s0.out = []) ∧
      ∀ n s, Execution a w fs n s →
        s.out <+: bytes ∧ n ≤ 4 * w.images.length + A.length + 7 ∧
        (s.main = .finished → s.out = bytes) ∧
        (Halted a w s →
          match (Args.video a w fs).2 with
          | .ends => s.main = .finished
          | .raises e => if FrameMissing w.thr A (Args.video a w fs).1 ops
              then s.main = .raised e ∧ LacksEnd w.addr s.out bytes else s.main = .finished
          | .hangs _ => if FrameMissing w.thr A (Args.video a w fs).1 ops
              then s.main = .asking ∧ LacksEnd w.addr s.out bytes else s.main = .finished) := by
  have hin := movieInput_of_sound hs hA
  obtain ⟨body, bytes, -, -, -, hstream, -⟩ := movie_facts _ _ _ hin w.tape
  obtain ⟨v, hv, -⟩ := videoNew_ok (a.movie w).mode
  have hstart : ∃ s0, a.start w fs = .ok s0 ∧ s0.out = [] ∧ s0.weight = 4 * w.images.length + A.length + 7 := by
    unfold Args.start
    rw [hA, Except.bind_ok]
    unfold Prog.start Movie.start
    rw [hv]
    refine ⟨_, rfl, rfl, ?_⟩
    simp [Prog.weight, GState.weight, Grabber.start, Worker.weight, Consumer.weight, Coder.left, MainStatus.weight, Args.grabber]
    omega
  obtain ⟨s0, hs0, ho0, hw0⟩ := hstart
  refine ⟨_, bytes, hstream, ⟨s0, ⟨s0, hs0, .zero _⟩, ho0⟩, ?_⟩
  rintro n s ⟨s0', hs0', hst⟩
  cases hs0.symm.trans hs0'
  have hs0'' := hs0
  unfold Args.start at hs0''
  rw [hA, Except.bind_ok] at hs0''
  have hi := pinv_steps hin.limit (pinv_start hstream hs0'') hst
  have hwt := prog_steps_weight hst
  have hdone : ∀ out : List Nat, out ++ ((a.movie w).done s.pos).2 = bytes → LacksEnd w.addr out bytes := by
    intro out h
    refine ⟨2048 - (s.pos + (Opcode.terminate.emit w.addr).length) % 2048, ?_⟩
    rw [← h, List.append_assoc]
    rfl
  refine ⟨?_, by omega, fun h => (hi.fin h).1, ?_⟩
  · cases hm : s.main with
    | running => obtain ⟨-, -, b, -, -, h, -⟩ := hi.loop (.inl hm); rw [h]; exact List.prefix_append _ _
    | asking => obtain ⟨-, -, b, -, -, h, -⟩ := hi.loop (.inr hm); rw [h]; exact List.prefix_append _ _
    | finished => rw [(hi.fin hm).1]
    | raised e => rw [← (hi.raised e hm).2.1]; exact List.prefix_append _ _
  · intro hh
    have hmiss : s.main = .asking → s.g.out = (wholeVideo (a.grabber w) fs).1 →
        FrameMissing w.thr A (Args.video a w fs).1 (.header (a.movie w).mode :: body ++ [.terminate]) ∧ LacksEnd w.addr s.out bytes := by
      intro hm ho
      obtain ⟨m1, m2, m3⟩ := missing_frame hi hm ho
      exact ⟨⟨m2, m3⟩, hdone _ m1⟩
    have hmain : s.mainStep (a.movie w) = none := by
      cases hx : s.mainStep (a.movie w) with
      | none => rfl
      | some t => exact absurd ⟨t, .main hx⟩ hh
    cases hm : s.main with
    | finished =>
      have hf := (hi.fin hm).2
      split
      · rfl
      all_goals
        rename_i e he
        rw [if_neg]
        rintro ⟨f1, f2⟩
        rcases hf with hf | hf | hf
        · cases he.symm.trans hf
        · exact absurd f1 (Nat.not_lt.mpr hf)
        · exact absurd f2 (Nat.not_lt.mpr hf)
    | raised e =>
      obtain ⟨h1, h2, h3, h4⟩ := hi.raised e hm
      rw [show (Args.video a w fs).2 = .raises e from h1]
      simp only
      rw [if_pos ⟨h3, h4⟩]
      exact ⟨trivial, hdone _ h2⟩
    | running =>
      unfold Prog.mainStep at hmain
      rw [hm] at hmain
      simp only at hmain
      split at hmain
      · split at hmain
        · rename_i hst'
          have hy := hi.run hm hst'
          unfold GState.consumerStep at hmain
          rw [hy] at hmain
          cases hmain
        · cases hmain
      · cases hmain
    | asking =>
      obtain ⟨h1, h2, h3⟩ := hi.ask hm
      unfold Prog.mainStep at hmain
      rw [hm] at hmain
      simp only at hmain
      have hcons : s.g.consumerStep = none := by
        cases hx : s.g.consumerStep with
        | none => rfl
        | some g => rw [hx] at hmain; simp only at hmain; split at hmain <;> cases hmain
      have hG : Stopped (a.grabber w) s.g := by
        rintro ⟨t, ht⟩
        cases ht with
        | worker hw =>
          refine hh ⟨{ s with g := t }, .worker ?_⟩
          unfold Prog.workerStep
          rw [if_pos h1, hw]
        | consumer hc => rw [hcons] at hc; cases hc
      rcases stopped_cases hi.ginv hG with hc | ⟨e, hc⟩ | ⟨hc, hq, e, he⟩
      · rw [hc] at h3; rcases h3 with h | h <;> cases h
      · rw [hc] at h3; rcases h3 with h | h <;> cases h
      · have hact := hi.ginv.active (.inl hc)
        rw [hq, he] at hact
        have e1 : s.g.out = (wholeVideo (a.grabber w) fs).1 := by
          have := congrArg Prod.fst hact
          simpa [queued, Grabber.toCome] using this
        have e2 : (wholeVideo (a.grabber w) fs).2 = .hangs e := (congrArg Prod.snd hact).symm
        obtain ⟨m1, m2⟩ := hmiss hm e1
        rw [show (Args.video a w fs).2 = .hangs e from e2]
        simp only
        rw [if_pos m1]
        exact ⟨trivial, m2⟩

/-- C60: if every picture can be converted the program cannot stop short of the complete file. -/
theorem C60_completes {a : Args} {w : World} {fs : FS} (hs : Sound a w fs) {A : List Int} (hA : a.audio w = .ok A)
    (hv : (Args.video a w fs).2 = .ends) {n : Nat} {s : Prog} (h : Execution a w fs n s) :
    (∃ t, Prog.Step (a.movie w) (a.grabber w) s t) ∨
    (s.main = .finished ∧ ∃ ops, (a.movie w).stream w.tape A (Args.video a w fs).1 = .ok (ops, s.out)) := by
  obtain ⟨ops, bytes, h1, -, h2⟩ := C60_schedule hs hA
  obtain ⟨-, -, b3, b4⟩ := h2 n s h
  by_cases hh : Halted a w s
  · right
    have hf := b4 hh
    rw [hv] at hf
    exact ⟨hf, ops, by rw [b3 hf]; exact h1⟩
  · exact .inl (Classical.not_not.mp hh)

theorem rest_frameOp {M : Movie} {aux : Bool} {c c' : Coder} {au : Int} {op : Opcode}
    (h : Coder.rest M aux au c = .ok (some (op, c'))) : FrameOp op := by
  unfold Coder.rest at h
  cases hf : Coder.flip aux c with
  | error e => rw [hf] at h; cases h
  | ok c1 =>
    rw [hf, Except.bind_ok] at h
    cases ht : Coder.tickOp M c1 au with
    | error e => rw [ht] at h; cases h
    | ok r =>
      rw [ht, Except.bind_ok] at h
      have hr : r = (op, c') := Option.some.inj (Except.ok.inj h)
      subst hr
      unfold Coder.tickOp at ht
      cases hg : c1.gen with
      | none => rw [hg] at ht; cases ht
      | some g =>
        rw [hg] at ht
        simp only at ht
        cases hn : c1.v.next M.table c1.rng g with
        | error e => rw [hn] at ht; cases ht
        | ok r =>
          obtain ⟨o, v, rng, g'⟩ := r
          rw [hn, Except.bind_ok] at ht
          simp only at ht
          cases htp : tickOpcodes (au * 2 + 34) o.page with
          | error e => rw [htp] at ht; cases ht
          | ok tp =>
            rw [htp, Except.bind_ok] at ht
            cases hnt : Opcode.newTick tp.1 tp.2 o.content o.offsets with
            | error e => simp [hnt, bind, Except.bind] at ht
            | ok oo =>
              simp [hnt, bind, Except.bind, pure, Except.pure] at ht
              obtain ⟨rfl, -⟩ := ht
              unfold Opcode.newTick at hnt
              split at hnt
              · cases hnt
              · rename_i hl
                cases hnt
                exact Classical.not_not.mp hl

/-- The encoder yields headers and ticks only. -/
theorem coder_frameOp {M : Movie} {aux : Bool} {c c' : Coder} {op : Opcode}
    (h : Coder.next M aux c = .ok (some (op, c'))) : FrameOp op := by
  by_cases hp : c.phase = .new
  · unfold Coder.next at h
    rw [hp] at h
    simp only at h
    cases h
    trivial
  · cases ha : c.audio with
    | nil => rw [next_nil hp ha] at h; cases h
    | cons au rest =>
      rw [next_cons hp ha, iter_eq] at h
      cases hf : Coder.fetch M aux { c.entered aux rest with ticks := (c.entered aux rest).ticks + 1 } with
      | error e => rw [hf] at h; cases h
      | ok r =>
        rw [hf, Except.bind_ok] at h
        cases r with
        | none => cases h
        | some c1 => exact rest_frameOp h

/-- C60: the size of a finished file: a whole number of 2K blocks, and with `--max_output_mb` less
than 2059 bytes more than that. -/
theorem C60_size {a : Args} {w : World} {fs : FS} (hs : Sound a w fs) {n : Nat} {s : Prog}
    (h : Execution a w fs n s) (hf : s.main = .finished) :
    s.out.length % 2048 = 0 ∧ 0 < s.out.length ∧
    (0 < a.maxMb → (s.out.length : Rat) < 1024 * 1024 * a.maxMb + 2059) := by
  obtain ⟨A, hA⟩ : ∃ A, a.audio w = .ok A := by
    obtain ⟨s0, h0, -⟩ := h
    unfold Args.start at h0
    cases hA : a.audio w with
    | error e => rw [hA] at h0; cases h0
    | ok A => exact ⟨A, rfl⟩
  obtain ⟨ops, bytes, h1, -, h2⟩ := C60_schedule hs hA
  have hb := (h2 n s h).2.2.1 hf
  have hin := movieInput_of_sound hs hA
  have hstart : ∀ (M : Movie), M.stream w.tape A (Args.video a w fs).1 =
      (M.start w.tape A (Args.video a w fs).1 >>= fun c => M.emitLoop (Coder.next M) (A.length + 2) c 0 false) := fun _ => rfl
  obtain ⟨c, hc⟩ : ∃ c, (a.movie w).start w.tape A (Args.video a w fs).1 = .ok c := by
    rw [hstart] at h1
    cases hc : (a.movie w).start w.tape A (Args.video a w fs).1 with
    | error e => rw [hc] at h1; cases h1
    | ok c => exact ⟨c, rfl⟩
  have hl := h1
  rw [hstart, hc, Except.bind_ok] at hl
  obtain ⟨g1, g2, -⟩ := C24_terminated _ _ (fun _ _ _ _ h => coder_frameOp h) _ _ _ _ hl
  rw [hb]
  refine ⟨g1, g2, ?_⟩
  intro hm
  have hin0 : MovieInput { a.movie w with limit := 0 } A (Args.video a w fs).1 :=
    ⟨hin.stride, le_refl _, hin.thr0, hin.audio, hin.frames⟩
  obtain ⟨body0, bytes0, -, -, -, h0, -⟩ := movie_facts _ _ _ hin0 w.tape
  have h0' := h0
  rw [hstart, show ({ a.movie w with limit := 0 } : Movie).start w.tape A (Args.video a w fs).1 = .ok c from hc, Except.bind_ok] at h0'
  have hpos : 0 < (a.movie w).limit := by
    show (0 : Rat) < 1024 * 1024 * a.maxMb
    linarith
  obtain ⟨body, bytes', k1, -, -, -, -, k2⟩ := C25_limit (a.movie w) hpos (Coder.next (a.movie w)) (fun _ _ _ _ h => coder_frameOp h)
    (A.length + 2) c _ bytes0 h0'
  have : bytes' = bytes := congrArg Prod.snd (Except.ok.inj (k1.symm.trans hl))
  rw [← this]
  exact k2

/-- C61: from the input to the Apple II.  The transcoder is run (with the addresses of the shipped
player) and finishes, in any interleaving of its threads; the server serves the file, and sends it
all to some client; that client is the player, started on a machine with a working card, with a
network that answers and delivers, and nobody touching the keyboard, or every
pause being ended by another key.  Then the player plays the
file to the end: the i-th tick takes 73 cycles, during which the speaker is toggled twice, at a
distance given by the i-th decoded audio sample, scaled, rounded and clipped; its four stores are
those of the i-th operation of a legal history of the frame encoder, computed for the converted picture
that is due at that tick; after each tick, and at the end, the screen shows what that history makes of a blank screen,
which at the end is what the encoder has in its own memory (see C17 for the exception). -/
theorem Player.C61_chain {a : Args} {w : World} {fs : FS} (hs : Sound a w fs) (ha : w.addr = playerAddr)
    {n : Nat} {p : Prog} (hx : Execution a w fs n p) (hf : p.main = .finished)
    {srv : Server} (hr : ServerRun [some (p.out.map (BitVec.ofNat 8))] srv) {c : Nat} (hc : srv.status c = .done)
    {e : Env} (he : e.file = srv.received c) (hD : e.Delivers) (hA : e.Answers) (hR : e.NeverRefuses)
    (hO : e.StaysOpen ∨ 8192 < e.file.length) {s : Mach} (hm : Started s) (hw : s.w.works = true) (hk : PausesEnd e s) :
    ∃ norm body s1 s2 calls enc steps, chooseNormalization w.rnd a.normalization w.analysed = .ok norm ∧
      s.Reaches e s1 ∧ s1.sw = Switches.For a.mode s.sw ∧ Executes e s1 body s2 ∧ s2.pc = playerAddr .terminate ∧
      Legal a.mode calls ∧ runNew a.mode w.table w.tape calls = .ok (enc, steps) ∧
      steps.length = (ticksOf false body).length ∧
      (∀ (i : Nat) (x : Played) (st : Step), (ticksOf false body)[i]? = some x → steps[i]? = some st →
        x.bank = st.isAux ∧ x.page = st.op.page ∧ x.content = st.op.content ∧ x.offsets = st.op.offsets ∧
        ∃ f, (Args.video a w fs).1[shown a.everyN (fetched w.thr (i + 1))]? = some f ∧ (a.movie w).bitmapOf f = .ok st.target) ∧
      (∀ i, i < steps.length → ∃ x u u' done todo, w.chunks.flatten[i]? = some x ∧ s1.Reaches e u ∧ u.Reaches e u' ∧ u'.Reaches e s2 ∧
        body = done ++ todo ∧ (ticksOf false done).length = i + 1 ∧ Executes e s1 done u' ∧
        u'.cycles = u.cycles + 73 ∧ u'.clicks = u.clicks ++ [u.cycles + 4, u.cycles + 4 +
          pulseWidth (2 * quantise w.rnd w.bad norm x + 34).toNat] ∧
        ∀ b, (a.mode = .HGR → b = false) → u'.screen b = bankOf (play blank (steps.take (i + 1))) b) ∧
      (∀ b, (a.mode = .HGR → b = false) →
        s2.screen b = bankOf (play blank steps) b ∧
        (∀ p o, (p, o) ≠ (0, 0) → s2.screen b p o = enc.v.pixelmap.bank b p o) ∧
        (a.mode = .DHGR → DiagOnly dhgr w.table → s2.screen b = enc.v.pixelmap.bank b)) := by
  obtain ⟨A, hA'⟩ : ∃ A, a.audio w = .ok A := by
    obtain ⟨s0, h0, -⟩ := hx
    unfold Args.start at h0
    cases hA : a.audio w with
    | error e => rw [hA] at h0; cases h0
    | ok A => exact ⟨A, rfl⟩
  obtain ⟨ops, bytes, h1, -, h2⟩ := C60_schedule hs hA'
  have hb := (h2 n p hx).2.2.1 hf
  have hfile : e.file = bytes.map (BitVec.ofNat 8) := by rw [he, (C51_unchanged hr c).2 hc, hb]
  obtain ⟨norm, hn, hAe⟩ : ∃ norm, chooseNormalization w.rnd a.normalization w.analysed = .ok norm ∧
      A = w.chunks.flatten.map (quantise w.rnd w.bad norm) := by
    unfold Args.audio audioStream at hA'
    cases hn : chooseNormalization w.rnd a.normalization w.analysed with
    | error e => rw [hn] at hA'; cases hA'
    | ok norm =>
      rw [hn, Except.bind_ok] at hA'
      refine ⟨norm, rfl, ?_⟩
      rw [← Except.ok.inj hA', List.map_flatten, List.flatMap_def]
  obtain ⟨body, s1, s2, calls, enc, steps, -, b2, b3, b4, b5, b6, b7, b8, b9, b10, b11⟩ :=
    C41_from_start (movieInput_of_sound hs hA') ha h1 hfile hD hA hR hO hm hw hk
  refine ⟨norm, body, s1, s2, calls, enc, steps, hn, b2, b3, b4, b5, b6, b7, b8, b9, ?_, b11⟩
  intro i hi
  obtain ⟨q, u, u', done, todo, c1, c2⟩ := b10 i hi
  rw [hAe, List.getElem?_map, Option.map_eq_some_iff] at c1
  obtain ⟨x, c1, rfl⟩ := c1
  exact ⟨x, u, u', done, todo, c1, c2⟩

/-! ### The hypotheses can be met -/

/-- Every execution can be continued until neither thread can run. -/
theorem exists_halted {M : Movie} {G : Grabber} (k : Nat) : ∀ {s0 s : Prog} {n : Nat}, Prog.Steps M G n s0 s → s.weight ≤ k →
    ∃ m t, Prog.Steps M G m s0 t ∧ ¬∃ u, Prog.Step M G t u := by
  induction k with
  | zero =>
    intro s0 s n h hk
    refine ⟨n, s, h, ?_⟩
    rintro ⟨u, hu⟩
    have := prog_step_weight hu
    omega
  | succ k ih =>
    intro s0 s n h hk
    by_cases hu : ∃ u, Prog.Step M G s u
    · obtain ⟨u, hu⟩ := hu
      have := prog_step_weight hu
      exact ih (.succ h hu) (by omega)
    · exact ⟨n, s, h, hu⟩

/-- A command line: DHGR, every frame, no limit, normalization 1. -/
def demoArgs : Args :=
  { input := txt "v.mp4", output := none, maxMb := 0, normalization := some (.fin 1), everyN := 1, mode := .DHGR, palette := .NTSC }

/-- An input of three one-colour pictures and some samples, a converter that works (see `demo`), and
a reader that may fail after the pictures. -/
def demoWorld (images : List (List U8)) (samples : List Flt) (err : Option PyErr) : World :=
  { rnd := Flt.fin, bad := x86Bad, analysed := [], chunks := [samples], images, readError := err,
    tool := (demo images).tool, addr := playerAddr, table := flatTable 13, thr := fun k => 2 * k, tape := fun _ => 0 }

/-- What becomes of the pictures. -/
theorem demo_video (images : List (List U8)) (samples : List Flt) (err : Option PyErr) :
    ∀ (l : List (List U8)) (idx : Nat) (fs : FS), (∀ im ∈ l, (im.headD 0#8).toNat < 0x80) →
      (∀ j, idx ≤ j → fs ((demo images).path j (txt ".BIN")) = none) →
      let r := oneByOne (demoArgs.grabber (demoWorld images samples err)) idx fs l
      r.1.length = l.length ∧ r.2 = (match err with | none => .ends | some e => .hangs e) ∧
      ∀ f ∈ r.1, ∀ m, f.main = m ∨ f.aux = some m → ∀ p o, (m.pageOffset p o).toNat < 0x80 := by
  intro l
  induction l with
  | nil =>
    intro idx fs _ _
    simp only [oneByOne, demoArgs, demoWorld, Args.grabber]
    cases err <;> exact ⟨rfl, rfl, fun f hf => by cases hf⟩
  | cons im l ih =>
    intro idx fs hl hno
    obtain ⟨fs', hd⟩ := demo_decode im images idx fs (hno idx (Nat.le_refl _))
    have hd' : (demoArgs.grabber (demoWorld images samples err)).decode fs idx im =
        .ok (fs', ⟨demoScreen im, some (demoScreen im)⟩) := hd
    obtain ⟨m, hm⟩ := mapOfBytes_good (d := demoScreen im) (demoScreen_length im)
    obtain ⟨a1, a2, a3⟩ := ih (idx + 1) fs' (fun x hx => hl x (List.mem_cons_of_mem _ hx)) (by
      intro j hj
      rw [decode_local (demo_local images) hd]
      · exact hno j (by omega)
      · intro ho
        have := ownFile_inj ho (.inr (.inl rfl) : OwnFile (demo images) j _)
        omega)
    have hclean : ∀ p o, (m.pageOffset p o).toNat < 0x80 := by
      intro p o
      have h := (mapOfBytes_ok hm).2.2 p o
      have h' : m.pageOffset p o ∈ demoScreen im := List.mem_of_getElem? h
      rw [List.eq_of_mem_replicate h']
      exact hl im List.mem_cons_self
    simp only [oneByOne, hd', Item.toFrame, hm, bind, Except.bind, pure, Except.pure]
    refine ⟨by simp only [List.length_cons, a1], a2, ?_⟩
    intro f hf
    rcases List.mem_cons.mp hf with rfl | hf
    · rintro x (rfl | hx)
      · exact hclean
      · cases hx; exact hclean
    · exact a3 f hf

theorem demo_sound (images : List (List U8)) (samples : List Flt) (err : Option PyErr)
    (hc : ∀ im ∈ images, (im.headD 0#8).toNat < 0x80) : Sound demoArgs (demoWorld images samples err) (fun _ => none) :=
  ⟨by decide, by decide, rfl, fun _ => (demo_video images samples err images 0 _ hc (fun _ _ => rfl)).2.2⟩

/-- C60, C61: three pictures and four samples are transcoded to the end. -/
theorem demo_finishes : ∃ n p, Execution demoArgs (demoWorld [[1#8], [2#8], [3#8]] [.fin 8192, .fin 0, .fin (-8192), .fin 0] none)
    (fun _ => none) n p ∧ p.main = .finished := by
  have hs := demo_sound [[1#8], [2#8], [3#8]] [.fin 8192, .fin 0, .fin (-8192), .fin 0] none (by decide)
  obtain ⟨A, hA⟩ : ∃ A, demoArgs.audio (demoWorld [[1#8], [2#8], [3#8]] [.fin 8192, .fin 0, .fin (-8192), .fin 0] none) = .ok A :=
    ⟨_, rfl⟩
  obtain ⟨ops, bytes, -, ⟨s0, ⟨s1, h1, h2⟩, -⟩, -⟩ := C60_schedule hs hA
  obtain ⟨m, t, h3, h4⟩ := exists_halted _ h2 (Nat.le_refl _)
  rcases C60_completes hs hA (demo_video _ _ none _ 0 _ (by decide) (fun _ _ => rfl)).2.1 ⟨s1, h1, h3⟩ with h | h
  · exact absurd h h4
  · exact ⟨m, t, ⟨s1, h1, h3⟩, h.1⟩

/-- A server that serves a file to one client. -/
theorem served_once (file : List U8) : ∃ srv, ServerRun [some file] srv ∧ srv.status 7 = .done := by
  have r0 := ServerRun.start (some file)
  have r1 := r0.step (.connect _ 7 rfl) rfl
  have r2 := r1.step (.accept _ 7 [] file rfl rfl rfl) rfl
  by_cases h : file = []
  · subst h
    exact ⟨_, r2.step (.finish _ 7 rfl) rfl, rfl⟩
  · have r3 := r2.step (.send _ 7 file file.length rfl (List.length_pos_iff.2 h) (Nat.le_refl _)) rfl
    exact ⟨_, r3.step (.finish _ 7 (by simp)) rfl, rfl⟩

/-- C60, the other case: one picture, after which reading the video fails, and sound that goes on.
The program comes to a halt waiting for the second picture. -/
theorem demo_hangs : ∃ n p, Execution demoArgs (demoWorld [[1#8]] [.fin 8192, .fin 0, .fin (-8192), .fin 0] (some .fileNotFound))
    (fun _ => none) n p ∧ p.main = .asking ∧ Halted demoArgs (demoWorld [[1#8]] [.fin 8192, .fin 0, .fin (-8192), .fin 0] (some .fileNotFound)) p := by
  have hs := demo_sound [[1#8]] [.fin 8192, .fin 0, .fin (-8192), .fin 0] (some .fileNotFound) (by decide)
  have hA : demoArgs.audio (demoWorld [[1#8]] [.fin 8192, .fin 0, .fin (-8192), .fin 0] (some .fileNotFound)) = .ok [8, 0, -8, 0] := by
    decide +kernel
  obtain ⟨v1, v2, -⟩ := demo_video [[1#8]] [.fin 8192, .fin 0, .fin (-8192), .fin 0] (some .fileNotFound) [[1#8]] 0 (fun _ => none)
    (by decide) (fun _ _ => rfl)
  obtain ⟨ops, bytes, hst, ⟨s0, ⟨s1, h1, h2⟩, -⟩, h3⟩ := C60_schedule hs hA
  obtain ⟨m, t, h4, h5⟩ := exists_halted _ h2 (Nat.le_refl _)
  have h6 := (h3 m t ⟨s1, h1, h4⟩).2.2.2 h5
  rw [show (Args.video demoArgs (demoWorld [[1#8]] [.fin 8192, .fin 0, .fin (-8192), .fin 0] (some .fileNotFound)) (fun _ => none)).2 =
    .hangs .fileNotFound from v2] at h6
  have hm : FrameMissing (fun k => 2 * k) [8, 0, -8, 0] (Args.video demoArgs
      (demoWorld [[1#8]] [.fin 8192, .fin 0, .fin (-8192), .fin 0] (some .fileNotFound)) (fun _ => none)).1 ops := by
    obtain ⟨body, bytes', calls, e, steps, g1, -, -, g4, -, g6, -, g8⟩ := movie_facts _ _ _ (movieInput_of_sound hs hA)
      (demoWorld [[1#8]] [.fin 8192, .fin 0, .fin (-8192), .fin 0] (some .fileNotFound)).tape
    have g := congrArg Prod.fst (Except.ok.inj (g1.symm.trans hst))
    simp only at g
    have hk : (ticksOf false ops).length = steps.length := by
      rw [← g, ← g4]
      exact congrArg List.length (ticksOf_terminate body false)
    have hv : (Args.video demoArgs (demoWorld [[1#8]] [.fin 8192, .fin 0, .fin (-8192), .fin 0] (some .fileNotFound)) (fun _ => none)).1.length = 1 := v1
    show _ < 4 ∧ _
    rw [hk, hv]
    have h8 : ∀ i, i < steps.length → fetched (fun k => 2 * k) (i + 1) ≤ 1 := by
      intro i hi
      have := (g8 i _ _ (List.getElem?_eq_getElem (by omega)) (List.getElem?_eq_getElem hi)).1
      rw [hv] at this
      exact this
    have hlt : steps.length < 2 := by
      by_contra hge
      exact absurd (h8 1 (by omega)) (by decide)
    refine ⟨by omega, ?_⟩
    cases g6 with
    | audio g => simp only [List.length_cons, List.length_nil] at g; omega
    | video _ _ g =>
      rw [hv] at g
      match hs : steps.length, hlt with
      | 0, _ => rw [hs] at g; exact absurd g (by decide)
      | 1, _ => decide
    | limit _ g =>
      exfalso
      have : (demoArgs.movie (demoWorld [[1#8]] [.fin 8192, .fin 0, .fin (-8192), .fin 0] (some .fileNotFound))).atLimit
        (posOf (steps.length + 1)) = false := by simp [Movie.atLimit, Args.movie, demoArgs]
      rw [this] at g; cases g
  simp only at h6
  have h6 := cast (if_pos hm) h6
  exact ⟨m, t, ⟨s1, h1, h4⟩, h6.1, h5⟩

/-- C61: the three pictures and four samples are transcoded, served and played. -/
example : ∃ (n : Nat) (p : Prog) (srv : Server) (e : Env) (s : Mach),
    Execution demoArgs (demoWorld [[1#8], [2#8], [3#8]] [.fin 8192, .fin 0, .fin (-8192), .fin 0] none) (fun _ => none) n p ∧
    p.main = .finished ∧ ServerRun [some (p.out.map (BitVec.ofNat 8))] srv ∧ srv.status 7 = .done ∧ e.file = srv.received 7 ∧
    e.Delivers ∧ e.Answers ∧ e.NeverRefuses ∧ e.StaysOpen ∧ Player.Started s ∧ s.w.works = true ∧ PausesEnd e s := by
  obtain ⟨n, p, h1, h2⟩ := demo_finishes
  obtain ⟨srv, h3, h4⟩ := served_once (p.out.map (BitVec.ofNat 8))
  refine ⟨n, p, srv, Player.linkEnv (srv.received 7) (fun _ => 1) fun _ => some Player.stEstablished, Player.sampleMach 0x800 (Player.coldChip true),
    h1, h2, h3, h4, rfl, fun t => ⟨t, Nat.le_refl _, Nat.one_pos⟩, fun t => ⟨t, Nat.le_refl _, .inl rfl⟩, fun t => ?_, fun t => ?_,
    Player.sample_started true, rfl, .inl ⟨(by decide : (0#8).getLsbD 7 = false), fun _ _ => rfl⟩⟩
  · show some Player.stEstablished ≠ some Player.stClosed; decide
  · show some Player.stEstablished ≠ some Player.stCloseWait; decide

end IIVision
