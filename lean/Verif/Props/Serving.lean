import Verif.Proofs.Serving
import Verif.Props.Cut

/-! Claim C86: a file that is written while it is served. -/

namespace IIVision
open Spec

theorem run_appends {R : Live → Live → Prop} (hR : ∀ s t, R s t → Appends s t) {s t : Live} (r : LiveRun R s t) : Appends s t := by
  induction r with
  | refl => exact fun i => List.prefix_refl _
  | step _ _ hr ih => exact fun i => (ih i).trans (hR _ _ hr i)

/-- **C86.** While files only grow (and the name may be given to other files), what a client is sent is at every moment the beginning of a file that had the name
since the client was seen waiting; if its connection is closed normally, it is all that the file had at some moment since then: at least what it had
when the client was still waiting, and nothing that it has not got. -/
theorem C86_growing {R : Live → Live → Prop} (hR : ∀ s t, R s t → Appends s t) {v w : Live} (hv : Listening v) (hr : LiveRun R v w) {c : Nat} (hc : Unserved v c) :
    (w.received c = [] ∨ ∃ i, NamedBetween R v w i ∧ w.received c <+: w.contents i) ∧
    (w.status c = .done → ∃ i, NamedBetween R v w i ∧ v.contents i <+: w.received c ∧ w.received c <+: w.contents i) := by
  have hok := liveOk_listening hv
  suffices h : ClientOk (fun i got => NamedBetween R v w i ∧ got <+: w.contents i)
      (fun d => ∃ i, NamedBetween R v w i ∧ v.contents i <+: d ∧ d <+: w.contents i) c w by
    refine ⟨(clientOk_received (liveOk_run hok hr) h).imp id ?_, h.done⟩
    rintro ⟨d, ⟨i, h1, -, h2⟩, h3⟩
    exact ⟨i, h1, h3.trans h2⟩
  induction hr with
  | refl => exact clientOk_unserved hok hc
  | @step t u hr st hrel ih =>
    have one : ∀ {i}, NamedBetween R v t i → NamedBetween R v u i := fun ⟨x, h1, h2, h3⟩ => ⟨x, h1, .step h2 st hrel, h3⟩
    have happ := hR _ _ hrel
    refine clientOk_step (liveOk_run hok hr) ih st ?_ ?_ ?_ ?_ ?_
    · exact fun i got ⟨h1, h2⟩ => ⟨one h1, h2.trans (happ i)⟩
    · exact fun d ⟨i, h1, h2, h3⟩ => ⟨i, one h1, h2, h3.trans (happ i)⟩
    · exact fun i hi => ⟨⟨t, hr, .step .refl st hrel, hi⟩, List.nil_prefix⟩
    · exact fun i got k ⟨h1, h2⟩ _ _ => ⟨one h1, (prefix_read h2 k).trans (happ i)⟩
    · intro i got ⟨h1, h2⟩ hle
      have : got = t.contents i := h2.eq_of_length_le hle
      subst this
      exact ⟨i, one h1, run_appends hR hr i, happ i⟩

/-- **C86.** If files are never changed, only replaced by others under the same name, every client gets a complete file that had the name. -/
theorem C86_replaced {R : Live → Live → Prop} (hR : ∀ s t, R s t → Replaces s t) {v w : Live} (hv : Listening v) (hr : LiveRun R v w) {c : Nat} (hc : Unserved v c)
    (hd : w.status c = .done) : ∃ i, NamedBetween R v w i ∧ w.received c = v.contents i := by
  have hconst : ∀ i, w.contents i = v.contents i := by
    induction hr with
    | refl => exact fun i => rfl
    | @step t u hr st hrel ih =>
      clear hd
      have key : ∀ {t : Live}, LiveRun R v t → ∀ i, t.contents i = v.contents i := by
        intro t h
        induction h with
        | refl => exact fun _ => rfl
        | step _ _ hrel ih => exact fun i => (hR _ _ hrel i).trans (ih i)
      exact fun i => (hR _ _ hrel i).trans (key hr i)
  obtain ⟨i, h1, h2, h3⟩ := (C86_growing (fun s t h i => by rw [hR s t h i]) hv hr hc).2 hd
  rw [hconst i] at h3
  exact ⟨i, h1, h3.eq_of_length_le h2.length_le⟩

/-- **C86** (defect). If a file is overwritten in place while it is read - as the transcoder does with a file of an earlier run: it makes it empty and writes
it again - a client may be sent a mixture: the beginning of the old file and the rest of the new one. -/
theorem C86_mixture (old new : List U8) {k : Nat} (h0 : 0 < k) (h1 : k ≤ old.length) (h2 : k < new.length) :
    ∃ w, LiveRun (fun s t => ∀ i, t.contents i ≠ s.contents i → s.contents i = old ∧ t.contents i = [] ∨ s.contents i = [] ∧ t.contents i = new)
        (Live.new (fun _ => old) (some 0)) w ∧ w.status 0 = .done ∧ w.received 0 = old.take k ++ new.drop k := by
  have hold : 0 < old.length := by omega
  have hnew : 0 < new.length := by omega
  let data := old.take k ++ new.drop k
  have hlen : (old.take k).length = k := by rw [List.length_take]; omega
  have r1 := LiveRun.step (R := fun s t => ∀ i, t.contents i ≠ s.contents i → s.contents i = old ∧ t.contents i = [] ∨ s.contents i = [] ∧ t.contents i = new)
    (LiveRun.refl (s := Live.new (fun _ => old) (some 0))) (.connect _ 0 rfl) (fun i h => absurd rfl h)
  have r2 := r1.step (.accept _ 0 [] 0 rfl rfl rfl) (fun i h => absurd rfl h)
  have r3 := r2.step (.read _ 0 0 [] k rfl h0 (by show 0 + k ≤ old.length; omega)) (fun i h => absurd rfl h)
  have r4 := r3.step (.write _ 0 []) (fun i h => by
    by_cases hi : i = 0
    · exact .inl ⟨rfl, by subst hi; rfl⟩
    · exact absurd (at_other _ _ hi) h)
  have r5 := r4.step (.write _ 0 new) (fun i h => by
    by_cases hi : i = 0
    · subst hi; exact .inr ⟨rfl, rfl⟩
    · exact absurd (at_other _ _ hi) h)
  have r6 := r5.step (.read _ 0 0 (old.take k) (new.length - k) rfl (by omega) (by
    show (old.take k).length + _ ≤ new.length
    omega)) (fun i h => absurd rfl h)
  have e6 : old.take k ++ ((setAt (setAt (fun _ => old) 0 []) 0 new 0).drop (old.take k).length).take (new.length - k) = data := by
    show old.take k ++ (new.drop (old.take k).length).take (new.length - k) = old.take k ++ new.drop k
    rw [hlen, List.take_of_length_le (l := new.drop k) (by rw [List.length_drop])]
  have hd : data.length = new.length := by
    show (old.take k ++ new.drop k).length = _
    rw [List.length_append, hlen, List.length_drop]; omega
  have r7 := r6.step (.eof _ 0 0 data (by rw [← e6]; rfl) (by show new.length ≤ data.length; omega)) (fun i h => absurd rfl h)
  have r8 := r7.step (.send _ 0 data data.length rfl (by omega) (Nat.le_refl _)) (fun i h => absurd rfl h)
  have r9 := r8.step (.finish _ 0 (by show some (0, Handling.sending (data.drop data.length)) = _; rw [List.drop_length])) (fun i h => absurd rfl h)
  exact ⟨_, r9, rfl, by
    show setAt (fun _ => []) 0 ([] ++ data.take data.length) 0 = data
    rw [at_same, List.nil_append, List.take_length]⟩

/-! ### Transcoder and server at the same time -/

/-- A step of the transcoder adds bytes at the end of its output file, or does not change it. -/
theorem step_grows {P : Setup} (hb : Blind P.grabber P.name) (hn : ∀ i, ¬ OwnFile P.grabber i P.name) {size : Nat} {dev : Device} {s t : Session}
    (h : Session.Step P size dev s t) {d : List U8} (hd : s.prog.disk P.name = some d) : ∃ d', t.prog.disk P.name = some d' ∧ d <+: d' := by
  have raw : ∀ s : Session, s.prog.disk P.name = some d → ∃ d', (s.rawWrite P.name dev).prog.disk P.name = some d' ∧ d <+: d' := by
    intro s hd
    unfold Session.rawWrite
    cases dev s.calls with
    | error e => exact ⟨d, hd, List.prefix_refl _⟩
    | ok k => exact ⟨d ++ s.buf.take (k + 1), by show (s.prog.append P.name _).disk P.name = _; unfold Prog.append; rw [hd]; exact put_same _ _ _, List.prefix_append _ _⟩
  cases h with
  | @worker t hw =>
    have e0 : s.prog.onDisk (s.prog.disk.put P.name d) = s.prog := by
      have : s.prog.disk.put P.name d = s.prog.disk := by
        funext q
        unfold FS.put
        split
        · next h => rw [h, hd]
        · rfl
      rw [this]; rfl
    rw [← e0, worker_onDisk hb hn] at hw
    obtain ⟨y, -, rfl⟩ := Option.map_eq_some_iff.1 hw
    exact ⟨d, put_same _ _ _, List.prefix_refl _⟩
  | main hm =>
    unfold Session.mainStep at hm
    split at hm
    · cases hm
    · split at hm
      · split at hm
        · cases hm; exact ⟨d, hd, List.prefix_refl _⟩
        · split at hm
          · cases hm; exact ⟨d, hd, List.prefix_refl _⟩
          · cases hm; exact raw _ hd
      · split at hm
        · split at hm
          · cases hm; exact ⟨d, hd, List.prefix_refl _⟩
          · cases hm; exact raw _ hd
        · obtain ⟨y, hy, rfl⟩ := Option.map_eq_some_iff.1 hm
          exact ⟨d, by show y.disk P.name = _; rw [mainW_disk hy]; exact hd, List.prefix_refl _⟩

/-- Transcoder and server together: a run of the server in which files only grow and the name stays. -/
theorem together_run {P : Setup} (hb : Blind P.grabber P.name) (hn : ∀ i, ¬ OwnFile P.grabber i P.name) {size : Nat} {dev : Device} {i : Nat}
    {x y : Session × Live} (h : TogetherRun P size dev i x y) (h0 : x.1.prog.disk P.name = some (x.2.contents i)) :
    y.1.prog.disk P.name = some (y.2.contents i) ∧ LiveRun (fun s t => Appends s t ∧ t.name = s.name) x.2 y.2 ∧ ∃ n, Session.Steps P size dev n x.1 y.1 := by
  induction h with
  | refl => exact ⟨h0, .refl, 0, .zero _⟩
  | @step y z _ st ih =>
    obtain ⟨h1, h2, n, h3⟩ := ih
    cases st with
    | @transcoder s t v hs =>
      obtain ⟨d', e1, e2⟩ := step_grows hb hn hs h1
      refine ⟨?_, .step h2 (.write _ i _) ⟨fun j => ?_, rfl⟩, n + 1, .succ h3 hs⟩
      · show t.prog.disk P.name = some (setAt _ i _ i)
        rw [at_same, e1]; rfl
      · show v.contents j <+: setAt _ i _ j
        by_cases hj : j = i
        · subst hj; rw [at_same, e1]; exact e2
        · rw [at_other _ _ hj]
    | @server s v w hs hc hnm =>
      exact ⟨by show s.prog.disk P.name = some (w.contents i); rw [hc]; exact h1, .step h2 hs ⟨fun j => by rw [hc], hnm⟩, n, h3⟩

theorem named_same {R : Live → Live → Prop} (hR : ∀ s t, R s t → t.name = s.name) {v w : Live} (h : LiveRun R v w) : w.name = v.name := by
  induction h with
  | refl => rfl
  | step _ _ hr ih => exact (hR _ _ hr).trans ih

theorem together_trans {P : Setup} {size : Nat} {dev : Device} {i : Nat} {x y z : Session × Live} (h1 : TogetherRun P size dev i x y)
    (h2 : TogetherRun P size dev i y z) : TogetherRun P size dev i x z := by
  induction h2 with
  | refl => exact h1
  | step _ st ih => exact .step ih st

theorem steps_add {P : Setup} {size : Nat} {dev : Device} {n m : Nat} {s t u : Session} (h1 : Session.Steps P size dev n s t) (h2 : Session.Steps P size dev m t u) :
    Session.Steps P size dev (n + m) s u := by
  induction h2 with
  | zero => exact h1
  | succ _ st ih => exact .succ (ih h1) st

theorem listening_run {R : Live → Live → Prop} {v w : Live} (hv : Listening v) (h : LiveRun R v w) : Listening w := by
  obtain ⟨ct, nm, hr⟩ := hv
  refine ⟨ct, nm, ?_⟩
  induction h with
  | refl => exact hr
  | step _ st _ ih => exact .step ih st trivial

/-- The length of a stream, in terms of its opcodes. -/
theorem stream_length {M : Movie} {tape : Nat → Nat} {A : List Int} {F : List Frame} {ops : List Opcode} {bytes : List Nat}
    (h : M.stream tape A F = .ok (ops, bytes)) {mode : VideoMode} {body : List Opcode} (hb : ops = .header mode :: body ++ [.terminate]) :
    bytes.length = 2048 * ((7 + (bytesOf M.addr body).length) / 2048) + 2048 := by
  unfold Movie.stream at h
  cases hc : M.start tape A F with
  | error e => rw [hc] at h; cases h
  | ok c =>
    rw [hc, Except.bind_ok] at h
    obtain ⟨h1, h2, body', pad, h3, -, -, h4⟩ := C24_terminated _ _ (fun _ _ _ _ h => coder_frameOp h) _ _ _ _ h
    rw [hb] at h3
    have : body' = .header mode :: body := (List.append_cancel_right h3).symm
    subst this
    have e1 : (bytesOf M.addr (.header mode :: body)).length = 7 + (bytesOf M.addr body).length := by
      unfold bytesOf
      rw [List.flatMap_cons, List.length_append]
      rfl
    rw [e1] at h4
    omega

/-- **C86.** The transcoder, started with words, an input and other programs as in C80, writes its output file while the server serves it, with any buffer size,
behaviour of the disk (partial and failing writes), clients and interleaving.  A client that had not been accepted when the transcoder opened the file is sent, at every
moment, a beginning of the stream the transcoder would write: if its block with TERMINATE is not complete, the player does with it what is said in `CutOff`;
otherwise it is the whole stream, and plays.  If the connection is closed normally, it has been sent at least what the file had when it was last seen unserved; so a client that is accepted
after the transcoder has ended without an error gets the whole stream. -/
theorem C86_broadcast {H : Host} {argv : List Text} {fs : FS} {c : Command} {norm : Flt} {tpf : Rat} (h : Starts H argv c norm tpf)
    (hs : Smooth H c norm fs) (hf : Separate H c) (ha : H.addr = playerAddr) {size : Nat} (hz : 0 < size) (dev : Device) :
    ∃ t ops bytes body, c.mode.loadEditDistances H.files c.palette = .ok t ∧
      (hostMovie H c tpf t).stream H.tape (hostSound H c norm) (wholeVideo (hostGrabber H c) fs).1 = .ok (ops, bytes) ∧
      ops = .header c.mode :: body ++ [.terminate] ∧
      ∀ v x, Broadcasting H argv fs size dev v x → ∀ client,
        (Unserved v client → numbers (x.2.received client) <+: bytes ∧
          ∀ (e : Player.Env) (m : Player.Mach), e.file = x.2.received client → Player.Connected e m →
            Player.CutOff e m c.mode body ∨
            numbers e.file = bytes ∧ (e.Delivers → Player.PausesEnd e m →
              ∃ s1 s2, m.Reaches e s1 ∧ Player.Executes e s1 body s2 ∧ s2.pc = playerAddr .terminate)) ∧
        ∀ y, Later H argv fs size dev x y → Unserved x.2 client → y.2.status client = .done →
          (∃ d, x.1.prog.disk (outFilename c.output c.input) = some d ∧ d <+: y.2.received client) ∧
          (x.1.closed = true → x.1.error = none → numbers (y.2.received client) = bytes) := by
  have ha' : ∀ x, H.addr x < 65536 := by rw [ha]; exact player_small
  obtain ⟨t, ops, bytes, h1, hin, h2, -⟩ := C80_good h hs hf ha'
  obtain ⟨body, b1, b2, -⟩ := Player.playable_of_stream hin ha h2
  refine ⟨t, ops, bytes, body, h1, h2, b1, ?_⟩
  rintro v ⟨xs, xv⟩ ⟨P, s0, i, hl, hv, hname, hempty, hrun⟩ client
  obtain ⟨hG, hN, -, hE, t', ops', g1, g2⟩ := good_plain h hs hf ha' hl
  cases h1.symm.trans g1
  have hb : (Setup.plain P fs s0).1 = bytes := congrArg Prod.snd (Except.ok.inj (g2.symm.trans h2))
  have hbl : Blind P.grabber P.name := by rw [hG, hN]; exact hf.blind
  have hno : ∀ i, ¬ OwnFile P.grabber i P.name := by rw [hG, hN]; exact hf.name
  obtain ⟨-, h84⟩ := C84_buffered hl ha' hbl hno (by rw [hG]; exact hf.tool) hz dev
  obtain ⟨-, x0, e0, -⟩ := launch_begins hl ha'
  have hstart : (Session.start s0).prog.disk P.name = some (v.contents i) := by
    show s0.disk P.name = _
    rw [e0, hempty]
    exact put_same _ _ _
  -- what the file has is a beginning of the stream
  have hpart : ∀ {y : Session × Live}, TogetherRun P size dev i (Session.start s0, v) y → y.1.prog.disk P.name = some (y.2.contents i) ∧
      numbers (y.2.contents i) <+: bytes ∧ (y.1.closed = true → y.1.error = none → numbers (y.2.contents i) = bytes) ∧
      LiveRun (fun s t => Appends s t ∧ t.name = s.name) v y.2 := by
    intro y hy
    obtain ⟨q1, q2, n, q3⟩ := together_run hbl hno hy hstart
    obtain ⟨-, ⟨d, d1, d2, -, -, -, -, d3, -⟩, -⟩ := h84 n y.1 ⟨P, s0, hl, q3⟩
    cases q1.symm.trans d1
    rw [hb] at d2 d3
    exact ⟨q1, (List.prefix_append _ _).trans d2, fun z1 z2 => (d3 z1 z2).1, q2⟩
  have named : ∀ {a b : Live} {j : Nat}, a.name = some i → NamedBetween (fun s t => Appends s t ∧ t.name = s.name) a b j → j = i := by
    rintro a b j ha ⟨u, u1, -, u3⟩
    rw [named_same (fun _ _ h => h.2) u1, ha] at u3
    exact (Option.some.inj u3).symm
  obtain ⟨p1, p2, p3, p4⟩ := hpart hrun
  constructor
  · intro hun
    have hpre : numbers (xv.received client) <+: bytes := by
      rcases (C86_growing (fun _ _ h => h.1) hv p4 hun).1 with hr | ⟨j, hj, hr⟩
      · rw [hr]; exact List.nil_prefix
      · cases named hname hj
        exact (hr.map _).trans p2
    refine ⟨hpre, fun e m he hc => ?_⟩
    have hpre' : e.file <+: bytes.map (BitVec.ofNat 8) := by
      rw [he]
      obtain ⟨r, hr⟩ := hpre
      refine ⟨r.map (BitVec.ofNat 8), ?_⟩
      rw [← hr, List.map_append]
      congr 1
      unfold numbers
      rw [List.map_map]
      conv => lhs; rw [← List.map_id (xv.received client)]
      refine List.map_congr_left fun x _ => ?_
      simp
    by_cases hlen : e.file.length < 2048 * ((7 + (bytesOf playerAddr body).length) / 2048) + 2048
    · exact .inl (Player.C85_cut b2 hpre' hlen hc)
    · right
      have hwhole : numbers e.file = bytes := by
        rw [he]
        refine hpre.eq_of_length_le ?_
        rw [numbers_length, ← he]
        have := stream_length (M := hostMovie H c tpf t) h2 b1
        rw [show (hostMovie H c tpf t).addr = playerAddr from ha] at this
        omega
      have hfile : e.file = bytes.map (BitVec.ofNat 8) := hpre'.eq_of_length_le (by rw [List.length_map, ← hwhole, numbers_length])
      refine ⟨hwhole, fun hD hk => ?_⟩
      rcases Player.C40_progress hD hc (by rw [hfile]; exact b2) with ⟨s1, s2, r1, r2, -, r3⟩ | ⟨r1, s', r2, r3⟩
      · exact ⟨s1, s2, r1, r2, r3⟩
      · exact (hk.elim (fun hk => r1 hk) fun hk => hk s' r2 r3).elim
  · rintro ⟨ys, yv⟩ ⟨P', s0', i', hl', hname', hrun'⟩ hun hdone
    cases hl.symm.trans hl'
    have hi : i' = i := by
      have hname' : xv.name = some i' := hname'
      rw [named_same (fun _ _ h => h.2) p4, hname] at hname'
      exact (Option.some.inj hname').symm
    subst hi
    obtain ⟨-, q2, -⟩ := together_run hbl hno hrun' p1
    obtain ⟨-, r2, -, -⟩ := hpart (together_trans hrun hrun')
    obtain ⟨j, hj, w1, w2⟩ := (C86_growing (fun _ _ h => h.1) (listening_run hv p4) q2 hun).2 hdone
    cases named hname' hj
    refine ⟨⟨_, by rw [← hN]; exact p1, w1⟩, fun z1 z2 => ?_⟩
    have hw1 : bytes <+: numbers (yv.received client) := by rw [← p3 z1 z2]; exact w1.map _
    exact ((w2.map _).trans r2).eq_of_length_le hw1.length_le

/-! ### The hypotheses can be met -/

/-- A server that has just been started, and one client that is waiting. -/
def demoLive : Live := { Live.new (fun _ => []) (some 0) with pending := [7], status := setAt (fun _ => .absent) 7 .waiting }

theorem demo_listening : Listening demoLive := ⟨_, _, .step .refl (.connect _ 7 rfl) trivial⟩

/-- A session can be accompanied by a server that does nothing. -/
theorem together_steps {P : Setup} {size : Nat} {dev : Device} {i : Nat} {s0 : Session}
    {v : Live} {n : Nat} {s : Session} (h : Session.Steps P size dev n s0 s) :
    ∃ w, TogetherRun P size dev i (s0, v) (s, w) ∧ w.name = v.name ∧ w.current = v.current ∧ w.pending = v.pending ∧ w.status = v.status ∧ w.received = v.received := by
  induction h with
  | zero => exact ⟨v, .refl, rfl, rfl, rfl, rfl, rfl⟩
  | succ _ st ih =>
    obtain ⟨w, h1, h2, h3, h4, h5, h6⟩ := ih
    exact ⟨_, .step h1 (.transcoder w st), h2, h3, h4, h5, h6⟩

/-- The server serves a waiting client to the end. -/
theorem serve_one {P : Setup} {size : Nat} {dev : Device} {i : Nat} (s : Session) {w : Live} {c : Nat} {rest : List Nat} (h1 : w.name = some i) (h2 : w.current = none)
    (h3 : w.pending = c :: rest) (h4 : w.received c = []) (h5 : w.contents i ≠ []) :
    ∃ u, TogetherRun P size dev i (s, w) (s, u) ∧ u.status c = .done ∧ u.received c = w.contents i := by
  have hpos := List.length_pos_iff.2 h5
  have r1 := TogetherRun.step (P := P) (size := size) (dev := dev) (i := i) (.refl (x := (s, w))) (.server s (.accept w c rest i h2 h3 h1) rfl rfl)
  have r2 := r1.step (.server s (.read _ c i [] (w.contents i).length rfl hpos (by show 0 + (w.contents i).length ≤ (w.contents i).length; omega)) rfl rfl)
  have e2 : ([] : List U8) ++ ((w.contents i).drop ([] : List U8).length).take (w.contents i).length = w.contents i := List.take_length
  have r3 := r2.step (.server s (.eof _ c i (w.contents i) (by rw [← e2]; simp) (Nat.le_refl _)) rfl rfl)
  have r4 := r3.step (.server s (.send _ c (w.contents i) (w.contents i).length rfl hpos (Nat.le_refl _)) rfl rfl)
  have r5 := r4.step (.server s (.finish _ c (by show some (c, Handling.sending ((w.contents i).drop (w.contents i).length)) = _; rw [List.drop_length])) rfl rfl)
  refine ⟨_, r5, at_same _ _ _, ?_⟩
  show setAt w.received c (w.received c ++ (w.contents i).take (w.contents i).length) c = _
  rw [at_same, h4, List.nil_append, List.take_length]

/-- C86_broadcast: a client that waits until the transcoder has ended, and gets everything. -/
theorem demo_broadcast : ∃ x y bytes, Broadcasting demoHost demoWords (fun _ => none) 4096 (fun _ => .ok 2) demoLive x ∧ Later demoHost demoWords (fun _ => none) 4096 (fun _ => .ok 2) x y ∧
    Unserved x.2 7 ∧ x.1.closed = true ∧ x.1.error = none ∧ y.2.status 7 = .done ∧ numbers (y.2.received 7) = bytes ∧ 0 < bytes.length := by
  obtain ⟨t, ops, bytes, body, h1, h2, -, hall⟩ := C86_broadcast demo_starts demo_smooth demo_separate rfl (by decide : 0 < 4096) (fun _ => .ok 2)
  obtain ⟨⟨n, s, ⟨P, s0, hl, hst⟩, hc, he⟩, -⟩ := demo_buffered
  obtain ⟨hG, hN, -, hE, -⟩ := good_plain demo_starts demo_smooth demo_separate player_small hl
  have hbl : Blind P.grabber P.name := by rw [hG, hN]; exact demo_separate.blind
  have hno : ∀ i, ¬ OwnFile P.grabber i P.name := by rw [hG, hN]; exact demo_separate.name
  obtain ⟨-, x0, e0, -⟩ := launch_begins hl player_small
  obtain ⟨w, a1, a2, a3, a4, a5, a6⟩ := together_steps (i := 0) (v := demoLive) hst
  have herr : s.error = none := by
    cases hx : s.error with
    | none => rfl
    | some e => unfold Session.ending at he; rw [hx] at he; cases he
  have hb : Broadcasting demoHost demoWords (fun _ => none) 4096 (fun _ => .ok 2) demoLive (s, w) := ⟨P, s0, 0, hl, demo_listening, rfl, rfl, a1⟩
  have hun : Unserved w 7 := .inr (by rw [a5]; rfl)
  obtain ⟨q1, -⟩ := together_run hbl hno a1 (by
    show s0.disk P.name = some []
    rw [e0]
    exact put_same _ _ _)
  have hne : w.contents 0 ≠ [] := by
    intro hempty
    obtain ⟨-, h84⟩ := C84_buffered hl player_small hbl hno (by rw [hG]; exact demo_separate.tool) (by decide : 0 < 4096) (fun _ => .ok 2)
    obtain ⟨-, ⟨d, d1, -, -, -, -, -, d3, -⟩, -⟩ := h84 n s ⟨P, s0, hl, hst⟩
    cases q1.symm.trans d1
    have e1 := (d3 hc herr).1
    rw [hempty] at e1
    obtain ⟨-, -, -, -, t', ops', -, g2⟩ := good_plain demo_starts demo_smooth demo_separate player_small hl
    have := stream_nonempty g2
    rw [← e1] at this
    exact absurd this (by decide)
  obtain ⟨u, b1, b2, b3⟩ := serve_one (P := P) (size := 4096) (dev := fun _ => .ok 2) s (c := 7) (rest := []) (i := 0) (by rw [a2]; rfl) (by rw [a3]; rfl) (by rw [a4]; rfl) (by rw [a6]; rfl) hne
  have hlater : Later demoHost demoWords (fun _ => none) 4096 (fun _ => .ok 2) (s, w) (s, u) := ⟨P, s0, 0, hl, by show w.name = _; rw [a2]; rfl, b1⟩
  exact ⟨(s, w), (s, u), bytes, hb, hlater, hun, hc, herr, b2, ((hall demoLive (s, w) hb 7).2 (s, u) hlater hun b2).2 hc herr, stream_nonempty h2⟩

/-- C86_mixture: half of an old file and half of a new one. -/
example : ∃ w, LiveRun (fun s t => ∀ i, t.contents i ≠ s.contents i → s.contents i = [1#8, 2#8] ∧ t.contents i = [] ∨ s.contents i = [] ∧ t.contents i = [3#8, 4#8])
    (Live.new (fun _ => [1#8, 2#8]) (some 0)) w ∧ w.status 0 = .done ∧ w.received 0 = [1#8, 4#8] :=
  C86_mixture [1#8, 2#8] [3#8, 4#8] (k := 1) (by decide) (by decide) (by decide)

/-- C86_replaced: a file that is replaced while it is read. -/
example : ∃ v w, Listening v ∧ Unserved v 0 ∧ LiveRun Replaces v w ∧ w.status 0 = .done ∧ w.name = some 1 ∧ w.received 0 = [1#8, 2#8] := by
  have l0 : Listening (Live.new (fun i => if i = 0 then [1#8, 2#8] else [3#8]) (some 0)) := ⟨_, _, .refl⟩
  have r1 := LiveRun.step (R := Replaces) (LiveRun.refl (s := Live.new (fun i => if i = 0 then [1#8, 2#8] else [3#8]) (some 0))) (.connect _ 0 rfl) (fun _ => rfl)
  have r2 := r1.step (.accept _ 0 [] 0 rfl rfl rfl) (fun _ => rfl)
  have r3 := r2.step (.read _ 0 0 [] 1 rfl (by decide) (by decide)) (fun _ => rfl)
  have r4 := r3.step (.link _ (some 1)) (fun _ => rfl)
  have r5 := r4.step (.read _ 0 0 [1#8] 1 rfl (by decide) (by decide)) (fun _ => rfl)
  have r6 := r5.step (.eof _ 0 0 [1#8, 2#8] rfl (by decide)) (fun _ => rfl)
  have r7 := r6.step (.send _ 0 [1#8, 2#8] 2 rfl (by decide) (by decide)) (fun _ => rfl)
  have r8 := r7.step (.finish _ 0 rfl) (fun _ => rfl)
  exact ⟨_, _, l0, .inl rfl, r8, rfl, rfl, rfl⟩

end IIVision
