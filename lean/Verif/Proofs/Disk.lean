import Verif.Spec.Disk
import Verif.Proofs.Convert

/-! Lemmas for the transcoder on a disk: the output file and the files of the pictures do not interfere. -/

namespace IIVision
open Spec (OwnFile Blind commandLine LocalTool)

theorem put_comm (fs : FS) {a b : Text} (h : a ≠ b) (x y : List U8) : (fs.put a x).put b y = (fs.put b y).put a x := by
  funext q
  simp only [FS.put]
  by_cases h1 : q = a
  · subst h1; simp [h]
  · by_cases h2 : q = b
    · subst h2; simp [h1]
    · simp [h1, h2]

theorem put_put (fs : FS) (a : Text) (x y : List U8) : (fs.put a x).put a y = fs.put a y := by
  funext q
  simp only [FS.put]
  split <;> rfl

theorem put_same (fs : FS) (a : Text) (x : List U8) : (fs.put a x) a = some x := by simp [FS.put]

theorem put_other (fs : FS) {a q : Text} (h : q ≠ a) (x : List U8) : (fs.put a x) q = fs q := by simp [FS.put, h]

theorem has_put (fs : FS) {a q : Text} (h : q ≠ a) (x : List U8) : (fs.put a x).has q = fs.has q := by
  simp [FS.has, put_other fs h]

theorem read_put (fs : FS) {a q : Text} (h : q ≠ a) (x : List U8) : (fs.put a x).read q = fs.read q := by
  simp [FS.read, put_other fs h]

theorem remove_put (fs : FS) {a q : Text} (h : q ≠ a) (x : List U8) : (fs.put a x).remove q = (fs.remove q).map fun f => f.put a x := by
  unfold FS.remove
  rw [put_other fs h]
  cases fs q with
  | none => rfl
  | some d =>
    simp only [Except.map]
    congr 1
    funext r
    simp only [FS.put]
    by_cases h1 : r = q
    · subst h1; simp [h]
    · simp [h1]

theorem convert_put {G : Grabber} {name : Text} (hb : Blind G name) {i : Nat} (hn : ¬ OwnFile G i name) (fs : FS) (d im : List U8) {args : List Text}
    (ha : txt "/usr/local/bin/bmp2dhr" :: G.path i (txt ".bmp") :: args = commandLine (G.path i (txt ".bmp")) G.mode G.palette) :
    G.convert (fs.put name d) i im args = (G.convert fs i im args).map fun f => f.put name d := by
  have hne : G.path i (txt ".bmp") ≠ name := fun h => hn (.inr (.inr (.inr h.symm)))
  unfold Grabber.convert
  simp only
  rw [put_comm fs hne.symm, ha, hb]
  cases G.tool i (commandLine (G.path i (txt ".bmp")) G.mode G.palette) (fs.put (G.path i (txt ".bmp")) im) with
  | error e => rfl
  | ok f =>
    simp only [Except.map, bind, Except.bind]
    exact remove_put f hne d

theorem decode_put {G : Grabber} {name : Text} (hb : Blind G name) {i : Nat} (hn : ¬ OwnFile G i name) (fs : FS) (d im : List U8) :
    G.decode (fs.put name d) i im = (G.decode fs i im).map fun r => (r.1.put name d, r.2) := by
  have n1 : G.path i (txt "C.BIN") ≠ name := fun h => hn (.inl h.symm)
  have n2 : G.path i (txt ".BIN") ≠ name := fun h => hn (.inr (.inl h.symm))
  have n3 : G.path i (txt ".AUX") ≠ name := fun h => hn (.inr (.inr (.inl h.symm)))
  unfold Grabber.decode
  split
  · rename_i hm
    unfold Grabber.dhgrDecode
    simp only [has_put fs n2, has_put fs n3]
    by_cases hh : (fs.has (G.path i (txt ".BIN")) && fs.has (G.path i (txt ".AUX"))) = true
    · simp only [hh, if_true, pure, Except.pure, bind, Except.bind, read_put fs n2, read_put fs n3]
      cases fs.read (G.path i (txt ".BIN")) with
      | error e => rfl
      | ok x => cases fs.read (G.path i (txt ".AUX")) <;> rfl
    · simp only [hh, Bool.false_eq_true, if_false, bind, Except.bind]
      rw [convert_put hb hn fs d im (command_dhgr hm _)]
      cases G.convert fs i im [txt "dhgr", paletteArg G.palette, txt "A", txt "D9"] with
      | error e => rfl
      | ok f =>
        simp only [Except.map, read_put f n2, read_put f n3]
        cases f.read (G.path i (txt ".BIN")) with
        | error e => rfl
        | ok x => cases f.read (G.path i (txt ".AUX")) <;> rfl
  · rename_i hm
    have hm : G.mode = .HGR := by cases h : G.mode <;> simp_all
    unfold Grabber.hgrDecode
    simp only [has_put fs n1]
    by_cases hh : fs.has (G.path i (txt "C.BIN")) = true
    · simp only [hh, if_true, pure, Except.pure, bind, Except.bind, read_put fs n1]
      cases fs.read (G.path i (txt "C.BIN")) <;> rfl
    · simp only [hh, Bool.false_eq_true, if_false, bind, Except.bind]
      rw [convert_put hb hn fs d im (command_hgr hm _)]
      cases G.convert fs i im [txt "hgr", paletteArg G.palette, txt "D9"] with
      | error e => rfl
      | ok f =>
        simp only [Except.map, read_put f n1]
        cases f.read (G.path i (txt "C.BIN")) <;> rfl

theorem worker_put {G : Grabber} {name : Text} (hb : Blind G name) (hn : ∀ i, ¬ OwnFile G i name) (g : GState) (d : List U8) :
    G.workerStep { g with fs := g.fs.put name d } = (G.workerStep g).map fun g' => { g' with fs := g'.fs.put name d } := by
  unfold Grabber.workerStep
  cases hw : g.worker with
  | fetch idx rest =>
    cases rest with
    | nil => cases G.readError <;> rfl
    | cons im rest =>
      simp only
      rw [decode_put hb (hn idx)]
      cases G.decode g.fs idx im with
      | error e => rfl
      | ok r => rfl
  | put item idx rest => simp only; split <;> rfl
  | putEnd => simp only; split <;> rfl
  | done => rfl
  | dead e => rfl

theorem consumer_fs (g : GState) (f : FS) :
    ({ g with fs := f } : GState).consumerStep = g.consumerStep.map fun g' => { g' with fs := f } := by
  unfold GState.consumerStep
  cases hc : g.consumer with
  | get =>
    simp only
    cases hq : g.queue with
    | nil => rfl
    | cons x q =>
      cases x with
      | none => rfl
      | some item => simp only; cases item.toFrame <;> rfl
  | yielded => rfl
  | join => simp only; cases g.worker <;> rfl
  | finished => rfl
  | raised e => rfl

theorem consumer_disk {g t : GState} (h : g.consumerStep = some t) : t.fs = g.fs := by
  have h1 := consumer_fs g g.fs
  have h0 : ({ g with fs := g.fs } : GState) = g := rfl
  rw [h0, h] at h1
  have := Option.some.inj h1
  rw [this]

theorem resume_onDisk (M : Movie) (s : Prog) (F : List Frame) (f : FS) : (s.onDisk f).resume M F = (s.resume M F).onDisk f := by
  unfold Prog.resume
  show (match Coder.next M s.aux { s.coder with frames := F } with | .error e => _ | .ok none => _ | .ok (some (op, c)) => _) = _
  cases Coder.next M s.aux { s.coder with frames := F } with
  | error e => rfl
  | ok r =>
    cases r with
    | none => rfl
    | some r =>
      obtain ⟨op, c⟩ := r
      simp only
      show (if M.atLimit s.pos = true then _ else _) = _
      by_cases hl : M.atLimit s.pos = true
      · rw [if_pos hl, if_pos hl]; rfl
      · rw [if_neg hl, if_neg hl]
        show (match M.ackIfDue (s.pos + (op.emit M.addr).length) s.aux with | .error e => _ | .ok (_, b1, pos, aux) => _) = _
        cases M.ackIfDue (s.pos + (op.emit M.addr).length) s.aux <;> rfl

theorem resume_disk (M : Movie) (s : Prog) (F : List Frame) : (s.resume M F).disk = s.disk := by
  have h := resume_onDisk M s F s.disk
  have h0 : s.onDisk s.disk = s := rfl
  rw [h0] at h
  rw [h]; rfl

theorem main_onDisk (M : Movie) (s : Prog) (f : FS) : (s.onDisk f).mainStep M = (s.mainStep M).map fun t => t.onDisk f := by
  obtain ⟨g0, started, main, coder, pos, aux, out⟩ := s
  unfold Prog.mainStep
  cases main with
  | running =>
    by_cases h1 : coder.needsFrame M = true
    · simp only [Prog.onDisk, h1, if_true]
      cases started with
      | true =>
        simp only [if_true]
        rw [consumer_fs g0 f]
        cases g0.consumerStep <;> rfl
      | false => rfl
    · simp only [Prog.onDisk, h1, Bool.false_eq_true, if_false, Option.map_some]
      congr 1
      exact resume_onDisk M ⟨g0, started, .running, coder, pos, aux, out⟩ [] f
  | asking =>
    simp only [Prog.onDisk]
    rw [consumer_fs g0 f]
    cases hc : g0.consumerStep with
    | none => rfl
    | some g =>
      obtain ⟨gf, gw, gq, gc, go⟩ := g
      simp only [Option.map_some]
      cases gc with
      | yielded =>
        simp only [Option.map_some]
        congr 1
        exact resume_onDisk M ⟨⟨gf, gw, gq, .yielded, go⟩, started, .asking, coder, pos, aux, out⟩ _ f
      | finished =>
        simp only [Option.map_some]
        congr 1
        exact resume_onDisk M ⟨⟨gf, gw, gq, .finished, go⟩, started, .asking, coder, pos, aux, out⟩ _ f
      | _ => rfl
  | finished => rfl
  | raised e => rfl

theorem main_disk {M : Movie} {s t : Prog} (h : s.mainStep M = some t) : t.disk = s.disk := by
  have h1 := main_onDisk M s s.disk
  have h0 : s.onDisk s.disk = s := rfl
  rw [h0, h] at h1
  have := Option.some.inj h1
  rw [this]; rfl

/-- The numbers that are written are bytes. -/
theorem emit_small {addr : AddrTable} (ha : ∀ c, addr c < 65536) (op : Opcode) : ∀ b ∈ op.emit addr, b < 256 := by
  intro b hb
  unfold Opcode.emit at hb
  rcases List.mem_append.1 hb with hb | hb
  · cases op with
    | header m => cases hb
    | _ =>
      simp only [Opcode.emitCommand, List.mem_cons, List.not_mem_nil, or_false] at hb
      rcases hb with rfl | rfl
      · have := ha; exact Nat.div_lt_of_lt_mul (ha _)
      · exact Nat.mod_lt _ (by decide)
  · cases op with
    | header m =>
      simp only [Opcode.emitData, List.mem_cons, List.not_mem_nil, or_false] at hb
      cases m <;> simp [VideoMode.value] at hb <;> omega
    | terminate => cases hb
    | nop => cases hb
    | ack a =>
      simp only [Opcode.emitData, List.mem_cons, List.not_mem_nil, or_false] at hb
      rcases hb with rfl | rfl
      · split <;> omega
      · omega
    | tick t p c os =>
      simp only [Opcode.emitData, List.mem_cons, List.mem_map] at hb
      rcases hb with rfl | ⟨o, -, rfl⟩
      · exact c.isLt
      · exact o.isLt

theorem done_small {M : Movie} (ha : ∀ c, M.addr c < 65536) (pos : Nat) : ∀ b ∈ (M.done pos).2, b < 256 := by
  intro b hb
  simp only [Movie.done, List.mem_append, List.mem_replicate] at hb
  rcases hb with hb | ⟨-, rfl⟩
  · exact emit_small ha _ b hb
  · decide

theorem resume_out {M : Movie} (ha : ∀ c, M.addr c < 65536) (s : Prog) (F : List Frame) :
    ∃ b, (s.resume M F).out = s.out ++ b ∧ ∀ x ∈ b, x < 256 := by
  unfold Prog.resume
  split
  · exact ⟨[], by simp, by simp⟩
  · exact ⟨_, rfl, done_small ha _⟩
  · rename_i op c _
    split
    · exact ⟨_, rfl, done_small ha _⟩
    · simp only
      split
      · exact ⟨_, rfl, emit_small ha op⟩
      · rename_i b1 pos aux h
        refine ⟨op.emit M.addr ++ b1, by simp, ?_⟩
        intro x hx
        rcases List.mem_append.1 hx with hx | hx
        · exact emit_small ha op x hx
        · unfold Movie.ackIfDue at h
          split at h
          · simp only [bind, Except.bind, pyAssert] at h
            split at h
            · cases h
            · cases h; exact emit_small ha _ x hx
          · cases h; cases hx

theorem main_out {M : Movie} (ha : ∀ c, M.addr c < 65536) {s t : Prog} (h : s.mainStep M = some t) :
    ∃ b, t.out = s.out ++ b ∧ ∀ x ∈ b, x < 256 := by
  have same : ∀ t : Prog, t.out = s.out → ∃ b, t.out = s.out ++ b ∧ ∀ x ∈ b, x < 256 := fun t h => ⟨[], by simp [h], by simp⟩
  unfold Prog.mainStep at h
  split at h
  · split at h
    · split at h
      · split at h
        · cases h; exact same _ rfl
        · cases h
      · cases h; exact same _ rfl
    · cases h; exact resume_out ha s _
  · split at h
    · cases h
    · rename_i g hg
      split at h
      · cases h; exact resume_out ha { s with g } _
      · cases h; exact resume_out ha { s with g } _
      · cases h; exact same _ rfl
      · cases h; exact same _ rfl
  · cases h
  · cases h

theorem save_write {name : Text} {s t : Prog} {b : List Nat} (ho : t.out = s.out ++ b) (hb : ∀ x ∈ b, x < 256) (hd : t.disk = s.disk) :
    (t.onDisk (s.disk.put name (s.out.map (BitVec.ofNat 8)))).write name s.out.length = t.save name := by
  unfold Prog.write
  have h1 : (t.onDisk (s.disk.put name (s.out.map (BitVec.ofNat 8)))).out = t.out := rfl
  rw [h1, ho, List.drop_left, if_pos (by simpa using hb)]
  unfold Prog.save
  show t.onDisk ((s.disk.put name (s.out.map (BitVec.ofNat 8))).put name (t.out.map (BitVec.ofNat 8))) = _
  rw [put_put, hd]

theorem stepD_iff {M : Movie} {G : Grabber} {name : Text} (ha : ∀ c, M.addr c < 65536) (hb : Blind G name) (hn : ∀ i, ¬ OwnFile G i name)
    (s d : Prog) : Prog.StepD M G name (s.save name) d ↔ ∃ t, Prog.Step M G s t ∧ d = t.save name := by
  have hw : (s.save name).workerStep G = (s.workerStep G).map fun t => t.save name := by
    unfold Prog.workerStep
    show (if s.started = true then _ else _) = _
    by_cases hs : s.started = true
    · rw [if_pos hs, if_pos hs]
      have : G.workerStep (s.save name).g = (G.workerStep s.g).map fun g' => { g' with fs := g'.fs.put name (s.out.map (BitVec.ofNat 8)) } :=
        worker_put hb hn s.g _
      rw [this]
      cases G.workerStep s.g <;> rfl
    · rw [if_neg hs, if_neg hs]; rfl
  have hm : (s.save name).mainStepD M name = (s.mainStep M).map fun t => t.save name := by
    unfold Prog.mainStepD
    have : (s.save name).mainStep M = (s.mainStep M).map fun t => t.onDisk (s.disk.put name (s.out.map (BitVec.ofNat 8))) := main_onDisk M s _
    rw [this, Option.map_map]
    cases ht : s.mainStep M with
    | none => rfl
    | some t =>
      obtain ⟨b, h1, h2⟩ := main_out ha ht
      simp only [Option.map_some, Function.comp]
      congr 1
      exact save_write h1 h2 (main_disk ht)
  constructor
  · intro h
    cases h with
    | worker h =>
      rw [hw] at h
      obtain ⟨t, ht, rfl⟩ := Option.map_eq_some_iff.1 h
      exact ⟨t, .worker ht, rfl⟩
    | main h =>
      rw [hm] at h
      obtain ⟨t, ht, rfl⟩ := Option.map_eq_some_iff.1 h
      exact ⟨t, .main ht, rfl⟩
  · rintro ⟨t, ht, rfl⟩
    cases ht with
    | worker ht => exact .worker (by rw [hw, ht]; rfl)
    | main ht => exact .main (by rw [hm, ht]; rfl)

theorem stepsD_iff {M : Movie} {G : Grabber} {name : Text} (ha : ∀ c, M.addr c < 65536) (hb : Blind G name) (hn : ∀ i, ¬ OwnFile G i name)
    {n : Nat} {s d : Prog} : Prog.StepsD M G name n (s.save name) d ↔ ∃ t, Prog.Steps M G n s t ∧ d = t.save name := by
  induction n generalizing d with
  | zero =>
    constructor
    · intro h; cases h; exact ⟨s, .zero s, rfl⟩
    · rintro ⟨t, ht, rfl⟩; cases ht; exact .zero _
  | succ n ih =>
    constructor
    · intro h
      cases h with
      | succ h1 h2 =>
        obtain ⟨t, ht, rfl⟩ := ih.1 h1
        obtain ⟨u, hu, rfl⟩ := (stepD_iff ha hb hn t _).1 h2
        exact ⟨u, .succ ht hu, rfl⟩
    · rintro ⟨u, hu, rfl⟩
      cases hu with
      | @succ _ _ t _ h1 h2 => exact .succ (ih.2 ⟨t, h1, rfl⟩) ((stepD_iff ha hb hn t _).2 ⟨u, h2, rfl⟩)

end IIVision
