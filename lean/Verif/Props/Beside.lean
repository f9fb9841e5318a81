import Verif.Proofs.Beside
import Verif.Props.Buffered

/-! A transcoder beside other programs, and two transcoders at once. -/

namespace IIVision
open Spec

theorem same_of {P : Setup} {s : Session} {d : FS} (h : AgreeOn (Mine P) s.prog.disk d) : SameButOthers P s (s.onDisk d) := ⟨d, rfl, fun q hq => (h q hq).symm⟩

/-- **C88.** However other programs change files of their own, at any moments, also in the middle of the conversion of a picture: what the transcoder does is, but for these files, what
it can do when it has the disk for itself, and it can go on exactly if it can there. -/
theorem C88_beside {H : Host} {argv : List Text} {fs : FS} {P : Setup} {s0 : Prog} (h : launch H argv fs = .ok (P, s0)) (hc : Contained P.grabber) (hl : LocalTool P.grabber)
    {size : Nat} {dev : Device} :
    (∀ n s, Working H argv fs size dev n s → WorkingAmid H argv fs size dev n s) ∧
    ∀ n s, WorkingAmid H argv fs size dev n s → ∃ s', Working H argv fs size dev n s' ∧ SameButOthers P s s' ∧
      ((∃ t, Session.StepAmid P size dev (Mine P) s t) ↔ ∃ t, Session.Step P size dev s' t) := by
  constructor
  · rintro n s ⟨P', s0', h', hst⟩
    refine ⟨P', s0', h', ?_⟩
    induction n generalizing s with
    | zero => cases hst; exact .zero _
    | succ n ih =>
      cases hst with
      | succ h1 h2 => exact .succ (ih _ h1) (step_nobody _ h2)
  · rintro n s ⟨P', s0', h', hst⟩
    cases h.symm.trans h'
    obtain ⟨d, h1, h2⟩ := steps_alike hc hl (d := s0.disk) (s := Session.start s0) (fun _ _ => rfl) hst
    refine ⟨s.onDisk d, ⟨P, s0, h, h1⟩, same_of h2, ?_, ?_⟩
    · rintro ⟨t, ht⟩
      obtain ⟨d', h3, -⟩ := step_alike hc hl h2 ht
      exact ⟨_, h3⟩
    · rintro ⟨t, ht⟩
      obtain ⟨d', h3, -⟩ := step_alike hc hl (s := s.onDisk d) (d := s.prog.disk) (fun q hq => (h2 q hq).symm) (step_nobody (Mine P) ht)
      exact ⟨_, step_nobody (Mine P) h3⟩

/-- **C88.** In particular: at every moment the file and the buffer are a beginning of the stream, and when the file has been closed without an exception of `write`, it is the whole
stream, and the program ends as it should; all this after a bounded number of steps. -/
theorem C88_result {H : Host} {argv : List Text} {fs : FS} {P : Setup} {s0 : Prog} (h : launch H argv fs = .ok (P, s0)) (ha : ∀ c, H.addr c < 65536) (hc : Contained P.grabber)
    (hl : LocalTool P.grabber) (hn : ∀ i, ¬ OwnFile P.grabber i P.name) {size : Nat} (hz : 0 < size) (dev : Device) {n : Nat} {s : Session} (hs : WorkingAmid H argv fs size dev n s) :
    n ≤ 4 * H.images.length + s0.coder.audio.length + 2 * (Setup.plain P fs s0).1.length + 9 ∧
    ∃ d, s.prog.disk P.name = some d ∧ numbers d ++ numbers s.buf <+: (Setup.plain P fs s0).1 ∧
      (s.closed = true → s.error = none → numbers d = (Setup.plain P fs s0).1 ∧ s.ending = (Setup.plain P fs s0).2.status ∧ (Setup.plain P fs s0).2 ≠ .waiting) ∧
      ((¬∃ t, Session.StepAmid P size dev (Mine P) s t) →
        s.closed = true ∨ (s.error = none ∧ s.todo = [] ∧ numbers d ++ numbers s.buf = (Setup.plain P fs s0).1 ∧ (Setup.plain P fs s0).2 = .waiting)) := by
  obtain ⟨s', hw, ⟨d', rfl, hd'⟩, hcan⟩ := (C88_beside h hc hl).2 n s hs
  obtain ⟨h1, ⟨d, h2, h3, -, -, -, -, h4, h5⟩, -⟩ := (C84_buffered h ha (contained_blind hc hl hn) hn hl hz dev).2 n _ hw
  refine ⟨h1, d, (hd' _ (.inl rfl)).symm.trans h2, h3, h4, fun hno => h5 ?_⟩
  intro P' s0' h' ht
  cases h.symm.trans h'
  exact hno (hcan.2 ht)

/-- The disk plays no part in the start. -/
theorem launch_disk {H : Host} {argv : List Text} {fs : FS} {P : Setup} {s0 : Prog} (h : launch H argv fs = .ok (P, s0)) (fs' : FS) :
    launch H argv fs' = .ok (P, s0.onDisk (fs'.put P.name [])) := by
  unfold launch at h ⊢
  simp only [bind, Except.bind] at h ⊢
  cases hc : parseArgs H.reads argv with
  | error x => rw [hc] at h; cases h
  | ok c =>
    rw [hc] at h
    simp only at h ⊢
    cases hn : Stop.lift (H.normalize c) with
    | error x => rw [hn] at h; cases h
    | ok norm =>
      rw [hn] at h
      simp only at h ⊢
      cases hr : Stop.lift H.rate with
      | error x => rw [hr] at h; cases h
      | ok text =>
        rw [hr] at h
        simp only at h ⊢
        cases hf : Stop.lift (frameRate H.double text) with
        | error x => rw [hf] at h; cases h
        | ok rate =>
          rw [hf] at h
          simp only at h ⊢
          cases ht : Stop.lift (ticksPerFrame H.double c.bitrate rate) with
          | error x => rw [ht] at h; cases h
          | ok tpf =>
            rw [ht] at h
            simp only at h ⊢
            split at h
            · cases h
            · split at h
              · cases h
              · cases h; rfl

/-- What a transcoder changes. -/
theorem step_disk {P : Setup} {size : Nat} {dev : Device} (hl : LocalTool P.grabber) {s t : Session} (hs : Session.Step P size dev s t) {q : Text} (hq : ¬ Mine P q) :
    t.prog.disk q = s.prog.disk q := by
  have hname : q ≠ P.name := fun h => hq (.inl h)
  have raw : (s.rawWrite P.name dev).prog.disk q = s.prog.disk q := by
    unfold Session.rawWrite
    cases dev s.calls with
    | error e => rfl
    | ok k => exact put_other _ hname _
  cases hs with
  | @worker p hw =>
    unfold Prog.workerStep at hw
    split at hw
    · cases hx : P.grabber.workerStep s.prog.g with
      | none => rw [hx] at hw; cases hw
      | some g =>
        rw [hx] at hw
        cases hw
        show g.fs q = s.prog.g.fs q
        unfold Grabber.workerStep at hx
        split at hx
        · split at hx <;> cases hx <;> rfl
        · split at hx
          · rename_i hd
            cases hx
            exact decode_local hl hd q fun h => hq (.inr ⟨_, h⟩)
          · cases hx; rfl
        · split at hx
          · cases hx; rfl
          · cases hx
        · split at hx
          · cases hx; rfl
          · cases hx
        · cases hx
        · cases hx
    · cases hw
  | main hm =>
    unfold Session.mainStep at hm
    split at hm
    · cases hm
    · split at hm
      · split at hm
        · cases hm; rfl
        · split at hm
          · cases hm; rfl
          · cases hm; exact raw
      · split at hm
        · split at hm
          · cases hm; rfl
          · cases hm; exact raw
        · obtain ⟨y, hy, rfl⟩ := Option.map_eq_some_iff.1 hm
          show y.disk q = _
          rw [mainW_disk hy]

theorem steps_disk {P : Setup} {size : Nat} {dev : Device} (hl : LocalTool P.grabber) {n : Nat} {s t : Session} (hs : Session.Steps P size dev n s t) {q : Text} (hq : ¬ Mine P q) :
    t.prog.disk q = s.prog.disk q := by
  induction hs with
  | zero => rfl
  | succ _ h2 ih => exact (step_disk hl h2 hq).trans ih

/-- Each of two transcoders is one beside other programs. -/
theorem pair_split {P Q : Setup} {size : Nat} {dev dev' : Device} (hl : LocalTool P.grabber) (hl' : LocalTool Q.grabber) (hd : ∀ q, Mine P q → ¬ Mine Q q)
    {x y : Session × Session} (h : Pair.Steps P Q size dev dev' x y) (h0 : x.1.prog.disk = x.2.prog.disk) :
    y.1.prog.disk = y.2.prog.disk ∧ (∃ n, Session.StepsAmid P size dev (Mine P) n x.1 y.1) ∧ ∃ n, Session.StepsAmid Q size dev' (Mine Q) n x.2 y.2 := by
  induction h with
  | zero => exact ⟨h0, ⟨0, .zero _⟩, 0, .zero _⟩
  | succ _ h2 ih =>
    obtain ⟨i0, ⟨n, i1⟩, m, i2⟩ := ih
    cases h2 with
    | left hs =>
      refine ⟨rfl, ⟨n + 1, .succ i1 (step_nobody _ hs)⟩, m, .others i2 fun q hq => ?_⟩
      exact (step_disk hl hs fun h => hd q h hq).trans (congrFun i0 q)
    | right hs =>
      refine ⟨rfl, ⟨n, .others i1 fun q hq => ?_⟩, m + 1, .succ i2 (step_nobody _ hs)⟩
      exact (step_disk hl' hs (hd q hq)).trans (congrFun i0 q).symm

/-- **C88.** Two transcoders, the second started at any moment of the first, with no file in common (C45): in any interleaving of their four threads, each of them does, but for the
files of the other, what it can do when it has the disk for itself. -/
theorem C88_two {H H' : Host} {argv argv' : List Text} {fs : FS} {P Q : Setup} {s0 t0 : Prog} {size : Nat} {dev dev' : Device}
    (h : launch H argv fs = .ok (P, s0)) {n : Nat} {s : Session} (hs : Session.Steps P size dev n (Session.start s0) s)
    (h' : launch H' argv' s.prog.disk = .ok (Q, t0))
    (hc : Contained P.grabber) (hl : LocalTool P.grabber) (hc' : Contained Q.grabber) (hl' : LocalTool Q.grabber) (hd : ∀ q, Mine P q → ¬ Mine Q q)
    {s' t' : Session} (hp : Pair.Steps P Q size dev dev' (s.onDisk t0.disk, Session.start t0) (s', t')) :
    (∃ m x, Working H argv fs size dev m x ∧ SameButOthers P s' x) ∧ ∃ m y, Working H' argv' fs size dev' m y ∧ SameButOthers Q t' y := by
  obtain ⟨-, ⟨m, i1⟩, m', i2⟩ := pair_split hl hl' hd hp rfl
  have t0disk : t0.disk = s.prog.disk.put Q.name [] := by
    have := launch_disk h' s.prog.disk
    have e := congrArg (fun r => r.2.disk) (Except.ok.inj (h'.symm.trans this))
    exact e
  constructor
  · have start : AgreeOn (Mine P) (s.onDisk t0.disk).prog.disk s.prog.disk := by
      intro q hq
      show t0.disk q = _
      rw [t0disk, put_other _ (fun e => hd q hq (.inl e))]
    obtain ⟨d, h1, h2⟩ := steps_alike hc hl start i1
    refine ⟨n + m, s'.onDisk d, ⟨P, s0, h, ?_⟩, same_of h2⟩
    have trans : ∀ {m : Nat} {u : Session}, Session.Steps P size dev m s u → Session.Steps P size dev (n + m) (Session.start s0) u := by
      intro m
      induction m with
      | zero => intro u hu; cases hu; exact hs
      | succ m ih =>
        intro u hu
        cases hu with
        | succ a b => exact .succ (ih a) b
    exact trans h1
  · have h0 := launch_disk h' fs
    have base : ∀ q, Mine Q q → s.prog.disk q = (fs.put P.name []) q := by
      intro q hq
      have hq' : ¬ Mine P q := fun hp => hd q hp hq
      rw [steps_disk hl hs hq']
      have e := congrArg (fun r => r.2.disk) (Except.ok.inj (h.symm.trans (launch_disk h fs)))
      exact congrFun e q
    have start : AgreeOn (Mine Q) (Session.start t0).prog.disk (fs.put Q.name []) := by
      intro q hq
      show t0.disk q = _
      rw [t0disk]
      by_cases e : q = Q.name
      · subst e; rw [put_same, put_same]
      · rw [put_other _ e, put_other _ e, base q hq, put_other _ (fun e => hd q (.inl e) hq)]
    obtain ⟨d, h1, h2⟩ := steps_alike hc' hl' start i2
    exact ⟨m', t'.onDisk d, ⟨Q, _, h0, h1⟩, same_of h2⟩

theorem main_worker_dead {P : Setup} {size : Nat} {dev : Device} {e : PyErr} {s t : Session} (hd : s.prog.g.worker = .dead e) (hm : s.mainStep P size dev = some t) :
    t.prog.g.worker = .dead e := by
  have raw : (s.rawWrite P.name dev).prog.g.worker = .dead e := by
    unfold Session.rawWrite
    cases dev s.calls with
    | error e => exact hd
    | ok k => exact hd
  unfold Session.mainStep at hm
  split at hm
  · cases hm
  · split at hm
    · split at hm
      · cases hm; exact hd
      · split at hm
        · cases hm; exact hd
        · cases hm; exact raw
    · split at hm
      · split at hm
        · cases hm; exact hd
        · cases hm; exact raw
      · obtain ⟨y, hy, rfl⟩ := Option.map_eq_some_iff.1 hm
        exact (mainW_worker hy).trans hd

/-- **C88** (defect).  Two transcoders of the same input, mode and palette have the same files of pictures (C45).  If the other one, converting the same picture, removes the `.bmp`
file before this one does (`w 2`), the conversion thread of this one dies with a FileNotFoundError, although bmp2dhr has worked; no picture will come from it any more, and once
the main thread waits for one it waits forever, with the file not closed. -/
theorem C88_shared {P : Setup} {s : Prog} {idx : Nat} {image : List U8} {rest : List (List U8)} (hst : s.started = true) (hw : s.g.worker = .fetch idx (image :: rest))
    (hfs : if P.grabber.mode = .DHGR then s.disk (P.grabber.path idx (txt ".BIN")) = none else s.disk (P.grabber.path idx (txt "C.BIN")) = none)
    (htool : ∀ args fs, ∃ r, P.grabber.tool idx args fs = .ok r) {w : Nat → FS → FS} (hrem : ∀ fs, w 2 fs (P.grabber.path idx (txt ".bmp")) = none) :
    (∃ t, s.workerAmid P.grabber w = some t ∧ t.g.worker = .dead .fileNotFound) ∧
    ∀ (size : Nat) (dev : Device) (mine : Text → Prop) (u : Session) (e : PyErr), u.prog.g.worker = .dead e →
      (∀ n v, Session.StepsAmid P size dev mine n u v → v.prog.g.worker = .dead e) ∧
      (u.closed = false → u.error = none → u.todo = [] → u.prog.main = .asking → u.prog.g.queue = [] → u.prog.g.consumer = .get → ¬∃ v, Session.StepAmid P size dev mine u v) := by
  have conv : ∀ fs args, P.grabber.convertAmid w fs idx image args = .error .fileNotFound := by
    intro fs args
    unfold Grabber.convertAmid
    obtain ⟨r, hr⟩ := htool (txt "/usr/local/bin/bmp2dhr" :: P.grabber.path idx (txt ".bmp") :: args) (w 1 (fs.put (P.grabber.path idx (txt ".bmp")) image))
    simp only [bind, Except.bind, hr]
    unfold FS.remove
    rw [hrem]
  have dec : P.grabber.decodeAmid w s.g.fs idx image = .error .fileNotFound := by
    unfold Grabber.decodeAmid
    split
    · rename_i hm
      rw [if_pos hm] at hfs
      unfold Grabber.dhgrDecodeAmid
      have : s.g.fs.has (P.grabber.path idx (txt ".BIN")) = false := by unfold FS.has; rw [show s.g.fs (P.grabber.path idx (txt ".BIN")) = none from hfs]; rfl
      simp only [this, Bool.false_and, Bool.false_eq_true, if_false, bind, Except.bind, conv]
    · rename_i hm
      rw [if_neg hm] at hfs
      unfold Grabber.hgrDecodeAmid
      have : s.g.fs.has (P.grabber.path idx (txt "C.BIN")) = false := by unfold FS.has; rw [show s.g.fs (P.grabber.path idx (txt "C.BIN")) = none from hfs]; rfl
      simp only [this, Bool.false_eq_true, if_false, bind, Except.bind, conv]
  refine ⟨⟨{ s with g := { s.g with worker := .dead .fileNotFound } }, ?_, rfl⟩, ?_⟩
  · unfold Prog.workerAmid
    rw [if_pos hst]
    unfold Grabber.workerAmid
    rw [hw]
    simp only [dec]
  · intro size dev mine u e hu
    have nowork : ∀ (x : Prog) (w' : Nat → FS → FS), x.g.worker = .dead e → x.workerAmid P.grabber w' = none := by
      intro x w' hx
      unfold Prog.workerAmid
      split
      · unfold Grabber.workerAmid Grabber.workerStep
        rw [hx]
      · rfl
    constructor
    · intro n v hv
      induction hv with
      | zero => exact hu
      | succ _ h2 ih =>
        have ih := ih hu
        cases h2 with
        | worker w' _ hs => rw [nowork _ w' ih] at hs; cases hs
        | main hm => exact main_worker_dead ih hm
      | others _ _ ih => exact ih hu
    · rintro h1 h2 h3 h4 h5 h6 ⟨v, hv⟩
      cases hv with
      | worker w' _ hs => rw [nowork _ w' hu] at hs; cases hs
      | main hm =>
        have hov : u.over = false := by
          cases ho : u.over with
          | false => rfl
          | true =>
            rcases ((over_iff u).1 ho).2 with h | h | ⟨e, h⟩
            · exact absurd h2 h
            · rw [h4] at h; cases h
            · rw [h4] at h; cases h
        unfold Session.mainStep at hm
        rw [h1, h3] at hm
        simp only [Bool.false_eq_true, if_false, hov] at hm
        obtain ⟨y, hy, -⟩ := Option.map_eq_some_iff.1 hm
        unfold Prog.mainStepW at hy
        rw [h4] at hy
        simp only [GState.consumerStep, h5, h6] at hy
        cases hy

theorem path_last (G : Grabber) (i : Nat) (sfx : Text) (c : Nat) : (G.path i (sfx ++ [c])).getLast? = some c := by
  unfold Grabber.path
  rw [← List.append_assoc]
  exact List.getLast?_concat

theorem own_last {G : Grabber} {i : Nat} {q : Text} (h : OwnFile G i q) : q.getLast? ≠ some 109 := by
  rcases h with rfl | rfl | rfl | rfl
  · rw [show txt "C.BIN" = txt "C.BI" ++ [78] from by decide, path_last]; decide
  · rw [show txt ".BIN" = txt ".BI" ++ [78] from by decide, path_last]; decide
  · rw [show txt ".AUX" = txt ".AU" ++ [88] from by decide, path_last]; decide
  · rw [show txt ".bmp" = txt ".bm" ++ [112] from by decide, path_last]; decide

/-- **C88.** Two transcoders of inputs with different names before the extension, and without `--output`, have no file in common. -/
theorem C88_disjoint {P Q : Setup} {b b' e e' : Text} (he : 46 ∉ e) (he' : 46 ∉ e') (hP : P.grabber.filename = b ++ txt "." ++ e) (hQ : Q.grabber.filename = b' ++ txt "." ++ e')
    (nP : P.name = outFilename none P.grabber.filename) (nQ : Q.name = outFilename none Q.grabber.filename) (hne : b ≠ b') : ∀ q, Mine P q → ¬ Mine Q q := by
  have last : ∀ (x : Text) (y : Text), 46 ∉ y → (outFilename none (x ++ txt "." ++ y)).getLast? = some 109 := by
    intro x y hy
    rw [(C45_names x y hy .HGR .NTSC).1, show txt ".a2m" = txt ".a2" ++ [109] from by decide, ← List.append_assoc]
    exact List.getLast?_concat
  rintro q (rfl | ⟨i, hi⟩) (h | ⟨j, hj⟩)
  · rw [nP, nQ, hP, hQ] at h
    exact hne (((C45_apart b b' e e' he he' .HGR .HGR .NTSC .NTSC).1).1 h)
  · apply own_last hj
    rw [nP, hP]; exact last b e he
  · subst h
    apply own_last hi
    rw [nQ, hQ]; exact last b' e' he'
  · exact hne ((C45_apart b b' e e' he he' _ _ _ _).2.2 P.grabber Q.grabber hP rfl rfl hQ rfl rfl i j q hi hj).1

/-- A bmp2dhr that makes `demoScreen`s in this directory. -/
def screenTool (dir : Text) : Nat → List Text → FS → Except PyErr FS := fun i args fs =>
  let screen := demoScreen ((fs (args.getD 1 [])).getD [])
  .ok ((fs.put (dir ++ 47 :: dec08 i ++ txt ".BIN") screen).put (dir ++ 47 :: dec08 i ++ txt ".AUX") screen)

attribute [local irreducible] demoScreen in
theorem screen_contained {G : Grabber} (h : G.tool = screenTool G.dir) : Contained G ∧ LocalTool G := by
  have hp : ∀ i sfx, G.dir ++ 47 :: dec08 i ++ sfx = G.path i sfx := fun _ _ => rfl
  have hcmd : ∀ i, (commandLine (G.path i (txt ".bmp")) G.mode G.palette).getD 1 [] = G.path i (txt ".bmp") := by
    intro i
    cases G.mode <;> cases G.palette <;> rfl
  constructor
  · intro i fs fs' hag
    rw [h]
    unfold screenTool
    simp only [hcmd, hp]
    refine ⟨fun e he => (nomatch he), fun r hr => ⟨_, rfl, ?_⟩⟩
    cases hr
    intro q hq
    rw [hag (G.path i (txt ".bmp")) (.inr (.inr (.inr rfl)))]
    unfold FS.put
    split
    · rfl
    · split
      · rfl
      · exact hag q hq
  · intro i args fs fs' ht q hq
    rw [h] at ht
    unfold screenTool at ht
    simp only [hp] at ht
    cases ht
    unfold FS.put
    rw [if_neg (fun h => hq (.inr (.inr (.inl h)))), if_neg (fun h => hq (.inr (.inl h)))]

/-- The computer of another user, converting `w.mp4`. -/
def twinHost : Host := { demoHost with tool := screenTool (txt "w/DHGR/NTSC") }

def twinWords : List Text := [txt "--audio_norm", txt "1.5", txt "w.mp4"]

theorem twin_starts : Starts twinHost twinWords { demoSettings with input := txt "w.mp4" } (.fin (3 / 2)) 490 := by
  obtain ⟨-, h2, h2', h3, h4⟩ := demo_starts
  exact ⟨(C77_command_line _ _ _).1 rfl, h2, h2', h3, rfl⟩

/-- C88_beside, C88_result, C88_two, C88_disjoint: the demo, while a second transcoder has started and made a step; the first runs to its end. -/
theorem demo_two : ∃ P Q s0 t0 s' t', launch demoHost demoWords (fun _ => none) = .ok (P, s0) ∧ launch twinHost twinWords s0.disk = .ok (Q, t0) ∧
    Contained P.grabber ∧ LocalTool P.grabber ∧ (∀ i, ¬ OwnFile P.grabber i P.name) ∧ Contained Q.grabber ∧ LocalTool Q.grabber ∧ (∀ q, Mine P q → ¬ Mine Q q) ∧
    Pair.Steps P Q 4096 (fun _ => .ok 2) (fun _ => .ok 2) ((Session.start s0).onDisk t0.disk, Session.start t0) (s', t') ∧
    s'.closed = true ∧ s'.ending = .finished ∧ ∃ d, Session.Step Q 4096 (fun _ => .ok 2) ((Session.start t0).onDisk d) t' := by
  obtain ⟨⟨n, s, ⟨P, s0, h, hst⟩, hcl, hend⟩, -⟩ := demo_buffered
  obtain ⟨P', s0', v, h', -, hP, -⟩ := starts_launch (fs := fun _ => none) demo_starts
  cases h.symm.trans h'
  obtain ⟨Q, t0, v', h2, -, hQ, -⟩ := starts_launch (fs := s0.disk) twin_starts
  have cP : Contained P.grabber ∧ LocalTool P.grabber := screen_contained (by
    have : P.grabber.dir = txt "v/DHGR/NTSC" := by rw [hP]; exact (by decide : outputDir (txt "v.mp4") .DHGR .NTSC = txt "v/DHGR/NTSC")
    rw [this, hP]; rfl)
  have cQ : Contained Q.grabber ∧ LocalTool Q.grabber := screen_contained (by
    have : Q.grabber.dir = txt "w/DHGR/NTSC" := by rw [hQ]; exact (by decide : outputDir (txt "w.mp4") .DHGR .NTSC = txt "w/DHGR/NTSC")
    rw [this, hQ]; rfl)
  have hd : ∀ q, Mine P q → ¬ Mine Q q := C88_disjoint (b := txt "v") (b' := txt "w") (e := txt "mp4") (e' := txt "mp4") (by decide) (by decide)
    (by rw [hP]; rfl) (by rw [hQ]; rfl) (by rw [hP]; rfl) (by rw [hQ]; rfl) (by decide)
  have hname : ∀ i, ¬ OwnFile P.grabber i P.name := by
    intro i hi
    apply own_last hi
    rw [hP]; decide
  have left : ∀ {n : Nat} {a b t : Session}, Session.Steps P 4096 (fun _ => .ok 2) n a b → a.prog.disk = t.prog.disk →
      Pair.Steps P Q 4096 (fun _ => .ok 2) (fun _ => .ok 2) (a, t) (b, t.onDisk b.prog.disk) := by
    intro n
    induction n with
    | zero =>
      intro a b t hab hdisk
      cases hab
      rw [hdisk]
      exact .zero _
    | succ n ih =>
      intro a b t hab hdisk
      cases hab with
      | succ h1 h2 => exact .succ (ih h1 hdisk) (.left h2)
  have t0disk : t0.disk = s0.disk.put Q.name [] := congrArg (fun r => r.2.disk) (Except.ok.inj (h2.symm.trans (launch_disk h2 s0.disk)))
  have begin' : AgreeOn (Mine P) (Session.start s0).prog.disk t0.disk := by
    intro q hq
    rw [t0disk]
    exact (put_other _ (fun e => hd q hq (.inl e)) _).symm
  obtain ⟨d, r1, -⟩ := steps_alike cP.1 cP.2 begin' (((C88_beside h cP.1 cP.2).1 n s ⟨P, s0, h, hst⟩).elim fun P' ⟨s0', e, hh⟩ => by cases h.symm.trans e; exact hh)
  have run := left (t := Session.start t0) r1 rfl
  obtain ⟨t', ht'⟩ : ∃ t', Session.Step Q 4096 (fun _ => .ok 2) ((Session.start t0).onDisk (s.onDisk d).prog.disk) t' := by
    obtain ⟨c, norm, text, rate, tpf, v, -, -, -, -, -, -, -, -, hs0⟩ := launch_parts h2
    have hm : t0.main = .running := by rw [hs0]; rfl
    have hst0 : t0.started = false := by rw [hs0]; rfl
    have hw : ∀ d, ∃ y, (t0.onDisk d).mainStepW Q.movie Q.next = some y := by
      intro d
      unfold Prog.mainStepW
      rw [show (t0.onDisk d).main = .running from hm]
      simp only
      split
      · rw [show (t0.onDisk d).started = false from hst0]
        exact ⟨_, rfl⟩
      · exact ⟨_, rfl⟩
    obtain ⟨y, hy⟩ := hw (s.onDisk d).prog.disk
    refine ⟨_, .main (t := ?_) ?_⟩
    rotate_left
    · unfold Session.mainStep
      have ho : ((Session.start t0).onDisk (s.onDisk d).prog.disk).over = false := by
        unfold Session.over
        show (true && (false || match t0.main with | .finished | .raised _ => true | _ => false)) = false
        rw [hm]; rfl
      rw [ho]
      simp only [Session.onDisk, Session.start, Bool.false_eq_true, if_false]
      exact congrArg (Option.map _) hy
  exact ⟨P, Q, s0, t0, _, t', h, h2, cP.1, cP.2, hname, cQ.1, cQ.2, hd, .succ run (.right ht'), hcl, hend, _, ht'⟩

/-- C88_shared: the first picture of the demo, while somebody removes its `.bmp`. -/
example : ∃ (P : Setup) (s0 : Prog), launch demoHost demoWords (fun _ => none) = .ok (P, s0) ∧
    ∃ s : Prog, s.started = true ∧ s.g.worker = .fetch 0 ([1#8] :: [[2#8], [3#8]]) ∧ P.grabber.mode = .DHGR ∧ s.disk (P.grabber.path 0 (txt ".BIN")) = none ∧
      (∀ args fs, ∃ r, P.grabber.tool 0 args fs = .ok r) := by
  obtain ⟨P, s0, v, h, -, hP, -⟩ := starts_launch (fs := fun _ => none) demo_starts
  obtain ⟨c, norm, text, rate, tpf, v', h1, -, -, -, -, -, -, hP', hs0⟩ := launch_parts h
  refine ⟨P, s0, h, { s0 with started := true }, rfl, ?_, by rw [hP]; rfl, ?_, ?_⟩
  · have : P.grabber.images = [[1#8], [2#8], [3#8]] := by rw [hP]; rfl
    rw [hs0]
    show Worker.fetch 0 P.grabber.images = _
    rw [this]
  · show s0.disk _ = none
    have e := congrArg (fun r => r.2.disk) (Except.ok.inj (h.symm.trans (launch_disk h (fun _ => none))))
    rw [show s0.disk = _ from e]
    show (FS.put (fun _ => none) P.name []) _ = none
    rw [put_other]
    rw [hP]; decide
  · intro args fs
    rw [hP]
    exact ⟨_, rfl⟩

end IIVision
