import Verif.Proofs.Crowd

/-! Any number of transcoders at once, file operation by file operation. -/

namespace IIVision
open Spec

theorem Ties.move {t : Task} {f d e : FS} (h : Ties t f d) : Ties (t.onDisk e) f d := ⟨h.same, h.middle, h.dead⟩

theorem Ties.amounts {t : Task} {f d : FS} (h : Ties t f d) : Amounts t f (t.session.onDisk d) := ⟨d, rfl, fun q h1 h2 => h.same q ⟨h1, h2⟩⟩

/-- The disk plays no part in whether, and how, a transcoder starts. -/
theorem launch_any {H : Host} {argv : List Text} {fs fs' : FS} {P : Setup} {s : Prog} (h : launch H argv fs = .ok (P, s)) :
    s.disk = fs.put P.name [] ∧ ∃ s', launch H argv fs' = .ok (P, s') ∧ s'.disk = fs'.put P.name [] ∧ s'.onDisk s.disk = s :=
  have e := congrArg Prod.snd (Except.ok.inj (h.symm.trans (launch_disk h fs)))
  ⟨congrArg Prog.disk e, _, launch_disk h fs', rfl, rfl⟩

theorem crowd_ties {J : Nat → Job} {fs : FS} (ha : Apart J fs) (hd : Decent J fs) {c : Crowd} (h : Bustle J fs c) :
    (∀ i t, c.task i = some t → ∃ s0 m d, launch (J i).host (J i).argv fs = .ok (t.setup, s0) ∧
      Session.Steps t.setup (J i).size (J i).dev m (Session.start s0) (t.session.onDisk d) ∧ Ties t c.disk d) ∧
    ∀ i P s0, launch (J i).host (J i).argv fs = .ok (P, s0) → c.task i = none → AgreeOn (Mine P) c.disk fs := by
  unfold Bustle at h
  generalize hc0 : (⟨fs, fun _ => none⟩ : Crowd) = c0 at h
  induction h with
  | zero =>
    subst hc0
    exact ⟨fun i t ht => (nomatch ht), fun i P s0 _ _ q _ => rfl⟩
  | @succ c' c'' _ hs ih =>
    obtain ⟨i1, i2⟩ := ih
    cases hs with
    | @start i P s hi hl =>
      obtain ⟨l1, s', l2, l3, l4⟩ := launch_any (fs' := fs) hl
      constructor
      · intro j t ht
        by_cases hj : j = i
        · subst hj
          have ht' : some (⟨P, Session.start s, .outside⟩ : Task) = some t := by simpa using ht
          cases ht'
          refine ⟨s', 0, s'.disk, l2, ?_, ⟨?_, fun hm => absurd rfl hm.1, fun k hk => (nomatch hk)⟩⟩
          · have : (Session.start s).onDisk s'.disk = Session.start s' := by rw [← l4]; rfl
            show Session.Steps P _ _ 0 _ ((Session.start s).onDisk s'.disk)
            rw [this]
            exact .zero _
          · intro q hq
            show s.disk q = s'.disk q
            rw [l1, l3]
            exact (AgreeOn.put (M := Mine P) (i2 j P s' l2 hi) P.name []) q hq.1
        · have ht' : c'.task j = some t := by simpa [hj] using ht
          obtain ⟨s0, m, d, k1, k2, k3⟩ := i1 j t ht'
          obtain ⟨hc, hlt⟩ := hd j _ _ k1
          refine ⟨s0, m, d, k1, k2, k3.others hc hlt fun q hq => ?_⟩
          show s.disk q = _
          rw [l1]
          exact put_other _ (fun e => ha.1 j i _ _ _ _ hj k1 l2 q hq (.inl e)) _
      · intro j Q s0 hQ hj
        have hji : j ≠ i := by
          rintro rfl
          simp at hj
        have hj' : c'.task j = none := by simpa [hji] using hj
        intro q hq
        show s.disk q = _
        rw [l1, put_other _ (fun e => ha.1 j i _ _ _ _ hji hQ l2 q hq (.inl e))]
        exact i2 j Q s0 hQ hj' q hq
    | @work i t u hi hst =>
      obtain ⟨s0, m, d, k1, k2, k3⟩ := i1 i t hi
      obtain ⟨hc, hlt⟩ := hd i _ _ k1
      obtain ⟨e1, e2, d', e3, e4⟩ := task_step (t := t.onDisk c'.disk) hc hlt (ha.2 i _ _ k1) hst k3.move
      constructor
      · intro j v hv
        by_cases hj : j = i
        · subst hj
          have hv' : some u = some v := by simpa using hv
          cases hv'
          rcases e4 with e4 | e4
          · refine ⟨s0, m, d', by rw [e1]; exact k1, ?_, e3⟩
            rw [e4, e1]
            exact k2
          · refine ⟨s0, m + 1, d', by rw [e1]; exact k1, ?_, e3⟩
            rw [e1]
            exact .succ k2 e4
        · have hv' : c'.task j = some v := by simpa [hj] using hv
          obtain ⟨s0', m', d'', l1, l2, l3⟩ := i1 j v hv'
          obtain ⟨hc', hlt'⟩ := hd j _ _ l1
          exact ⟨s0', m', d'', l1, l2, l3.others hc' hlt' fun q hq => e2 q fun hq' => ha.1 j i _ _ _ _ hj l1 k1 q hq hq'⟩
      · intro j Q s0' hQ hj
        have hji : j ≠ i := by
          rintro rfl
          simp at hj
        have hj' : c'.task j = none := by simpa [hji] using hj
        intro q hq
        exact (e2 q fun hq' => ha.1 j i _ _ _ _ hji hQ k1 q hq hq').trans (i2 j Q s0' hQ hj' q hq)
    | @others d hd' =>
      constructor
      · intro j v hv
        obtain ⟨s0', m', d'', l1, l2, l3⟩ := i1 j v hv
        obtain ⟨hc', hlt'⟩ := hd j _ _ l1
        exact ⟨s0', m', d'', l1, l2, l3.others hc' hlt' fun q hq => hd' q ⟨j, _, _, l1, hq⟩⟩
      · intro j Q s0' hQ hj q hq
        exact (hd' q ⟨j, _, _, hQ, hq⟩).trans (i2 j Q s0' hQ hj q hq)

theorem crowd_lift {own : Grabber → Nat → Text → Prop} {taken : Text → Prop} {J : Nat → Job} {c : Crowd} {i : Nat} {t u : Task} (hi : c.task i = some t)
    (h : Relation.TransGen (Task.Step own (J i).size (J i).dev) (t.onDisk c.disk) u) :
    ∃ c', Crowd.Steps own taken J c c' ∧ c'.task i = some u ∧ c'.disk = u.disk ∧ ∀ j, j ≠ i → c'.task j = c.task j := by
  induction h with
  | single h => exact ⟨_, .succ (.zero _) (.work hi h), by simp, rfl, fun j hj => by simp [hj]⟩
  | tail _ h ih =>
    obtain ⟨c', h1, h2, h3, h4⟩ := ih
    refine ⟨_, .succ h1 (.work h2 ?_), by simp, rfl, fun j hj => by simp [hj, h4 j hj]⟩
    rw [h3]
    exact h

/-- **C93.** Any number of transcoders with no file in common, each started at any moment, in any interleaving of their single file operations, and any other programs beside them: whatever state
one of them is in amounts to one it can be in when it has the disk for itself; it can go on if and only if it can there; and wherever it can get there, it can get among the others. -/
theorem C93_alone {J : Nat → Job} {fs : FS} (ha : Apart J fs) (hd : Decent J fs) {c : Crowd} (h : Bustle J fs c) {i : Nat} {t : Task} (ht : c.task i = some t) :
    ∃ m x, Working (J i).host (J i).argv fs (J i).size (J i).dev m x ∧ Amounts t c.disk x ∧
      ((∃ u, Task.Step OwnFile (J i).size (J i).dev (t.onDisk c.disk) u) ↔ ∃ y, Session.Step t.setup (J i).size (J i).dev x y) ∧
      ∀ n y, Session.Steps t.setup (J i).size (J i).dev n x y → ∃ c' u, Bustle J fs c' ∧ c'.task i = some u ∧ Amounts u c'.disk y ∧ ∀ j, j ≠ i → c'.task j = c.task j := by
  obtain ⟨s0, m, d, k1, k2, k3⟩ := (crowd_ties ha hd h).1 i t ht
  obtain ⟨hc, hl⟩ := hd i _ _ k1
  have hn := ha.2 i _ _ k1
  refine ⟨m, _, ⟨_, s0, k1, k2⟩, k3.amounts, ⟨?_, ?_⟩, ?_⟩
  · rintro ⟨u, hu⟩
    cases hu with
    | @going idx im rest f p hst hw ho => exact ⟨_, .worker (s := t.session.onDisk d) (worker_decode hst hw)⟩
    | @done idx im rest f item hst hw ho => exact ⟨_, .worker (s := t.session.onDisk d) (worker_decode hst hw)⟩
    | @failed idx im rest f e hst hw ho => exact ⟨_, .worker (s := t.session.onDisk d) (worker_decode hst hw)⟩
    | @worker p hne hw => exact ⟨_, .worker (s := t.session.onDisk d) (ties_worker k3.move hne hw).2.1⟩
    | @main s hm =>
      obtain ⟨d', -, h2⟩ := ties_main (t := t.onDisk c.disk) hc hl hn k3.move hm
      exact ⟨_, .main h2⟩
  · rintro ⟨y, hy⟩
    obtain ⟨u, d', h1, -⟩ := task_reach (t := t.onDisk c.disk) hc hl hn k3.move hy
    obtain ⟨v, hv, -⟩ := Relation.TransGen.head'_iff.1 h1
    exact ⟨v, hv⟩
  · intro n y hy
    have key : ∃ c' u d', Bustle J fs c' ∧ c'.task i = some u ∧ u.setup = t.setup ∧ Ties u c'.disk d' ∧ u.session.onDisk d' = y ∧ ∀ j, j ≠ i → c'.task j = c.task j := by
      generalize hx : t.session.onDisk d = x at hy
      induction hy with
      | zero => subst hx; exact ⟨c, t, d, h, ht, rfl, k3, rfl, fun _ _ => rfl⟩
      | succ _ h2 ih =>
        obtain ⟨c', u, d', a1, a2, a3, a4, a5, a6⟩ := ih hx
        subst a5
        obtain ⟨v, d'', b1, b2, b3, b4⟩ := task_reach (t := u.onDisk c'.disk) (size := (J i).size) (dev := (J i).dev) (by show Contained u.setup.grabber; rw [a3]; exact hc)
          (by show LocalTool u.setup.grabber; rw [a3]; exact hl) (by show ∀ k, ¬ OwnFile u.setup.grabber k u.setup.name; rw [a3]; exact hn) a4.move (by
            show Session.Step u.setup _ _ _ _; rw [a3]; exact h2)
        obtain ⟨c'', e1, e2, e3, e4⟩ := crowd_lift (taken := fun q => ∃ i P s, launch (J i).host (J i).argv fs = .ok (P, s) ∧ Mine P q) (J := J) a2 b1
        have trans : ∀ {a b e : Crowd}, Crowd.Steps OwnFile (fun q => ∃ i P s, launch (J i).host (J i).argv fs = .ok (P, s) ∧ Mine P q) J a b →
            Crowd.Steps OwnFile (fun q => ∃ i P s, launch (J i).host (J i).argv fs = .ok (P, s) ∧ Mine P q) J b e →
            Crowd.Steps OwnFile (fun q => ∃ i P s, launch (J i).host (J i).argv fs = .ok (P, s) ∧ Mine P q) J a e := by
          intro a b e x y
          induction y with
          | zero => exact x
          | succ _ z ih => exact .succ ih z
        exact ⟨c'', v, d'', trans a1 e1, e2, b2.trans a3, by rw [e3]; exact b3, b4, fun j hj => (e4 j hj).trans (a6 j hj)⟩
    obtain ⟨c', u, d', a1, a2, -, a4, a5, a6⟩ := key
    exact ⟨c', u, a1, a2, a5 ▸ a4.amounts, a6⟩

/-- **C93.** In particular: at every moment the output file of each of them and its buffer are a beginning of its stream; once the file has been closed without an exception of `write`, it is the
whole stream, and the program ends as it should; and if neither thread can go on, it is closed, or waits for ever as it would alone (C43). -/
theorem C93_result {J : Nat → Job} {fs : FS} (ha : Apart J fs) (hd : Decent J fs) {c : Crowd} (h : Bustle J fs c) {i : Nat} {t : Task} (ht : c.task i = some t)
    (haddr : ∀ k, (J i).host.addr k < 65536) (hz : 0 < (J i).size) :
    ∃ s0, launch (J i).host (J i).argv fs = .ok (t.setup, s0) ∧
    ∃ d, c.disk t.setup.name = some d ∧ numbers d ++ numbers t.session.buf <+: (Setup.plain t.setup fs s0).1 ∧
      (t.session.closed = true → t.session.error = none →
        numbers d = (Setup.plain t.setup fs s0).1 ∧ t.session.ending = (Setup.plain t.setup fs s0).2.status ∧ (Setup.plain t.setup fs s0).2 ≠ .waiting) ∧
      ((¬∃ u, Task.Step OwnFile (J i).size (J i).dev (t.onDisk c.disk) u) →
        t.session.closed = true ∨ (t.session.error = none ∧ t.session.todo = [] ∧ numbers d ++ numbers t.session.buf = (Setup.plain t.setup fs s0).1 ∧
          (Setup.plain t.setup fs s0).2 = .waiting)) := by
  obtain ⟨m, x, ⟨P, s0, k1, k2⟩, ⟨d', rfl, k3⟩, k4, -⟩ := C93_alone ha hd h ht
  obtain ⟨s0', -, -, k1', -, -⟩ := (crowd_ties ha hd h).1 i t ht
  cases k1.symm.trans k1'
  obtain ⟨hc, hl⟩ := hd i _ _ k1
  have hn := ha.2 i _ _ k1
  refine ⟨s0, k1, ?_⟩
  obtain ⟨-, ⟨d, h2, h3, -, -, -, -, h4, h5⟩, -⟩ := (C84_buffered k1 haddr (contained_blind hc hl hn) hn hl hz (J i).dev).2 m _ ⟨_, s0, k1, k2⟩
  refine ⟨d, ?_, h3, h4, fun hno => h5 ?_⟩
  · rw [k3 _ (.inl rfl) ?_]
    · exact h2
    · intro hx
      unfold Halfway at hx
      split at hx
      · exact hx
      · exact hn _ hx
      · obtain ⟨k, -, -, ho⟩ := hx; exact hn _ ho
  · intro P' s0'' h' hy
    cases k1.symm.trans h'
    exact hno (k4.2 hy)

/-- **C93.** Transcoders of inputs whose names differ before the extension, and without `--output`, are not in the way of each other. -/
theorem C93_names {J : Nat → Job}
    (hout : ∀ i l c, Spells (J i).argv l → Meaning (J i).host.reads l c → c.output = none ∧ ∃ b e, 46 ∉ e ∧ c.input = b ++ txt "." ++ e)
    (hne : ∀ i j l l' c c' b b' e e', i ≠ j → Spells (J i).argv l → Meaning (J i).host.reads l c → Spells (J j).argv l' → Meaning (J j).host.reads l' c' →
      46 ∉ e → 46 ∉ e' → c.input = b ++ txt "." ++ e → c'.input = b' ++ txt "." ++ e' → b ≠ b') (fs : FS) : Apart J fs := by
  have parts : ∀ i P s, launch (J i).host (J i).argv fs = .ok (P, s) → ∃ l c, Spells (J i).argv l ∧ Meaning (J i).host.reads l c ∧
      P.grabber.filename = c.input ∧ P.name = outFilename c.output c.input := by
    intro i P s h
    obtain ⟨c, norm, text, rate, tpf, v, h1, -, -, -, -, -, -, rfl, -⟩ := launch_parts h
    obtain ⟨l, h2, h3⟩ := (C77_command_line _ _ _).1 h1
    exact ⟨l, c, h2, h3, rfl, rfl⟩
  constructor
  · intro i j P Q s t hij hP hQ
    obtain ⟨l, c, p1, p2, p3, p4⟩ := parts i P s hP
    obtain ⟨l', c', q1, q2, q3, q4⟩ := parts j Q t hQ
    obtain ⟨o, b, e, he, hb⟩ := hout i l c p1 p2
    obtain ⟨o', b', e', he', hb'⟩ := hout j l' c' q1 q2
    exact C88_disjoint he he' (p3.trans hb) (q3.trans hb') (by rw [p4, o, p3]) (by rw [q4, o', q3]) (hne i j l l' c c' b b' e e' hij p1 p2 q1 q2 he he' hb hb')
  · intro i P s hP k hk
    obtain ⟨l, c, p1, p2, p3, p4⟩ := parts i P s hP
    obtain ⟨o, b, e, he, hb⟩ := hout i l c p1 p2
    apply own_last hk
    rw [p4, o, hb, (C45_names b e he .HGR .NTSC).1, show txt ".a2m" = txt ".a2" ++ [109] from by decide, ← List.append_assoc]
    exact List.getLast?_concat

/-- Two transcoders, and words that start nothing. -/
def demoJobs : Nat → Job
  | 0 => ⟨demoHost, demoWords, 4096, fun _ => .ok 2⟩
  | 1 => ⟨twinHost, twinWords, 4096, fun _ => .ok 2⟩
  | _ => ⟨demoHost, [], 4096, fun _ => .ok 2⟩

theorem demo_jobs (i : Nat) (l : List CmdPart) (c : Command) (h1 : Spells (demoJobs i).argv l) (h2 : Meaning (demoJobs i).host.reads l c) :
    (i = 0 ∧ c = demoSettings) ∨ (i = 1 ∧ c = { demoSettings with input := txt "w.mp4" }) := by
  have h := (C77_command_line _ _ _).2 ⟨l, h1, h2⟩
  match i, h with
  | 0, h =>
    have h' : parseArgs demoHost.reads demoWords = .ok demoSettings := (C77_command_line _ _ _).2 demo_starts.words
    exact .inl ⟨rfl, Except.ok.inj (h.symm.trans h')⟩
  | 1, h =>
    have h' : parseArgs twinHost.reads twinWords = .ok { demoSettings with input := txt "w.mp4" } := (C77_command_line _ _ _).2 twin_starts.words
    exact .inr ⟨rfl, Except.ok.inj (h.symm.trans h')⟩
  | _ + 2, h => cases h

theorem demo_apart (fs : FS) : Apart demoJobs fs := by
  refine C93_names (fun i l c h1 h2 => ?_) (fun i j l l' c c' b b' e e' hij h1 h2 h3 h4 he he' hb hb' hbb => ?_) fs
  · rcases demo_jobs i l c h1 h2 with ⟨-, rfl⟩ | ⟨-, rfl⟩
    · exact ⟨rfl, txt "v", txt "mp4", by decide, by decide⟩
    · exact ⟨rfl, txt "w", txt "mp4", by decide, by decide⟩
  · subst hbb
    have key : ∀ b e e' : Text, txt "v.mp4" = b ++ txt "." ++ e → txt "w.mp4" = b ++ txt "." ++ e' → False := by
      intro b e e' x y
      cases b with
      | nil => exact absurd (show (some 118 : Option Nat) = some 46 from congrArg List.head? x) (by decide)
      | cons z b =>
        have hx := congrArg List.head? x
        have hy := congrArg List.head? y
        exact absurd (show (some 118 : Option Nat) = some 119 from hx.trans hy.symm) (by decide)
    rcases demo_jobs i l c h1 h2 with ⟨rfl, rfl⟩ | ⟨rfl, rfl⟩ <;> rcases demo_jobs j l' c' h3 h4 with ⟨rfl, rfl⟩ | ⟨rfl, rfl⟩
    · exact hij rfl
    · exact key _ _ _ hb hb'
    · exact key _ _ _ hb' hb
    · exact hij rfl

theorem demo_decent (fs : FS) : Decent demoJobs fs := by
  intro i P s h
  obtain ⟨c, norm, text, rate, tpf, v, h1, -, -, -, -, -, -, rfl, -⟩ := launch_parts h
  obtain ⟨l, h2, h3⟩ := (C77_command_line _ _ _).1 h1
  refine screen_contained ?_
  rcases demo_jobs i l c h2 h3 with ⟨rfl, rfl⟩ | ⟨rfl, rfl⟩
  · show screenTool _ = screenTool (outputDir _ _ _)
    rw [show outputDir demoSettings.input demoSettings.mode demoSettings.palette = txt "v/DHGR/NTSC" from by decide]
  · show screenTool _ = screenTool (outputDir _ _ _)
    rw [show outputDir (txt "w.mp4") demoSettings.mode demoSettings.palette = txt "w/DHGR/NTSC" from by decide]

/-- C93_alone, C93_result, C93_names: both have been started, and the first has run to its end. -/
theorem demo_crowd : ∃ c t u, Bustle demoJobs (fun _ => none) c ∧ c.task 0 = some t ∧ c.task 1 = some u ∧ t.session.closed = true ∧ t.session.ending = .finished := by
  obtain ⟨⟨n, x, ⟨P, s0, h, hst⟩, hcl, hend⟩, -⟩ := demo_buffered
  obtain ⟨Q, t0, -, h', -⟩ := starts_launch (fs := s0.disk) twin_starts
  have r1 : Bustle demoJobs (fun _ => none) _ := .succ (.succ (.zero _) (.start (i := 0) rfl h)) (.start (i := 1) rfl h')
  obtain ⟨m, y, ⟨P', s0', k1, k2⟩, ⟨d, rfl, hd⟩, -, k3⟩ := C93_alone (demo_apart _) (demo_decent _) r1 (i := 0) (t := ⟨P, Session.start s0, .outside⟩) rfl
  have agree : AgreeOn (Mine P) (Session.start s0).prog.disk d := by
    intro q hq
    rw [← hd q hq (fun h => h)]
    show s0.disk q = t0.disk q
    rw [(launch_any (fs' := fun _ => none) h').1]
    refine (put_other _ (fun e => ?_) _).symm
    obtain ⟨-, t1, l2, -⟩ := launch_any (fs' := fun _ => none) h'
    exact (demo_apart _).1 0 1 P Q s0 t1 (by decide) h l2 q hq (.inl e)
  have amid : Session.StepsAmid P 4096 (fun _ => .ok 2) (Mine P) n (Session.start s0) x := by
    clear hcl hend k3 hd k2 r1 h h' agree
    generalize Session.start s0 = z at hst ⊢
    induction hst with
    | zero => exact .zero _
    | succ _ h2 ih => exact .succ ih (step_nobody _ h2)
  obtain ⟨d', b1, b2⟩ := steps_alike (demo_decent _ 0 P s0 h).1 (demo_decent _ 0 P s0 h).2 agree amid
  obtain ⟨c', u, a1, a2, ⟨d'', e, -⟩, a4⟩ := k3 n _ b1
  refine ⟨c', u, _, a1, a2, (a4 1 (by decide)).trans rfl, ?_, ?_⟩
  · rw [show u.session.closed = (u.session.onDisk d'').closed from rfl, ← e]; exact hcl
  · rw [show u.session.ending = (u.session.onDisk d'').ending from rfl, ← e]; exact hend

/-- A conversion in the middle: the bitmap is half written, then written, and bmp2dhr has made one of the result files. -/
example (G : Grabber) (hm : G.mode = .DHGR) (im part screen : List U8) : ∃ a b c d e f g,
    G.Op (OwnFile G 3) 3 im (fun _ => none) .outside a (.going .save) ∧ G.Op (OwnFile G 3) 3 im a .save b (.going .save) ∧ b (G.path 3 (txt ".bmp")) = some part ∧
    G.Op (OwnFile G 3) 3 im b .save c (.going .call) ∧ c (G.path 3 (txt ".bmp")) = some im ∧ G.Op (OwnFile G 3) 3 im c .call d (.going (.inside e)) ∧
    G.Op (OwnFile G 3) 3 im d (.inside e) f (.going (.inside g)) ∧ f (G.path 3 (txt ".AUX")) = some screen := by
  have h := Grabber.Op.dhgrCheck (G := G) (own := OwnFile G 3) (idx := 3) (image := im) (fs := fun _ => none) hm
  exact ⟨_, _, _, _, _, FS.put _ (G.path 3 (txt ".AUX")) screen, _, h, .saving part, put_same _ _ _, .saved, put_same _ _ _, .call,
    .busy fun q hq => put_other _ (fun e => hq (.inr (.inr (.inl e)))) _, put_same _ _ _⟩

end IIVision
