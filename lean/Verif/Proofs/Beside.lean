import Verif.Spec.Beside
import Verif.Proofs.Buffered

/-! A transcoder beside other programs: the simulation by one that has the disk for itself. -/

namespace IIVision
open Spec

/-- The same exception, or results in the relation. -/
def Like {α β : Type} (R : α → β → Prop) : Except PyErr α → Except PyErr β → Prop
  | .ok a, .ok b => R a b
  | .error e, .error e' => e = e'
  | _, _ => False

theorem Like.bind {α β γ δ : Type} {R : α → β → Prop} {S : γ → δ → Prop} {x : Except PyErr α} {y : Except PyErr β} {f : α → Except PyErr γ} {g : β → Except PyErr δ}
    (h : Like R x y) (hf : ∀ a b, R a b → Like S (f a) (g b)) : Like S (x >>= f) (y >>= g) := by
  cases x with
  | ok a =>
    cases y with
    | ok b => exact hf a b h
    | error e => exact h.elim
  | error e =>
    cases y with
    | ok b => exact h.elim
    | error e' => exact h

/-- The files in `M` are the same. -/
def AgreeOn (M : Text → Prop) (a b : FS) : Prop := ∀ q, M q → a q = b q

theorem AgreeOn.put {M : Text → Prop} {a b : FS} (h : AgreeOn M a b) (name : Text) (d : List U8) : AgreeOn M (a.put name d) (b.put name d) := by
  intro q hq
  unfold FS.put
  split
  · rfl
  · exact h q hq

theorem AgreeOn.read {M : Text → Prop} {a b : FS} (h : AgreeOn M a b) {q : Text} (hq : M q) : Like (· = ·) (a.read q) (b.read q) := by
  unfold FS.read
  rw [h q hq]
  cases b q <;> exact rfl

theorem AgreeOn.has {M : Text → Prop} {a b : FS} (h : AgreeOn M a b) {q : Text} (hq : M q) : a.has q = b.has q := by
  unfold FS.has; rw [h q hq]

theorem AgreeOn.remove {M : Text → Prop} {a b : FS} (h : AgreeOn M a b) {q : Text} (hq : M q) : Like (AgreeOn M) (a.remove q) (b.remove q) := by
  unfold FS.remove
  rw [h q hq]
  cases b q with
  | none => exact rfl
  | some d =>
    intro p hp
    show (if p = q then none else a p) = (if p = q then none else b p)
    split
    · rfl
    · exact h p hp

theorem AgreeOn.other {M : Text → Prop} {w : Nat → FS → FS} (hw : ∀ k fs q, M q → w k fs q = fs q) (k : Nat) {a b : FS} (h : AgreeOn M a b) : AgreeOn M (w k a) b :=
  fun q hq => (hw k a q hq).trans (h q hq)

theorem tool_alike {G : Grabber} (hc : Contained G) (hl : LocalTool G) {M : Text → Prop} {i : Nat} (hM : ∀ q, OwnFile G i q → M q) {a b : FS} (h : AgreeOn M a b) {args : List Text}
    (ha : args = commandLine (G.path i (txt ".bmp")) G.mode G.palette) : Like (AgreeOn M) (G.tool i args a) (G.tool i args b) := by
  obtain ⟨h1, h2⟩ := hc i a b fun q hq => h q (hM q hq)
  rw [← ha] at h1 h2
  cases hx : G.tool i args a with
  | error e => rw [h1 e hx]; exact rfl
  | ok r =>
    obtain ⟨r', e', hr⟩ := h2 r hx
    rw [e']
    intro q hq
    by_cases ho : OwnFile G i q
    · exact hr q ho
    · rw [hl i args a r hx q ho, hl i args b r' e' q ho]; exact h q hq

theorem convert_alike {G : Grabber} (hc : Contained G) (hl : LocalTool G) {M : Text → Prop} {w : Nat → FS → FS} (hw : ∀ k fs q, M q → w k fs q = fs q)
    {i : Nat} (hM : ∀ q, OwnFile G i q → M q) {a b : FS} (h : AgreeOn M a b) (im : List U8) {args : List Text}
    (ha : txt "/usr/local/bin/bmp2dhr" :: G.path i (txt ".bmp") :: args = commandLine (G.path i (txt ".bmp")) G.mode G.palette) :
    Like (AgreeOn M) (G.convertAmid w a i im args) (G.convert b i im args) := by
  unfold Grabber.convertAmid Grabber.convert
  refine Like.bind (tool_alike hc hl hM ((h.put _ _).other hw 1) ha) fun x y hxy => ?_
  have h3 := (hxy.other hw 2).remove (hM _ (.inr (.inr (.inr rfl))) : M (G.path i (txt ".bmp")))
  show Like (AgreeOn M) (((w 2 x).remove _) >>= fun fs => pure (w 3 fs)) _
  rw [show y.remove (G.path i (txt ".bmp")) = (y.remove (G.path i (txt ".bmp")) >>= fun fs => pure fs) by cases y.remove (G.path i (txt ".bmp")) <;> rfl]
  exact Like.bind h3 fun u v huv => huv.other hw 3

theorem decode_alike {G : Grabber} (hc : Contained G) (hl : LocalTool G) {M : Text → Prop} {w : Nat → FS → FS} (hw : ∀ k fs q, M q → w k fs q = fs q)
    {i : Nat} (hM : ∀ q, OwnFile G i q → M q) {a b : FS} (h : AgreeOn M a b) (im : List U8) :
    Like (fun x y => AgreeOn M x.1 y.1 ∧ x.2 = y.2) (G.decodeAmid w a i im) (G.decode b i im) := by
  have m1 : M (G.path i (txt "C.BIN")) := hM _ (.inl rfl)
  have m2 : M (G.path i (txt ".BIN")) := hM _ (.inr (.inl rfl))
  have m3 : M (G.path i (txt ".AUX")) := hM _ (.inr (.inr (.inl rfl)))
  unfold Grabber.decodeAmid Grabber.decode
  split
  · rename_i hm
    unfold Grabber.dhgrDecodeAmid Grabber.dhgrDecode
    simp only
    rw [h.has m2, (h.other hw 5).has m3]
    have fin : ∀ x y, AgreeOn M x y → Like (fun x y : FS × Item => AgreeOn M x.1 y.1 ∧ x.2 = y.2)
        (x.read (G.path i (txt ".BIN")) >>= fun main => (w 4 x).read (G.path i (txt ".AUX")) >>= fun aux => pure (w 6 (w 4 x), ⟨main, some aux⟩))
        (y.read (G.path i (txt ".BIN")) >>= fun main => y.read (G.path i (txt ".AUX")) >>= fun aux => pure (y, ⟨main, some aux⟩)) := by
      intro x y hxy
      refine Like.bind (hxy.read m2) fun u v huv => ?_
      refine Like.bind ((hxy.other hw 4).read m3) fun u' v' huv' => ?_
      subst huv huv'
      exact ⟨(hxy.other hw 4).other hw 6, rfl⟩
    split
    · exact fin _ _ ((h.other hw 5).other hw 0)
    · exact Like.bind (convert_alike hc hl hw hM ((h.other hw 5).other hw 0) _ (command_dhgr hm _)) fin
  · rename_i hm
    have hm : G.mode = .HGR := by cases h : G.mode <;> simp_all
    unfold Grabber.hgrDecodeAmid Grabber.hgrDecode
    simp only
    rw [h.has m1]
    have fin : ∀ x y, AgreeOn M x y → Like (fun x y : FS × Item => AgreeOn M x.1 y.1 ∧ x.2 = y.2)
        (x.read (G.path i (txt "C.BIN")) >>= fun main => pure (w 4 x, ⟨main, none⟩))
        (y.read (G.path i (txt "C.BIN")) >>= fun main => pure (y, ⟨main, none⟩)) := by
      intro x y hxy
      refine Like.bind (hxy.read m1) fun u v huv => ?_
      subst huv
      exact ⟨hxy.other hw 4, rfl⟩
    split
    · exact fin _ _ (h.other hw 0)
    · exact Like.bind (convert_alike hc hl hw hM (h.other hw 0) _ (command_hgr hm _)) fin

/-- Without other programs, it is the same as before. -/
theorem decode_nobody (G : Grabber) (fs : FS) (i : Nat) (im : List U8) : G.decodeAmid (fun _ x => x) fs i im = G.decode fs i im := by
  unfold Grabber.decodeAmid Grabber.decode Grabber.dhgrDecodeAmid Grabber.dhgrDecode Grabber.hgrDecodeAmid Grabber.hgrDecode
  have hcv : ∀ args, G.convertAmid (fun _ x => x) fs i im args = G.convert fs i im args := by
    intro args
    unfold Grabber.convertAmid Grabber.convert
    simp only [bind, Except.bind, pure, Except.pure]
    cases G.tool i (txt "/usr/local/bin/bmp2dhr" :: G.path i (txt ".bmp") :: args) (fs.put (G.path i (txt ".bmp")) im) with
    | error e => rfl
    | ok r => cases hx : r.remove (G.path i (txt ".bmp")) <;> simp [hx]
  simp only [hcv]

theorem worker_nobody (G : Grabber) (s : Prog) : s.workerAmid G (fun _ x => x) = s.workerStep G := by
  unfold Prog.workerAmid Prog.workerStep
  have : G.workerAmid (fun _ x => x) s.g = G.workerStep s.g := by
    unfold Grabber.workerAmid
    split
    · rename_i idx im rest hw
      rw [decode_nobody]
      unfold Grabber.workerStep
      rw [hw]
      simp only
      cases G.decode s.g.fs idx im <;> rfl
    · rfl
  rw [this]
  split
  · cases G.workerStep s.g <;> rfl
  · rfl

theorem gworker_alike {G : Grabber} (hc : Contained G) (hl : LocalTool G) {M : Text → Prop} {w : Nat → FS → FS} (hw : ∀ k fs q, M q → w k fs q = fs q)
    (hM : ∀ i q, OwnFile G i q → M q) {g t : GState} {d : FS} (h : AgreeOn M g.fs d) (hs : G.workerAmid w g = some t) :
    ∃ d', G.workerStep { g with fs := d } = some { t with fs := d' } ∧ AgreeOn M t.fs d' := by
  obtain ⟨f, wk, q, c, o⟩ := g
  have base : ∀ {t : GState}, G.workerStep ⟨f, wk, q, c, o⟩ = some t → (∀ idx im rest, wk ≠ .fetch idx (im :: rest)) →
      ∃ d', G.workerStep ⟨d, wk, q, c, o⟩ = some { t with fs := d' } ∧ AgreeOn M t.fs d' := by
    intro t ht hne
    unfold Grabber.workerStep at ht ⊢
    cases wk with
    | fetch idx rest =>
      cases rest with
      | nil =>
        simp only at ht ⊢
        cases hr : G.readError with
        | none => rw [hr] at ht; cases ht; exact ⟨d, rfl, h⟩
        | some e => rw [hr] at ht; cases ht; exact ⟨d, rfl, h⟩
      | cons im rest => exact absurd rfl (hne idx im rest)
    | put item idx rest =>
      simp only at ht ⊢
      split at ht
      · rename_i hh
        cases ht; rw [if_pos hh]; exact ⟨d, rfl, h⟩
      · cases ht
    | putEnd =>
      simp only at ht ⊢
      split at ht
      · rename_i hh
        cases ht; rw [if_pos hh]; exact ⟨d, rfl, h⟩
      · cases ht
    | done => cases ht
    | dead e => cases ht
  cases wk with
  | fetch idx rest =>
    cases rest with
    | nil => exact base hs (fun _ _ _ h => (nomatch h))
    | cons im rest =>
      have hd := decode_alike hc hl hw (hM idx) h im
      unfold Grabber.workerAmid at hs
      unfold Grabber.workerStep
      simp only at hs hd ⊢
      cases hx : G.decodeAmid w f idx im with
      | error e =>
        rw [hx] at hs hd
        cases hy : G.decode d idx im with
        | ok r => rw [hy] at hd; exact hd.elim
        | error e' =>
          rw [hy] at hd
          cases (show e = e' from hd)
          cases hs
          exact ⟨d, rfl, h⟩
      | ok r =>
        rw [hx] at hs hd
        cases hy : G.decode d idx im with
        | error e' => rw [hy] at hd; exact hd.elim
        | ok r' =>
          rw [hy] at hd
          obtain ⟨h1, h2⟩ := (hd : AgreeOn M r.1 r'.1 ∧ r.2 = r'.2)
          obtain ⟨f1, i1⟩ := r
          obtain ⟨f2, i2⟩ := r'
          cases hs
          cases (h2 : i1 = i2)
          exact ⟨f2, rfl, h1⟩
  | put item idx rest => exact base hs (fun _ _ _ h => (nomatch h))
  | putEnd => exact base hs (fun _ _ _ h => (nomatch h))
  | done => exact base hs (fun _ _ _ h => (nomatch h))
  | dead e => exact base hs (fun _ _ _ h => (nomatch h))

theorem raw_alike {P : Setup} {M : Text → Prop} (hM : M P.name) (dev : Device) {s : Session} {d : FS} (h : AgreeOn M s.prog.disk d) :
    ∃ d', (s.onDisk d).rawWrite P.name dev = (s.rawWrite P.name dev).onDisk d' ∧ AgreeOn M (s.rawWrite P.name dev).prog.disk d' := by
  unfold Session.rawWrite
  rw [show (s.onDisk d).calls = s.calls from rfl]
  cases dev s.calls with
  | error e => exact ⟨d, rfl, h⟩
  | ok k =>
    refine ⟨d.put P.name ((d P.name).getD [] ++ s.buf.take (k + 1)), rfl, ?_⟩
    show AgreeOn M (s.prog.disk.put P.name _) _
    rw [h P.name hM]
    exact h.put _ _

theorem main_alike {P : Setup} {M : Text → Prop} (hM : M P.name) {size : Nat} {dev : Device} {s t : Session} {d : FS} (h : AgreeOn M s.prog.disk d) (hs : s.mainStep P size dev = some t) :
    ∃ d', (s.onDisk d).mainStep P size dev = some (t.onDisk d') ∧ AgreeOn M t.prog.disk d' := by
  unfold Session.mainStep at hs ⊢
  show ∃ d', (if s.closed = true then _ else _) = _ ∧ _
  split at hs
  · cases hs
  · rename_i hc
    rw [if_neg hc]
    rw [show (s.onDisk d).todo = s.todo from rfl]
    cases htd : s.todo with
    | cons b rest =>
      rw [htd] at hs
      simp only at hs ⊢
      split at hs
      · rename_i hb
        cases hs
        rw [if_pos hb]
        exact ⟨d, rfl, h⟩
      · rename_i hb
        rw [if_neg hb]
        show ∃ d', (if (s.buf.length < size && !(s.flushing && !s.buf.isEmpty)) = true then _ else _) = _ ∧ _
        split at hs
        · rename_i hr
          cases hs
          rw [if_pos hr]
          exact ⟨d, rfl, h⟩
        · rename_i hr
          cases hs
          rw [if_neg hr]
          obtain ⟨d', h1, h2⟩ := raw_alike hM dev h
          exact ⟨d', congrArg some h1, h2⟩
    | nil =>
      rw [htd] at hs
      simp only at hs ⊢
      show ∃ d', (if s.over = true then _ else _) = _ ∧ _
      split at hs
      · rename_i ho
        rw [if_pos ho]
        show ∃ d', (if s.buf.isEmpty = true then _ else _) = _ ∧ _
        split at hs
        · rename_i hb
          cases hs
          rw [if_pos hb]
          exact ⟨d, by rw [← htd]; rfl, h⟩
        · rename_i hb
          cases hs
          rw [if_neg hb]
          obtain ⟨d', h1, h2⟩ := raw_alike hM dev h
          exact ⟨d', congrArg some h1, h2⟩
      · rename_i ho
        rw [if_neg ho]
        obtain ⟨y, hy, rfl⟩ := Option.map_eq_some_iff.1 hs
        refine ⟨d, ?_, ?_⟩
        · show ((s.prog.onDisk d).mainStepW P.movie P.next).map _ = _
          rw [mainW_onDisk, hy]; rfl
        · show AgreeOn M y.disk d
          rw [mainW_disk hy]; exact h

/-- A step beside other programs is a step of the program that has the disk for itself. -/
theorem step_alike {P : Setup} {size : Nat} {dev : Device} (hc : Contained P.grabber) (hl : LocalTool P.grabber) {s t : Session} {d : FS}
    (h : AgreeOn (Mine P) s.prog.disk d) (hs : Session.StepAmid P size dev (Mine P) s t) :
    ∃ d', Session.Step P size dev (s.onDisk d) (t.onDisk d') ∧ AgreeOn (Mine P) t.prog.disk d' := by
  cases hs with
  | @worker p w hw hs =>
    unfold Prog.workerAmid at hs
    by_cases hst : s.prog.started = true
    · rw [if_pos hst] at hs
      cases hx : P.grabber.workerAmid w s.prog.g with
      | none => rw [hx] at hs; cases hs
      | some g =>
        rw [hx] at hs
        cases hs
        obtain ⟨d', h1, h2⟩ := gworker_alike hc hl hw (fun i q hq => .inr ⟨i, hq⟩) (d := d) h hx
        refine ⟨d', ?_, h2⟩
        refine Session.Step.worker (s := s.onDisk d) ?_
        show (s.prog.onDisk d).workerStep P.grabber = some _
        unfold Prog.workerStep
        show (if s.prog.started = true then _ else _) = _
        rw [if_pos hst]
        rw [show (s.prog.onDisk d).g = { s.prog.g with fs := d } from rfl, h1]; rfl
    · rw [if_neg hst] at hs; cases hs
  | main hm =>
    obtain ⟨d', h1, h2⟩ := main_alike (.inl rfl) h hm
    exact ⟨d', .main h1, h2⟩

/-- A step of a program that has the disk for itself is one beside other programs that do nothing. -/
theorem step_nobody {P : Setup} {size : Nat} {dev : Device} (mine : Text → Prop) {s t : Session} (hs : Session.Step P size dev s t) : Session.StepAmid P size dev mine s t := by
  cases hs with
  | worker hw => exact .worker (fun _ x => x) (fun _ _ _ _ => rfl) (by rw [worker_nobody]; exact hw)
  | main hm => exact .main hm

theorem steps_alike {P : Setup} {size : Nat} {dev : Device} (hc : Contained P.grabber) (hl : LocalTool P.grabber) {n : Nat} {s t : Session} {d : FS}
    (h : AgreeOn (Mine P) s.prog.disk d) (hs : Session.StepsAmid P size dev (Mine P) n s t) :
    ∃ d', Session.Steps P size dev n (s.onDisk d) (t.onDisk d') ∧ AgreeOn (Mine P) t.prog.disk d' := by
  induction hs with
  | zero => exact ⟨d, .zero _, h⟩
  | succ _ h2 ih =>
    obtain ⟨d1, i1, i2⟩ := ih h
    obtain ⟨d2, j1, j2⟩ := step_alike hc hl i2 h2
    exact ⟨d2, .succ i1 j1, j2⟩
  | @others n s t d0 _ h2 ih =>
    obtain ⟨d1, i1, i2⟩ := ih h
    exact ⟨d1, i1, fun q hq => (h2 q hq).trans (i2 q hq)⟩

/-- A converter that depends on, and touches, only the files of the picture does not know the output file. -/
theorem contained_blind {G : Grabber} (hc : Contained G) (hl : LocalTool G) {name : Text} (hn : ∀ i, ¬ OwnFile G i name) : Blind G name := by
  intro i fs d
  obtain ⟨h1, h2⟩ := hc i fs (fs.put name d) fun q hq => (put_other fs (show q ≠ name from fun h => hn i (h ▸ hq)) d).symm
  generalize commandLine (G.path i (txt ".bmp")) G.mode G.palette = args at h1 h2 ⊢
  cases hx : G.tool i args fs with
  | error e => rw [h1 e hx]; rfl
  | ok r =>
    obtain ⟨r', e', hr⟩ := h2 r hx
    rw [e']
    show Except.ok r' = Except.ok (r.put name d)
    congr 1
    funext q
    by_cases ho : OwnFile G i q
    · rw [← hr q ho, put_other r (show q ≠ name from fun h => hn i (h ▸ ho)) d]
    · rw [hl i args _ r' e' q ho]
      by_cases hq : q = name
      · subst hq; rw [put_same, put_same]
      · rw [put_other _ hq, put_other _ hq, hl i args fs r hx q ho]

end IIVision
