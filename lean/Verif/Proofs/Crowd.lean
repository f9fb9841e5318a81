import Verif.Spec.Crowd
import Verif.Props.Beside
import Mathlib.Logic.Relation

/-! Many transcoders at once: what is left of the conversion of a picture, and the simulation of each of them by one that has the disk for itself. -/

namespace IIVision
open Spec

/-- Reading the results. -/
def finish (G : Grabber) (idx : Nat) (fs : FS) : Except PyErr (FS × Item) :=
  if G.mode = .DHGR then
    fs.read (G.path idx (txt ".BIN")) >>= fun main => fs.read (G.path idx (txt ".AUX")) >>= fun aux => pure (fs, ⟨main, some aux⟩)
  else fs.read (G.path idx (txt "C.BIN")) >>= fun main => pure (fs, ⟨main, none⟩)

def afterTool (G : Grabber) (idx : Nat) (fs : FS) : Except PyErr (FS × Item) := fs.remove (G.path idx (txt ".bmp")) >>= finish G idx

def toolRest (G : Grabber) (idx : Nat) (fs : FS) : Except PyErr (FS × Item) := G.tool idx (G.command idx) fs >>= afterTool G idx

/-- What is left of the conversion, if nobody comes in between. -/
def remaining (G : Grabber) (idx : Nat) (im : List U8) : Spot → FS → Except PyErr (FS × Item)
  | .outside, fs => G.decode fs idx im
  | .aux, fs => if fs.has (G.path idx (txt ".AUX")) then finish G idx fs else toolRest G idx (fs.put (G.path idx (txt ".bmp")) im)
  | .save, fs => toolRest G idx (fs.put (G.path idx (txt ".bmp")) im)
  | .call, fs => toolRest G idx fs
  | .inside found, _ => toolRest G idx found
  | .unlink, fs => afterTool G idx fs
  | .readMain, fs => finish G idx fs
  | .readAux main, fs => fs.read (G.path idx (txt ".AUX")) >>= fun aux => pure (fs, ⟨main, some aux⟩)
  | .failed _, _ => .error .valueError

theorem command_eq (G : Grabber) (idx : Nat) : G.command idx = commandLine (G.path idx (txt ".bmp")) G.mode G.palette := by
  unfold Grabber.command
  split
  · rename_i h; exact command_dhgr h _
  · rename_i h
    exact command_hgr (by cases h' : G.mode <;> simp_all) _

theorem convert_rest (G : Grabber) (fs : FS) (idx : Nat) (im : List U8) {args : List Text} (h : G.command idx = txt "/usr/local/bin/bmp2dhr" :: G.path idx (txt ".bmp") :: args) :
    G.convert fs idx im args >>= finish G idx = toolRest G idx (fs.put (G.path idx (txt ".bmp")) im) := by
  unfold Grabber.convert toolRest afterTool
  rw [h]
  simp only [bind, Except.bind]
  cases G.tool idx (txt "/usr/local/bin/bmp2dhr" :: G.path idx (txt ".bmp") :: args) (fs.put (G.path idx (txt ".bmp")) im) <;> rfl

theorem decode_dhgr {G : Grabber} (hm : G.mode = .DHGR) (fs : FS) (idx : Nat) (im : List U8) :
    G.decode fs idx im = if fs.has (G.path idx (txt ".BIN")) then remaining G idx im .aux fs else remaining G idx im .save fs := by
  have hcv := convert_rest G fs idx im (args := [txt "dhgr", paletteArg G.palette, txt "A", txt "D9"]) (by unfold Grabber.command; rw [if_pos hm])
  unfold Grabber.decode remaining
  rw [if_pos hm]
  unfold Grabber.dhgrDecode
  simp only
  rw [← hcv]
  unfold finish
  simp only [if_pos hm]
  cases fs.has (G.path idx (txt ".BIN")) <;> cases fs.has (G.path idx (txt ".AUX")) <;> rfl

theorem decode_hgr {G : Grabber} (hm : G.mode ≠ .DHGR) (fs : FS) (idx : Nat) (im : List U8) :
    G.decode fs idx im = if fs.has (G.path idx (txt "C.BIN")) then remaining G idx im .readMain fs else remaining G idx im .save fs := by
  have hcv := convert_rest G fs idx im (args := [txt "hgr", paletteArg G.palette, txt "D9"]) (by unfold Grabber.command; rw [if_neg hm])
  unfold Grabber.decode remaining
  rw [if_neg hm]
  unfold Grabber.hgrDecode
  simp only
  rw [← hcv]
  unfold finish
  simp only [if_neg hm]
  cases fs.has (G.path idx (txt "C.BIN")) <;> rfl

/-- The same result, as far as the files of picture `i` are concerned. -/
abbrev AlikeFor (G : Grabber) (i : Nat) : Except PyErr (FS × Item) → Except PyErr (FS × Item) → Prop := Like fun x y => AgreeOn (OwnFile G i) x.1 y.1 ∧ x.2 = y.2

theorem AlikeFor.refl {G : Grabber} {i : Nat} (x : Except PyErr (FS × Item)) : AlikeFor G i x x := by
  cases x with
  | ok a => exact ⟨fun _ _ => rfl, rfl⟩
  | error e => exact rfl

theorem AlikeFor.trans {G : Grabber} {i : Nat} {x y z : Except PyErr (FS × Item)} (h : AlikeFor G i x y) (h' : AlikeFor G i y z) : AlikeFor G i x z := by
  cases x <;> cases y <;> cases z <;> first | exact h.elim | exact h'.elim | skip
  · exact Eq.trans h h'
  · exact ⟨fun q hq => (h.1 q hq).trans (h'.1 q hq), h.2.trans h'.2⟩

theorem finish_alike {G : Grabber} {i : Nat} {a b : FS} (h : AgreeOn (OwnFile G i) a b) : AlikeFor G i (finish G i a) (finish G i b) := by
  unfold finish
  split
  · refine Like.bind (h.read (.inr (.inl rfl))) fun u v huv => ?_
    refine Like.bind (h.read (.inr (.inr (.inl rfl)))) fun u' v' huv' => ?_
    subst huv huv'
    exact ⟨h, rfl⟩
  · refine Like.bind (h.read (.inl rfl)) fun u v huv => ?_
    subst huv
    exact ⟨h, rfl⟩

theorem afterTool_alike {G : Grabber} {i : Nat} {a b : FS} (h : AgreeOn (OwnFile G i) a b) : AlikeFor G i (afterTool G i a) (afterTool G i b) :=
  Like.bind (h.remove (.inr (.inr (.inr rfl)))) fun _ _ h' => finish_alike h'

theorem toolRest_alike {G : Grabber} (hc : Contained G) (hl : LocalTool G) {i : Nat} {a b : FS} (h : AgreeOn (OwnFile G i) a b) : AlikeFor G i (toolRest G i a) (toolRest G i b) :=
  Like.bind (tool_alike hc hl (M := OwnFile G i) (fun _ h => h) h (command_eq G i)) fun _ _ h' => afterTool_alike h'

/-- Nothing but the files of the picture matters. -/
theorem remaining_alike {G : Grabber} (hc : Contained G) (hl : LocalTool G) {i : Nat} (im : List U8) (p : Spot) {a b : FS} (h : AgreeOn (OwnFile G i) a b) :
    AlikeFor G i (remaining G i im p a) (remaining G i im p b) := by
  have hs : AlikeFor G i (remaining G i im .save a) (remaining G i im .save b) := toolRest_alike hc hl (h.put _ _)
  have hax : AlikeFor G i (remaining G i im .aux a) (remaining G i im .aux b) := by
    show AlikeFor G i (if _ then _ else _) (if _ then _ else _)
    rw [h.has (.inr (.inr (.inl rfl)))]
    split
    · exact finish_alike h
    · exact hs
  cases p with
  | outside =>
    show AlikeFor G i (G.decode a i im) (G.decode b i im)
    by_cases hm : G.mode = .DHGR
    · rw [decode_dhgr hm, decode_dhgr hm, h.has (.inr (.inl rfl))]
      split
      · exact hax
      · exact hs
    · rw [decode_hgr hm, decode_hgr hm, h.has (.inl rfl)]
      split
      · exact finish_alike h
      · exact hs
  | aux => exact hax
  | save => exact hs
  | call => exact toolRest_alike hc hl h
  | inside found => exact .refl _
  | unlink => exact afterTool_alike h
  | readMain => exact finish_alike h
  | readAux main =>
    refine Like.bind (h.read (.inr (.inr (.inl rfl)))) fun u v huv => ?_
    subst huv
    exact ⟨h, rfl⟩
  | failed k => exact rfl

/-- An operation does its part of the work. -/
theorem op_going {G : Grabber} {i : Nat} {im : List U8} {a b : FS} {p p' : Spot}
    (h : G.Op (OwnFile G i) i im a p b (.going p')) : AlikeFor G i (remaining G i im p' b) (remaining G i im p a) := by
  cases h with
  | hgrCheck hm =>
    show AlikeFor G i _ (G.decode a i im)
    rw [decode_hgr hm]
    split <;> exact .refl _
  | dhgrCheck hm =>
    show AlikeFor G i _ (G.decode a i im)
    rw [decode_dhgr hm]
    split <;> exact .refl _
  | auxCheck =>
    show AlikeFor G i _ (if _ then _ else _)
    split <;> exact .refl _
  | saving part =>
    show AlikeFor G i (toolRest G i ((a.put _ part).put _ im)) _
    rw [put_put]
    exact .refl _
  | saved => exact .refl _
  | call => exact .refl _
  | busy _ => exact .refl _
  | back h1 h2 h3 =>
    show AlikeFor G i (afterTool G i b) (toolRest G i _)
    unfold toolRest
    rw [h1]
    exact afterTool_alike h2
  | unlink h1 =>
    show AlikeFor G i (finish G i b) (afterTool G i a)
    unfold afterTool
    rw [h1]
    exact .refl _
  | readMain hm h1 =>
    show AlikeFor G i _ (finish G i a)
    unfold finish
    rw [if_pos hm, h1]
    exact .refl _

theorem op_done {G : Grabber} {i : Nat} {im : List U8} {a b : FS} {p : Spot} {item : Item}
    (h : G.Op (OwnFile G i) i im a p b (.done item)) : remaining G i im p a = .ok (b, item) := by
  cases h with
  | readHgr hm h1 =>
    show finish G i a = _
    unfold finish
    rw [if_neg hm, h1]; rfl
  | readAux h1 =>
    show (a.read _ >>= _) = _
    rw [h1]; rfl

theorem op_failed {G : Grabber} {i : Nat} {im : List U8} {a b : FS} {p : Spot} {e : PyErr}
    (h : G.Op (OwnFile G i) i im a p b (.failed e)) : remaining G i im p a = .error e := by
  cases h with
  | notBack h1 => show toolRest G i _ = _; unfold toolRest; rw [h1]; rfl
  | notUnlinked h1 => show afterTool G i _ = _; unfold afterTool; rw [h1]; rfl
  | noHgr hm h1 => show finish G i a = _; unfold finish; rw [if_neg hm, h1]; rfl
  | noMain hm h1 => show finish G i a = _; unfold finish; rw [if_pos hm, h1]; rfl
  | noAux h1 => show (a.read _ >>= _) = _; rw [h1]; rfl

/-- It touches no other files. -/
theorem op_local {G : Grabber} {i : Nat} {im : List U8} {a b : FS} {p : Spot} {o : After} (h : G.Op (OwnFile G i) i im a p b o) {q : Text} (hq : ¬ OwnFile G i q) : b q = a q := by
  have hb : q ≠ G.path i (txt ".bmp") := fun h => hq (.inr (.inr (.inr h)))
  cases h with
  | saving part => exact put_other _ hb _
  | saved => exact put_other _ hb _
  | busy h1 => exact h1 q hq
  | back _ _ h3 => exact h3 q hq
  | unlink h1 =>
    unfold FS.remove at h1
    cases hx : a (G.path i (txt ".bmp")) with
    | none => rw [hx] at h1; cases h1
    | some d =>
      rw [hx] at h1
      cases h1
      exact if_neg hb
  | _ => rfl

/-- The conversion thread is in the middle of a picture. -/
def Converting (t : Task) : Prop := t.phase ≠ .outside ∧ ∀ k, t.phase ≠ .failed k

/-- How a transcoder among others, on the disk `f`, is related to one that has the disk `d` for itself. -/
structure Ties (t : Task) (f d : FS) : Prop where
  same : AgreeOn (fun q => Mine t.setup q ∧ ¬ Halfway t q) f d
  middle : Converting t → t.session.prog.started = true ∧ ∃ idx im rest, t.session.prog.g.worker = .fetch idx (im :: rest) ∧
    AlikeFor t.setup.grabber idx (remaining t.setup.grabber idx im t.phase f) (t.setup.grabber.decode d idx im)
  dead : ∀ k, t.phase = .failed k → ∃ e, t.session.prog.g.worker = .dead e

theorem halfway_converting {t : Task} (h : Converting t) {idx : Nat} {images : List (List U8)} (hw : t.session.prog.g.worker = .fetch idx images) (q : Text) :
    Halfway t q ↔ OwnFile t.setup.grabber idx q := by
  unfold Halfway
  obtain ⟨h1, h2⟩ := h
  split
  · rename_i hp; exact absurd hp h1
  · rename_i k hp; exact absurd hp (h2 k)
  · rw [hw]
    constructor
    · rintro ⟨i, im, e, ho⟩; cases e; exact ho
    · exact fun ho => ⟨idx, images, rfl, ho⟩

/-- Others may do what they like with files of theirs. -/
theorem Ties.others {t : Task} (hc : Contained t.setup.grabber) (hl : LocalTool t.setup.grabber) {f f' d : FS} (h : Ties t f d) (hf : AgreeOn (Mine t.setup) f' f) : Ties t f' d := by
  refine ⟨fun q hq => (hf q hq.1).trans (h.same q hq), fun hm => ?_, h.dead⟩
  obtain ⟨h1, idx, im, rest, h2, h3⟩ := h.middle hm
  exact ⟨h1, idx, im, rest, h2, (remaining_alike hc hl im _ fun q hq => hf q (.inr ⟨idx, hq⟩)).trans h3⟩

theorem mainW_goes {M : Movie} {nx : Bool → Coder → Except PyErr (Option (Opcode × Coder))} {s t : Prog} (h : s.mainStepW M nx = some t) (hs : s.started = true) : t.started = true := by
  have hr : ∀ (s : Prog) fr, (s.resumeW M nx fr).started = s.started := by
    intro s fr
    unfold Prog.resumeW
    split
    · rfl
    · rfl
    · split
      · rfl
      · dsimp only
        split <;> rfl
  unfold Prog.mainStepW at h
  split at h
  · split at h
    · split at h
      · cases h; exact hs
      · cases h
    · cases h; rw [hr]; exact hs
  · split at h
    · cases h
    · split at h <;> cases h <;> first | exact hs | (rw [hr]; exact hs)
  · cases h
  · cases h

/-- The main thread does not touch the conversion thread, nor any file but its own. -/
theorem main_keeps {P : Setup} {size : Nat} {dev : Device} {s t : Session} (h : s.mainStep P size dev = some t) :
    t.prog.g.worker = s.prog.g.worker ∧ (s.prog.started = true → t.prog.started = true) ∧ ∀ q, q ≠ P.name → t.prog.disk q = s.prog.disk q := by
  have raw : (s.rawWrite P.name dev).prog.g.worker = s.prog.g.worker ∧ (s.prog.started = true → (s.rawWrite P.name dev).prog.started = true) ∧
      ∀ q, q ≠ P.name → (s.rawWrite P.name dev).prog.disk q = s.prog.disk q := by
    unfold Session.rawWrite
    cases dev s.calls with
    | error e => exact ⟨rfl, id, fun _ _ => rfl⟩
    | ok k => exact ⟨rfl, id, fun q hq => put_other _ hq _⟩
  unfold Session.mainStep at h
  split at h
  · cases h
  · split at h
    · split at h
      · cases h; exact ⟨rfl, id, fun _ _ => rfl⟩
      · split at h
        · cases h; exact ⟨rfl, id, fun _ _ => rfl⟩
        · cases h; exact raw
    · split at h
      · split at h
        · cases h; exact ⟨rfl, id, fun _ _ => rfl⟩
        · cases h; exact raw
      · obtain ⟨y, hy, rfl⟩ := Option.map_eq_some_iff.1 h
        exact ⟨mainW_worker hy, mainW_goes hy, fun q _ => congrFun (mainW_disk hy) q⟩

theorem gworker_keeps {G : Grabber} {s g : GState} (hne : ∀ idx im rest, s.worker ≠ .fetch idx (im :: rest)) (hx : G.workerStep s = some g) :
    g.fs = s.fs ∧ (∀ k, s.worker ≠ .dead k) ∧ ∀ d, G.workerStep { s with fs := d } = some { g with fs := d } := by
  unfold Grabber.workerStep at hx ⊢
  obtain ⟨f, wk, qu, c, o⟩ := s
  cases wk with
  | fetch idx rest =>
    cases rest with
    | nil =>
      simp only at hx ⊢
      cases hr : G.readError with
      | none => rw [hr] at hx; cases hx; exact ⟨rfl, fun _ h => (nomatch h), fun _ => rfl⟩
      | some e => rw [hr] at hx; cases hx; exact ⟨rfl, fun _ h => (nomatch h), fun _ => rfl⟩
    | cons im rest => exact absurd rfl (hne idx im rest)
  | put item idx rest =>
    simp only at hx ⊢
    split at hx
    · rename_i hh
      cases hx; exact ⟨rfl, fun _ h => (nomatch h), fun _ => if_pos hh⟩
    · cases hx
  | putEnd =>
    simp only at hx ⊢
    split at hx
    · rename_i hh
      cases hx; exact ⟨rfl, fun _ h => (nomatch h), fun _ => if_pos hh⟩
    · cases hx
  | done => cases hx
  | dead e => cases hx

theorem worker_disk {G : Grabber} {s t : Prog} (hne : ∀ idx im rest, s.g.worker ≠ .fetch idx (im :: rest)) (h : s.workerStep G = some t) :
    t.disk = s.disk ∧ (∀ k, s.g.worker ≠ .dead k) ∧ ∀ d, (s.onDisk d).workerStep G = some (t.onDisk d) := by
  unfold Prog.workerStep at h ⊢
  split at h
  · rename_i hst
    cases hx : G.workerStep s.g with
    | none => rw [hx] at h; cases h
    | some g =>
      rw [hx] at h
      cases h
      have key := gworker_keeps hne hx
      refine ⟨key.1, key.2.1, fun d => ?_⟩
      show (if s.started = true then _ else _) = _
      rw [if_pos hst]
      rw [show (s.onDisk d).g = { s.g with fs := d } from rfl, key.2.2 d]; rfl
  · cases h

theorem op_spot {G : Grabber} {own : Text → Prop} {i : Nat} {im : List U8} {a b : FS} {p p' : Spot} (h : G.Op own i im a p b (.going p')) : p' ≠ .outside ∧ ∀ k, p' ≠ .failed k := by
  generalize ho : After.going p' = o at h
  cases h <;> cases ho <;> (try split) <;> (constructor <;> simp)

theorem Ties.decode {t : Task} (hc : Contained t.setup.grabber) (hl : LocalTool t.setup.grabber) {f d : FS} (h : Ties t f d) {idx : Nat} {im : List U8} {rest : List (List U8)}
    (hw : t.session.prog.g.worker = .fetch idx (im :: rest)) :
    AlikeFor t.setup.grabber idx (remaining t.setup.grabber idx im t.phase f) (t.setup.grabber.decode d idx im) ∧ ∀ q, ¬ OwnFile t.setup.grabber idx q → ¬ Halfway t q := by
  by_cases h1 : t.phase = .outside
  · have hh : ∀ q, ¬ Halfway t q := by intro q; unfold Halfway; rw [h1]; exact id
    refine ⟨?_, fun q _ => hh q⟩
    rw [h1]
    exact remaining_alike hc hl im .outside fun q hq => h.same q ⟨.inr ⟨idx, hq⟩, hh q⟩
  · have h2 : ∀ k, t.phase ≠ .failed k := by
      intro k hk
      obtain ⟨e, he⟩ := h.dead k hk
      rw [hw] at he; cases he
    obtain ⟨-, idx', im', rest', e, h3⟩ := h.middle ⟨h1, h2⟩
    rw [hw] at e
    cases e
    exact ⟨h3, fun q hq hh => hq ((halfway_converting ⟨h1, h2⟩ hw q).1 hh)⟩

theorem ties_going {t : Task} (hc : Contained t.setup.grabber) (hl : LocalTool t.setup.grabber) {d : FS} (h : Ties t t.disk d) {idx : Nat} {im : List U8} {rest : List (List U8)}
    (hst : t.session.prog.started = true) (hw : t.session.prog.g.worker = .fetch idx (im :: rest)) {fs : FS} {p : Spot}
    (ho : t.setup.grabber.Op (OwnFile t.setup.grabber idx) idx im t.disk t.phase fs (.going p)) :
    Ties (t.withWorker fs (.fetch idx (im :: rest)) p) fs d ∧ (t.withWorker fs (.fetch idx (im :: rest)) p).session.onDisk d = t.session.onDisk d := by
  obtain ⟨h1, h2⟩ := h.decode hc hl hw
  have hp := op_spot ho
  refine ⟨⟨?_, ?_, fun k hk => absurd hk (hp.2 k)⟩, ?_⟩
  · intro q hq
    have hq' : ¬ OwnFile t.setup.grabber idx q := fun hh => hq.2 ((halfway_converting (t := t.withWorker fs _ p) hp (idx := idx) (images := im :: rest) rfl q).2 hh)
    exact (op_local ho hq').trans (h.same q ⟨hq.1, h2 q hq'⟩)
  · intro _
    exact ⟨hst, idx, im, rest, rfl, (op_going ho).trans h1⟩
  · unfold Task.withWorker Session.onDisk Prog.onDisk
    simp only
    rw [← hw]

theorem worker_decode {G : Grabber} {s : Prog} {d : FS} (hst : s.started = true) {idx : Nat} {im : List U8} {rest : List (List U8)} (hw : s.g.worker = .fetch idx (im :: rest)) :
    (s.onDisk d).workerStep G = some (match G.decode d idx im with
      | .ok (d', item) => { s with g := { s.g with fs := d', worker := .put item idx rest } }
      | .error e => { s with g := { s.g with fs := d, worker := .dead e } }) := by
  unfold Prog.workerStep
  show (if s.started = true then _ else _) = _
  rw [if_pos hst]
  unfold Grabber.workerStep
  rw [show (s.onDisk d).g.worker = .fetch idx (im :: rest) from hw]
  simp only
  rw [show (s.onDisk d).g.fs = d from rfl]
  cases G.decode d idx im <;> rfl

theorem ties_done {t : Task} (hc : Contained t.setup.grabber) (hl : LocalTool t.setup.grabber) {d : FS} (h : Ties t t.disk d) {idx : Nat} {im : List U8} {rest : List (List U8)}
    (hst : t.session.prog.started = true) (hw : t.session.prog.g.worker = .fetch idx (im :: rest)) {fs : FS} {item : Item}
    (ho : t.setup.grabber.Op (OwnFile t.setup.grabber idx) idx im t.disk t.phase fs (.done item)) :
    ∃ d', Ties (t.withWorker fs (.put item idx rest) .outside) fs d' ∧
      (t.session.prog.onDisk d).workerStep t.setup.grabber = some ((t.withWorker fs (.put item idx rest) .outside).session.prog.onDisk d') := by
  obtain ⟨h1, h2⟩ := h.decode hc hl hw
  rw [op_done ho] at h1
  cases hd : t.setup.grabber.decode d idx im with
  | error e => rw [hd] at h1; exact h1.elim
  | ok r =>
    obtain ⟨d', item'⟩ := r
    rw [hd] at h1
    obtain ⟨h3, h4⟩ := (h1 : AgreeOn _ fs d' ∧ item = item')
    subst h4
    refine ⟨d', ⟨?_, fun hm => absurd rfl hm.1, fun k hk => (nomatch hk)⟩, ?_⟩
    · intro q hq
      by_cases hq' : OwnFile t.setup.grabber idx q
      · exact h3 q hq'
      · exact (op_local ho hq').trans ((h.same q ⟨hq.1, h2 q hq'⟩).trans (decode_local hl hd q hq').symm)
    · rw [worker_decode hst hw, hd]; rfl

theorem ties_failed {t : Task} (hc : Contained t.setup.grabber) (hl : LocalTool t.setup.grabber) {d : FS} (h : Ties t t.disk d) {idx : Nat} {im : List U8} {rest : List (List U8)}
    (hst : t.session.prog.started = true) (hw : t.session.prog.g.worker = .fetch idx (im :: rest)) {fs : FS} {e : PyErr}
    (ho : t.setup.grabber.Op (OwnFile t.setup.grabber idx) idx im t.disk t.phase fs (.failed e)) :
    ∃ d', Ties (t.withWorker fs (.dead e) (.failed idx)) fs d' ∧
      (t.session.prog.onDisk d).workerStep t.setup.grabber = some ((t.withWorker fs (.dead e) (.failed idx)).session.prog.onDisk d') := by
  obtain ⟨h1, h2⟩ := h.decode hc hl hw
  rw [op_failed ho] at h1
  cases hd : t.setup.grabber.decode d idx im with
  | ok r => rw [hd] at h1; exact h1.elim
  | error e' =>
    rw [hd] at h1
    cases (show e = e' from h1)
    refine ⟨d, ⟨?_, fun hm => absurd rfl (hm.2 idx), fun k hk => ⟨e, rfl⟩⟩, ?_⟩
    · intro q hq
      have hq' : ¬ OwnFile t.setup.grabber idx q := hq.2
      exact (op_local ho hq').trans (h.same q ⟨hq.1, h2 q hq'⟩)
    · rw [worker_decode hst hw, hd]; rfl

theorem ties_worker {t : Task} {f d : FS} (h : Ties t f d) {p : Prog}
    (hne : ∀ idx image rest, t.session.prog.g.worker ≠ .fetch idx (image :: rest)) (hw : t.session.prog.workerStep t.setup.grabber = some p) :
    Ties { t with session := { t.session with prog := p } } f d ∧ (t.session.prog.onDisk d).workerStep t.setup.grabber = some (p.onDisk d) ∧ p.disk = t.disk := by
  obtain ⟨h1, h2, h3⟩ := worker_disk hne hw
  have hout : t.phase = .outside := by
    by_contra hx
    by_cases hf : ∃ k, t.phase = .failed k
    · obtain ⟨k, hk⟩ := hf
      obtain ⟨e, he⟩ := h.dead k hk
      exact h2 e he
    · obtain ⟨-, idx, im, rest, e, -⟩ := h.middle ⟨hx, fun k hk => hf ⟨k, hk⟩⟩
      exact hne _ _ _ e
  have hh : ∀ q, ¬ Halfway t q := by intro q; unfold Halfway; rw [hout]; exact id
  refine ⟨⟨fun q hq => h.same q ⟨hq.1, hh q⟩, fun hm => absurd hout hm.1, fun k hk => ?_⟩, h3 d, h1⟩
  rw [show t.phase = .failed k from hk] at hout; cases hout

theorem ties_main {size : Nat} {dev : Device} {t : Task} (hc : Contained t.setup.grabber) (hl : LocalTool t.setup.grabber) (hn : ∀ k, ¬ OwnFile t.setup.grabber k t.setup.name)
    {d : FS} (h : Ties t t.disk d) {s : Session} (hm : t.session.mainStep t.setup size dev = some s) :
    ∃ d', Ties { t with session := s } s.prog.disk d' ∧ (t.session.onDisk d).mainStep t.setup size dev = some (s.onDisk d') := by
  obtain ⟨k1, k2, k3⟩ := main_keeps hm
  have hhalf : ∀ q, Halfway { t with session := s } q ↔ Halfway t q := by
    intro q; unfold Halfway; rw [k1]
  have hname : Mine t.setup t.setup.name ∧ ¬ Halfway t t.setup.name := by
    refine ⟨.inl rfl, fun hx => ?_⟩
    unfold Halfway at hx
    split at hx
    · exact hx
    · exact hn _ hx
    · obtain ⟨i, -, -, ho⟩ := hx; exact hn _ ho
  obtain ⟨d', e1, e2⟩ := main_alike (M := fun q => Mine t.setup q ∧ ¬ Halfway t q) hname h.same hm
  obtain ⟨-, -, k3'⟩ := main_keeps e1
  refine ⟨d', ⟨?_, fun hmid => ?_, fun k hk => ?_⟩, e1⟩
  · intro q hq
    exact e2 q ⟨hq.1, fun hx => hq.2 ((hhalf q).2 hx)⟩
  · obtain ⟨m1, idx, im, rest, m2, m3⟩ := h.middle hmid
    refine ⟨k2 m1, idx, im, rest, k1.trans m2, ?_⟩
    have a1 : AgreeOn (OwnFile t.setup.grabber idx) s.prog.disk t.disk := fun q hq => k3 q fun e => hn idx (e ▸ hq)
    have a2 : AgreeOn (OwnFile t.setup.grabber idx) d d' := fun q hq => (k3' q fun e => hn idx (e ▸ hq)).symm
    exact ((remaining_alike hc hl im _ a1).trans m3).trans (remaining_alike hc hl im .outside a2)
  · obtain ⟨e, he⟩ := h.dead k hk
    exact ⟨e, k1.trans he⟩

/-- A step of a transcoder among others is nothing, or one step, for the one that has the disk for itself. -/
theorem task_step {size : Nat} {dev : Device} {t u : Task} (hc : Contained t.setup.grabber) (hl : LocalTool t.setup.grabber) (hn : ∀ k, ¬ OwnFile t.setup.grabber k t.setup.name)
    (hs : Task.Step OwnFile size dev t u) {d : FS} (h : Ties t t.disk d) :
    u.setup = t.setup ∧ (∀ q, ¬ Mine t.setup q → u.disk q = t.disk q) ∧ ∃ d', Ties u u.disk d' ∧
      (u.session.onDisk d' = t.session.onDisk d ∨ Session.Step t.setup size dev (t.session.onDisk d) (u.session.onDisk d')) := by
  cases hs with
  | @going idx im rest fs p hst hw ho =>
    obtain ⟨h1, h2⟩ := ties_going hc hl h hst hw ho
    exact ⟨rfl, fun q hq => op_local ho fun hh => hq (.inr ⟨idx, hh⟩), d, h1, .inl h2⟩
  | @done idx im rest fs item hst hw ho =>
    obtain ⟨d', h1, h2⟩ := ties_done hc hl h hst hw ho
    exact ⟨rfl, fun q hq => op_local ho fun hh => hq (.inr ⟨idx, hh⟩), d', h1, .inr (.worker (s := t.session.onDisk d) h2)⟩
  | @failed idx im rest fs e hst hw ho =>
    obtain ⟨d', h1, h2⟩ := ties_failed hc hl h hst hw ho
    exact ⟨rfl, fun q hq => op_local ho fun hh => hq (.inr ⟨idx, hh⟩), d', h1, .inr (.worker (s := t.session.onDisk d) h2)⟩
  | @worker p hne hw =>
    obtain ⟨h1, h2, h3⟩ := ties_worker h hne hw
    exact ⟨rfl, fun q _ => congrFun h3 q, d, (by show Ties _ p.disk d; rw [h3]; exact h1), .inr (.worker (s := t.session.onDisk d) h2)⟩
  | @main s hm =>
    obtain ⟨d', h1, h2⟩ := ties_main hc hl hn h hm
    exact ⟨rfl, fun q hq => (main_keeps hm).2.2 q fun e => hq (.inl e), d', h1, .inr (.main h2)⟩

/-- How far a conversion is from its end. -/
def Spot.rank : Spot → Nat
  | .outside => 8
  | .aux => 7
  | .save => 6
  | .call => 5
  | .inside _ => 4
  | .unlink => 3
  | .readMain => 2
  | .readAux _ => 1
  | .failed _ => 0

open Classical in
/-- There is a next operation that brings it nearer to its end. -/
theorem op_next (G : Grabber) (i : Nat) (im : List U8) (a : FS) (p : Spot) (hp : ∀ k, p ≠ .failed k) :
    ∃ b o, G.Op (OwnFile G i) i im a p b o ∧ ∀ p', o = .going p' → p'.rank < p.rank := by
  cases p with
  | outside =>
    by_cases hm : G.mode = .DHGR
    · refine ⟨_, _, .dhgrCheck hm, fun p' h => ?_⟩
      cases h; split <;> decide
    · refine ⟨_, _, .hgrCheck hm, fun p' h => ?_⟩
      cases h; split <;> decide
  | aux =>
    refine ⟨_, _, .auxCheck, fun p' h => ?_⟩
    cases h; split <;> simp [Spot.rank]
  | save => exact ⟨_, _, .saved, fun p' h => by cases h; simp [Spot.rank]⟩
  | call => exact ⟨_, _, .call, fun p' h => by cases h; simp [Spot.rank]⟩
  | inside found =>
    cases h : G.tool i (G.command i) found with
    | ok r =>
      refine ⟨fun q => if OwnFile G i q then r q else a q, _, .back h (fun q hq => if_pos hq) (fun q hq => if_neg hq), fun p' h => ?_⟩
      cases h; simp [Spot.rank]
    | error e => exact ⟨_, _, .notBack h, fun p' h => (nomatch h)⟩
  | unlink =>
    cases h : a.remove (G.path i (txt ".bmp")) with
    | ok b => exact ⟨_, _, .unlink h, fun p' h => by cases h; simp [Spot.rank]⟩
    | error e => exact ⟨_, _, .notUnlinked h, fun p' h => (nomatch h)⟩
  | readMain =>
    by_cases hm : G.mode = .DHGR
    · cases h : a.read (G.path i (txt ".BIN")) with
      | ok b => exact ⟨_, _, .readMain hm h, fun p' h => by cases h; simp [Spot.rank]⟩
      | error e => exact ⟨_, _, .noMain hm h, fun p' h => (nomatch h)⟩
    · cases h : a.read (G.path i (txt "C.BIN")) with
      | ok b => exact ⟨_, _, .readHgr hm h, fun p' h => (nomatch h)⟩
      | error e => exact ⟨_, _, .noHgr hm h, fun p' h => (nomatch h)⟩
  | readAux main =>
    cases h : a.read (G.path i (txt ".AUX")) with
    | ok b => exact ⟨_, _, .readAux h, fun p' h => (nomatch h)⟩
    | error e => exact ⟨_, _, .noAux h, fun p' h => (nomatch h)⟩
  | failed k => exact absurd rfl (hp k)

/-- A conversion can be brought to its end. -/
theorem task_finish {size : Nat} {dev : Device} {n : Nat} : ∀ {t : Task}, Contained t.setup.grabber → LocalTool t.setup.grabber → ∀ {d : FS}, Ties t t.disk d → t.phase.rank ≤ n →
    ∀ {idx : Nat} {im : List U8} {rest : List (List U8)}, t.session.prog.started = true → t.session.prog.g.worker = .fetch idx (im :: rest) →
    ∃ u d', Relation.TransGen (Task.Step OwnFile size dev) t u ∧ u.setup = t.setup ∧ Ties u u.disk d' ∧
      ∃ p, (t.session.prog.onDisk d).workerStep t.setup.grabber = some p ∧ u.session.onDisk d' = { t.session.onDisk d with prog := p } := by
  induction n with
  | zero =>
    intro t hc hl d h hr idx im rest hst hw
    exfalso
    cases hp : t.phase with
    | failed k =>
      obtain ⟨e, he⟩ := h.dead k hp
      rw [hw] at he; cases he
    | _ => rw [hp] at hr; simp [Spot.rank] at hr
  | succ n ih =>
    intro t hc hl d h hr idx im rest hst hw
    have hf : ∀ k, t.phase ≠ .failed k := by
      intro k hk
      obtain ⟨e, he⟩ := h.dead k hk
      rw [hw] at he; cases he
    obtain ⟨fs, o, ho, hlt⟩ := op_next t.setup.grabber idx im t.disk t.phase hf
    cases o with
    | going p =>
      obtain ⟨h1, h2⟩ := ties_going hc hl h hst hw ho
      obtain ⟨u, d', i1, i2, i3, p', i4, i5⟩ := ih (t := t.withWorker fs (.fetch idx (im :: rest)) p) hc hl (d := d) h1 (by have := hlt p rfl; show p.rank ≤ n; omega) hst rfl
      refine ⟨u, d', .head (.going hst hw ho) i1, i2, i3, p', ?_, ?_⟩
      · have := congrArg Session.prog h2
        rw [show t.session.prog.onDisk d = (t.session.onDisk d).prog from rfl, ← this]; exact i4
      · rw [← h2]; exact i5
    | done item =>
      obtain ⟨d', h1, h2⟩ := ties_done hc hl h hst hw ho
      exact ⟨_, d', .single (.done hst hw ho), rfl, h1, _, h2, rfl⟩
    | failed e =>
      obtain ⟨d', h1, h2⟩ := ties_failed hc hl h hst hw ho
      exact ⟨_, d', .single (.failed hst hw ho), rfl, h1, _, h2, rfl⟩

/-- What a transcoder that has the disk for itself can do, one among others can, too. -/
theorem task_reach {size : Nat} {dev : Device} {t : Task} (hc : Contained t.setup.grabber) (hl : LocalTool t.setup.grabber) (hn : ∀ k, ¬ OwnFile t.setup.grabber k t.setup.name)
    {d : FS} (h : Ties t t.disk d) {y : Session} (hs : Session.Step t.setup size dev (t.session.onDisk d) y) :
    ∃ u d', Relation.TransGen (Task.Step OwnFile size dev) t u ∧ u.setup = t.setup ∧ Ties u u.disk d' ∧ u.session.onDisk d' = y := by
  cases hs with
  | @worker p hw =>
    have hst : t.session.prog.started = true := by
      unfold Prog.workerStep at hw
      split at hw
      · rename_i h; exact h
      · cases hw
    by_cases hx : ∃ idx im rest, t.session.prog.g.worker = .fetch idx (im :: rest)
    · obtain ⟨idx, im, rest, hx⟩ := hx
      obtain ⟨u, d', h1, h2, h3, p', h4, h5⟩ := task_finish (size := size) (dev := dev) hc hl h le_rfl hst hx
      cases h4.symm.trans hw
      exact ⟨u, d', h1, h2, h3, h5⟩
    · have hne : ∀ idx im rest, t.session.prog.g.worker ≠ .fetch idx (im :: rest) := fun idx im rest e => hx ⟨idx, im, rest, e⟩
      have hw' := (worker_disk (s := (t.session.onDisk d).prog) hne hw).2.2 t.disk
      obtain ⟨h1, h2, h3⟩ := ties_worker (t := t) h hne hw'
      refine ⟨_, d, .single (.worker hne hw'), rfl, (by show Ties _ (p.onDisk t.disk).disk d; exact h1), ?_⟩
      have e := Option.some.inj (h2.symm.trans hw)
      show ({ t.session.onDisk d with prog := (p.onDisk t.disk).onDisk d } : Session) = _
      rw [e]
  | main hm =>
    have hname : Mine t.setup t.setup.name ∧ ¬ Halfway t t.setup.name := by
      refine ⟨.inl rfl, fun hx => ?_⟩
      unfold Halfway at hx
      split at hx
      · exact hx
      · exact hn _ hx
      · obtain ⟨i, -, -, ho⟩ := hx; exact hn _ ho
    obtain ⟨f, e1, -⟩ := main_alike (M := fun q => Mine t.setup q ∧ ¬ Halfway t q) hname (s := t.session.onDisk d) (d := t.disk) (fun q hq => (h.same q hq).symm) hm
    obtain ⟨d', h1, h2⟩ := ties_main hc hl hn h e1
    exact ⟨_, d', .single (.main e1), rfl, h1, Option.some.inj (h2.symm.trans hm)⟩

end IIVision
