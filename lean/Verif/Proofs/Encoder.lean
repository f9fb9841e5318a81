import Verif.Proofs.Video
import Verif.Proofs.Bounded
import Verif.Spec.Encoder
import Verif.Props.Bitmap

/-! Invariant of arbitrary histories of the frame encoder. -/

namespace IIVision
open Spec

theorem visible_holes (p : Fin 32) (o : Fin 256) : screenHoles p o = false ↔ Displayed o := by
  rw [screenHoles_eq]; unfold Displayed; simp

/-! ### Model-side quantities in specification terms -/

theorem cell_val {mode : VideoMode} {b : Bitmap} (hv : b.Valid mode) {isAux : Bool}
    (hx : AuxOk mode isAux) (p : Fin 32) (o : Fin 256) :
    (mode.cell b.packed isAux p o).toNat
      = winVal mode (banks b).1 (banks b).2 isAux p o := cell_toNat hv hx p o

theorem cellWith_val {mode : VideoMode} {b : Bitmap} (hv : b.Valid mode) {isAux : Bool}
    (hx : AuxOk mode isAux) (p : Fin 32) (o : Fin 256) (c : U8) :
    (mode.cellWith b.packed isAux p o c).toNat
      = winVal mode (storeBank (banks b) isAux p o c).1 (storeBank (banks b) isAux p o c).2
          isAux p o := by
  have hb := cellWith_window hv hx p o c
  have e : winVal mode (storeBank (banks b) isAux p o c).1 (storeBank (banks b) isAux p o c).2
        isAux p o
      = bitsVal (window mode (if isAux then b.bank false else Grid.set (b.bank false) p o c)
        (if isAux then Grid.set (b.bank true) p o c else b.bank true) isAux p o) := by
    cases isAux <;> rfl
  rw [e]
  apply hb.toNat
  rw [window_length]; have := maskedBits_le mode; omega

theorem errAfter_eq {mode : VideoMode} {tgt : Bitmap} (hv : tgt.Valid mode) {isAux : Bool}
    (hx : AuxOk mode isAux) (t : EditTable) (p : Fin 32) (o : Fin 256) (c : U8) :
    errAfter mode t tgt isAux p c o = storeError mode t (banks tgt) isAux p o c := by
  unfold errAfter storeError windowDist
  rw [dist_eq_table, cell_val hv hx, cellWith_val hv hx]

theorem windowDist_comm {mode : VideoMode} {t : EditTable} (hs : Symmetric mode.cls.maskedBits t)
    (m m' : Mem × Mem) (isAux : Bool) (p : Fin 32) (o : Fin 256) :
    windowDist mode t m m' isAux p o = windowDist mode t m' m isAux p o := by
  unfold windowDist
  rw [hs _ _ _ (winVal_lt _ _ _ _ _ _) (winVal_lt _ _ _ _ _ _)]

theorem errNew_eq {mode : VideoMode} {tgt : Bitmap} (hv : tgt.Valid mode) {isAux : Bool}
    (hx : AuxOk mode isAux) {t : EditTable} (hs : Symmetric mode.cls.maskedBits t)
    (p : Fin 32) (o : Fin 256) (c : U8) :
    errNew mode t tgt isAux p c o = storeError mode t (banks tgt) isAux p o c := by
  unfold errNew storeError
  rw [windowDist_comm hs]
  unfold windowDist
  rw [dist_eq_table, cell_val hv hx, cellWith_val hv hx]

theorem startWeights_eq {mode : VideoMode} {src tgt : Bitmap} (hs : src.Valid mode)
    (hv : tgt.Valid mode) {isAux : Bool} (hx : AuxOk mode isAux) (t : EditTable)
    (p : Fin 32) (o : Fin 256) :
    startWeights mode t src.packed tgt.packed isAux p o
      = (weight mode t (banks src) (banks tgt) isAux p o : Int) := by
  unfold startWeights weight windowDist
  rw [dist_eq_table, cell_val hs hx, cell_val hv hx]
  by_cases h : Displayed o
  · rw [if_pos h, if_neg]
    · simpa using (visible_holes p o).mpr h
  · rw [if_neg h, if_pos]
    · rfl
    · by_contra hh
      exact h ((visible_holes p o).mp (by simpa using hh))

/-! ### Invariant -/

structure FrameInv (t : EditTable) (mode : VideoMode) (e : Enc) (tgt : Bitmap) (a : Bool)
    (dw : Grid Int) (heap : List Entry) : Prop where
  start : StartOk e.startV tgt a
  startMode : e.startV.mode = mode
  startClean : mode = .DHGR → ∀ b p o, (e.startV.pixelmap.bank b p o).toNat < 0x80
  run : RunInv t e.v tgt a dw heap (snapOf t e.startV tgt a)

def GenInv (t : EditTable) (mode : VideoMode) (e : Enc) : Option Gen → Prop
  | none => True
  | some (.notStarted tgt a) => LegalFrame mode tgt a
  | some (.running tgt a dw heap) => LegalFrame mode tgt a ∧ FrameInv t mode e tgt a dw heap
  | some (.padding tgt a) => LegalFrame mode tgt a ∧
      (∀ p o, e.v.priority a p o = 0) ∧ ∃ dw heap, FrameInv t mode e tgt a dw heap

structure EInv (t : EditTable) (mode : VideoMode) (e : Enc) : Prop where
  vmode : e.v.mode = mode
  valid : e.v.pixelmap.Valid mode
  holes : ∀ b p o, screenHoles p o = true → e.v.pixelmap.bank b p o = 0
  clean : mode = .DHGR → ∀ b p o, (e.v.pixelmap.bank b p o).toNat < 0x80
  prio : ∀ b, Bounded (e.v.priority b)
  gen : GenInv t mode e e.gen

/-- The object at the point where the next operation is chosen. -/
def Spec.Step.mid (s : Step) (t : EditTable) : Video :=
  if s.first then s.startV.setPriority s.isAux (snapOf t s.startV s.target s.isAux).P0 else s.before

/-- Everything known about one `next()`. -/
structure StepOk (t : EditTable) (mode : VideoMode) (s : Step) : Prop where
  legal : LegalFrame mode s.target s.isAux
  start : StartOk s.startV s.target s.isAux
  startMode : s.startV.mode = mode
  startClean : mode = .DHGR → ∀ b p o, (s.startV.pixelmap.bank b p o).toNat < 0x80
  first : s.first = true → s.before = s.startV
  clean : mode = .DHGR → ∀ b p o, (s.before.pixelmap.bank b p o).toNat < 0x80
  run : ∃ dw heap, RunInv t (s.mid t) s.target s.isAux dw heap (snapOf t s.startV s.target s.isAux)
  midMap : (s.mid t).pixelmap = s.before.pixelmap
  midMode : (s.mid t).mode = mode
  midOther : (s.mid t).priority (!s.isAux) = s.before.priority (!s.isAux)
  emit : s.padding = false → ∃ page offset extra,
    Emitted t (s.mid t) s.target s.isAux (snapOf t s.startV s.target s.isAux) s.op s.after
      page offset extra ∧
    (∃ dw heap, RunInv t s.after s.target s.isAux dw heap (snapOf t s.startV s.target s.isAux)) ∧
    (∀ p o, (s.mid t).priority s.isAux p o ≠ 0 →
      (snapOf t s.startV s.target s.isAux).P0 p o ≤ (snapOf t s.startV s.target s.isAux).P0 page offset)
  pad : s.padding = true →
    s.op = ⟨32, s.target.bank s.isAux 0 0, [0, 0, 0, 0]⟩ ∧
    (∀ p o, (s.mid t).priority s.isAux p o = 0) ∧ s.after.pixelmap = s.before.pixelmap ∧
    (∀ b, s.after.priority b = (s.mid t).priority b) ∧ s.after.mode = mode

theorem RunInv.congr {t : EditTable} {v v' : Video} {tgt : Bitmap} {a : Bool} {dw : Grid Int}
    {heap : List Entry} {S : Snap} (h : RunInv t v tgt a dw heap S) (hm : v'.mode = v.mode)
    (hp : v'.pixelmap = v.pixelmap) (hq : v'.priority a = v.priority a) :
    RunInv t v' tgt a dw heap S := by
  obtain ⟨h1, h2, h3, h4, h5, h6, h7, h8, h9, h10, h11, h12, h13⟩ := h
  constructor
  · rw [hm]; exact h1
  · rw [hm, hp]; exact h2
  · rw [hm]; exact h3
  · rw [hm]; exact h4
  · exact h5
  · exact h6
  · rw [hq]; exact h7
  · rw [hq]; exact h8
  · exact h9
  · exact h10
  · rw [hq]; exact h11
  · rw [hp]; exact h12
  · rw [hm, hp, hq]; exact h13

theorem exhausted_mode (v : Video) (a : Bool) : (v.exhausted a).mode = v.mode := rfl
theorem exhausted_pixelmap (v : Video) (a : Bool) : (v.exhausted a).pixelmap = v.pixelmap := rfl
theorem exhausted_priority (v : Video) (a b : Bool) : (v.exhausted a).priority b = v.priority b := rfl

theorem bool_eq_or_not (a b : Bool) : b = a ∨ b = !a := by cases a <;> cases b <;> simp

/-- State facts preserved by emitting one operation. -/
theorem Emitted.state {t : EditTable} {mode : VideoMode} {v : Video} {tgt : Bitmap} {a : Bool}
    {S : Snap} {op : VideoOp} {v' : Video} {page : Fin 32} {offset : Fin 256} {extra : List (Fin 256)}
    (h : Emitted t v tgt a S op v' page offset extra) (hl : LegalFrame mode tgt a)
    (_hm : v.mode = mode)
    (hholes : ∀ b p o, screenHoles p o = true → v.pixelmap.bank b p o = 0)
    (hclean : mode = .DHGR → ∀ b p o, (v.pixelmap.bank b p o).toNat < 0x80)
    (hother : Bounded (v.priority (!a)))
    (hset : Bounded (Grid.set (v.priority a) page offset 0)) :
    (∀ b p o, screenHoles p o = true → v'.pixelmap.bank b p o = 0) ∧
    (mode = .DHGR → ∀ b p o, (v'.pixelmap.bank b p o).toNat < 0x80) ∧
    (∀ b, Bounded (v'.priority b)) := by
  refine ⟨?_, ?_, ?_⟩
  · intro b p o hh
    rcases bool_eq_or_not a b with rfl | rfl
    · rw [h.bank]
      unfold storeAll
      rw [if_neg]
      · exact hholes _ p o hh
      · rintro ⟨rfl, ho⟩
        rw [h.visible o ho] at hh
        exact absurd hh (by simp)
    · rw [h.bankOther]; exact hholes _ p o hh
  · intro hd b p o
    rcases bool_eq_or_not a b with rfl | rfl
    · rw [h.bank]
      unfold storeAll
      split
      · rw [h.opContent]; exact hl.clean hd _ _
      · exact hclean hd _ p o
    · rw [h.bankOther]; exact hclean hd _ p o
  · intro b
    rcases bool_eq_or_not a b with rfl | rfl
    · rw [h.prio]
      refine Bounded.storeAll ?_ extra hset
      intro o
      have := dist_lt v.mode t (v.mode.kOf b o) (v.mode.cell tgt.packed b page o)
        (v.mode.cellWith tgt.packed b page o op.content)
      have e : errAfter v.mode t tgt b page op.content o < 65536 := this
      omega
    · rw [h.prioOther]; exact hother

/-- The outcome of a resumption once the frame is started. -/
theorem resume_ok {t : EditTable} {mode : VideoMode} {sv v : Video} {r : Rng}
    {tgt : Bitmap} {a : Bool} {dw : Grid Int} {heap : List Entry}
    (hl : LegalFrame mode tgt a)
    (hm : v.mode = mode)
    (hholes : ∀ b p o, screenHoles p o = true → v.pixelmap.bank b p o = 0)
    (hclean : mode = .DHGR → ∀ b p o, (v.pixelmap.bank b p o).toNat < 0x80)
    (hother : Bounded (v.priority (!a)))
    (hset : ∀ page offset, (∀ p o, v.priority a p o ≠ 0 →
      (snapOf t sv tgt a).P0 p o ≤ (snapOf t sv tgt a).P0 page offset) →
      v.priority a page offset ≠ 0 → Bounded (Grid.set (v.priority a) page offset 0))
    (hF : FrameInv t mode ⟨v, none, r, sv⟩ tgt a dw heap) :
    ∃ op v' r' g', outerLoop t tgt a dw heap.length v r heap = .ok (op, v', r', g') ∧
      g'.target = tgt ∧ g'.isAux = a ∧ g'.isNew = false ∧
      EInv t mode ⟨v', some g', r', sv⟩ ∧
      (g'.isPadding = false → ∃ page offset extra,
        Emitted t v tgt a (snapOf t sv tgt a) op v' page offset extra ∧
        (∃ dw heap, RunInv t v' tgt a dw heap (snapOf t sv tgt a)) ∧
        (∀ p o, v.priority a p o ≠ 0 →
          (snapOf t sv tgt a).P0 p o ≤ (snapOf t sv tgt a).P0 page offset)) ∧
      (g'.isPadding = true →
        op = ⟨32, tgt.bank a 0 0, [0, 0, 0, 0]⟩ ∧ (∀ p o, v.priority a p o = 0) ∧
        v' = v.exhausted a) := by
  rcases outerLoop_ok r heap.length heap (Nat.le_refl _) hF.run with
    ⟨op, v', r', dw', heap', page, offset, extra, h1, h2, h3, h4⟩ | ⟨h1, h2⟩
  · refine ⟨op, v', r', _, h1, rfl, rfl, rfl, ?_, ?_, ?_⟩
    · obtain ⟨s1, s2, s3⟩ := h2.state hl hm hholes hclean hother
        (hset page offset h4 (h2.pending offset (by simp)))
      refine ⟨h2.mode.trans hm, hm ▸ h2.valid, s1, s2, s3, hl, ⟨hF.start, hF.startMode,
        hF.startClean, h3⟩⟩
    · intro _; exact ⟨page, offset, extra, h2, ⟨dw', heap', h3⟩, h4⟩
    · intro h; exact absurd h (by simp [Gen.isPadding])
  · refine ⟨_, _, r, _, h2, rfl, rfl, rfl, ?_, ?_, ?_⟩
    · refine ⟨hm, ?_, hholes, hclean, ?_, hl, h1, dw, heap, ⟨hF.start, hF.startMode,
        hF.startClean, hF.run.congr rfl rfl rfl⟩⟩
      · have := hF.run.valid
        rw [← hm]; exact this
      · intro b
        rcases bool_eq_or_not a b with rfl | rfl
        · exact Bounded.zero h1
        · exact hother
    · intro h; exact absurd h (by simp [Gen.isPadding])
    · intro _; exact ⟨rfl, h1, rfl⟩

/-- Pulling from a generator never fails and keeps the invariant. -/
theorem pull_ok {t : EditTable} {mode : VideoMode} {e : Enc} (h : EInv t mode e)
    {g : Gen} (hg : e.gen = some g) :
    ∃ e' s g', e.call t .pull = .ok (e', [s]) ∧ EInv t mode e' ∧ StepOk t mode s ∧
      e'.gen = some g' ∧ g'.target = g.target ∧ g'.isAux = g.isAux ∧ g'.isNew = false ∧
      s.target = g.target ∧ s.isAux = g.isAux ∧ s.first = g.isNew ∧ s.padding = g'.isPadding ∧
      s.before = e.v ∧ s.after = e'.v ∧ s.startV = e'.startV ∧
      e'.startV = (if g.isNew then e.v else e.startV) ∧
      (g'.isPadding = true → g.isPadding = false → e'.v.outOfWork g.isAux = true) ∧
      (g.isPadding = true → g'.isPadding = true ∧ e'.v = e.v) := by
  have hcall : e.call t .pull = (match e.v.next t e.rng g with
      | .error x => .error x
      | .ok (op, v, rng, g') => .ok (⟨v, some g', rng, if g.isNew then e.v else e.startV⟩,
        [⟨g.target, g.isAux, g.isNew, if g.isNew then e.v else e.startV, e.v, op, v,
          g'.isPadding⟩])) := by
    unfold Enc.call
    simp only [hg, bind, Except.bind, pure, Except.pure]
    cases e.v.next t e.rng g with
    | error x => rfl
    | ok x => rfl
  have hG := h.gen
  rw [hg] at hG
  cases g with
  | notStarted tgt a =>
    have hl := hG
    have hst : StartOk e.v tgt a := by
      refine ⟨h.vmode ▸ hl.aux, h.vmode ▸ h.valid, h.vmode ▸ hl.valid, h.vmode ▸ hl.clean,
        h.holes a, ?_⟩
      intro p o
      have h1 := (h.prio a).nonneg p o
      have h2 := (h.prio a).le p o
      omega
    obtain ⟨r', heap, hs, hri⟩ := startFrame_ok (t := t) hst e.rng
    generalize hv0 : e.v.setPriority a (snapOf t e.v tgt a).P0 = v0 at hs hri
    have m0 : v0.mode = mode := by rw [← hv0, setPriority_mode]; exact h.vmode
    have p0 : v0.pixelmap = e.v.pixelmap := by rw [← hv0, setPriority_pixelmap]
    have q0 : v0.priority a = (snapOf t e.v tgt a).P0 := by rw [← hv0, priority_set]
    have q1 : v0.priority (!a) = e.v.priority (!a) := by rw [← hv0, priority_set_ne]
    have hset0 : ∀ page offset, (∀ p o, v0.priority a p o ≠ 0 →
        (snapOf t e.v tgt a).P0 p o ≤ (snapOf t e.v tgt a).P0 page offset) →
        v0.priority a page offset ≠ 0 → Bounded (Grid.set (v0.priority a) page offset 0) := by
      intro page offset hmax hne
      rw [q0] at hmax hne ⊢
      have hP : ∀ p o, 0 ≤ (snapOf t e.v tgt a).P0 p o ∧
          (snapOf t e.v tgt a).P0 p o ≤ e.v.priority a p o + 65535 := by
        intro p o
        have hw := startWeights_range e.v.mode t e.v.pixelmap.packed tgt.packed a p o
        have h1 := (h.prio a).nonneg p o
        show 0 ≤ startPrio _ _ p o ∧ startPrio _ _ p o ≤ _
        unfold startPrio
        split <;> constructor <;> omega
      refine (h.prio a).start (fun p o => (hP p o).1) (fun p o => (hP p o).2) (page, offset) ?_
      intro p o
      by_cases hz : (snapOf t e.v tgt a).P0 p o = 0
      · rw [hz]; exact (hP page offset).1
      · exact hmax p o hz
    obtain ⟨op, v', r'', g', k1, k2, k3, k4, k5, k6, k7⟩ := resume_ok (t := t) (sv := e.v)
      (v := v0) (r := r') (dw := (snapOf t e.v tgt a).dw0) (heap := heap) hl m0
      (by rw [p0]; exact h.holes) (by rw [p0]; exact h.clean) (by rw [q1]; exact h.prio _) hset0
      ⟨hst, h.vmode, h.clean, hri⟩
    have hnext : e.v.next t e.rng (.notStarted tgt a) = .ok (op, v', r'', g') := by
      show (startFrame t e.v e.rng tgt a >>= fun x => _) = _
      rw [hs]
      exact k1
    rw [hcall, hnext]
    refine ⟨_, _, g', rfl, k5, ?_, rfl, k2, k3, k4, rfl, rfl, rfl, rfl, rfl, rfl, rfl, rfl, ?_,
      fun h => absurd h (by simp [Gen.isPadding])⟩
    rotate_left
    · intro hp _
      show v'.outOfWork a = true
      rw [(k7 hp).2.2]
      simp [Video.exhausted]
    have hmid : Step.mid ⟨tgt, a, true, e.v, e.v, op, v', g'.isPadding⟩ t = v0 := by
      simp [Step.mid, hv0]
    refine ⟨hl, hst, h.vmode, h.clean, fun _ => rfl, h.clean, ?_, ?_, ?_, ?_, ?_, ?_⟩
    · exact ⟨_, heap, by simpa only [Gen.isNew, Gen.target, Gen.isAux, if_true, hmid] using hri⟩
    · show (Step.mid ⟨tgt, a, true, e.v, e.v, op, v', g'.isPadding⟩ t).pixelmap = _
      rw [hmid]; exact p0
    · show (Step.mid ⟨tgt, a, true, e.v, e.v, op, v', g'.isPadding⟩ t).mode = _
      rw [hmid]; exact m0
    · show (Step.mid ⟨tgt, a, true, e.v, e.v, op, v', g'.isPadding⟩ t).priority (!a) = _
      rw [hmid]; exact q1
    · intro hp
      obtain ⟨page, offset, extra, y1, y2, y3⟩ := k6 hp
      refine ⟨page, offset, extra, ?_, ?_, ?_⟩
      · show Emitted t (Step.mid ⟨tgt, a, true, e.v, e.v, op, v', g'.isPadding⟩ t) _ _ _ _ _ _ _ _
        rw [hmid]; exact y1
      · exact y2
      · show ∀ p o, (Step.mid ⟨tgt, a, true, e.v, e.v, op, v', g'.isPadding⟩ t).priority a p o ≠ 0 → _
        rw [hmid]; exact y3
    · intro hp
      obtain ⟨y1, y2, y3⟩ := k7 hp
      refine ⟨y1, ?_, ?_, ?_, ?_⟩
      · show ∀ p o, (Step.mid ⟨tgt, a, true, e.v, e.v, op, v', g'.isPadding⟩ t).priority a p o = 0
        rw [hmid]; exact y2
      · show v'.pixelmap = _
        rw [y3, exhausted_pixelmap]; exact p0
      · intro b
        show v'.priority b = (Step.mid ⟨tgt, a, true, e.v, e.v, op, v', g'.isPadding⟩ t).priority b
        rw [hmid, y3, exhausted_priority]
      · show v'.mode = _
        rw [y3]; exact m0
  | running tgt a dw heap =>
    obtain ⟨hl, hF⟩ := hG
    obtain ⟨op, v', r'', g', k1, k2, k3, k4, k5, k6, k7⟩ := resume_ok (t := t)
      (sv := e.startV) (v := e.v) (r := e.rng) (dw := dw) (heap := heap) hl h.vmode
      h.holes h.clean (h.prio _)
      (fun page offset _ _ => (h.prio a).set (page, offset) (by omega) (by omega)) ⟨hF.start, hF.startMode, hF.startClean, hF.run⟩
    have hnext : e.v.next t e.rng (.running tgt a dw heap) = .ok (op, v', r'', g') := k1
    rw [hcall, hnext]
    refine ⟨_, _, g', rfl, k5, ?_, rfl, k2, k3, k4, rfl, rfl, rfl, rfl, rfl, rfl, rfl, rfl, ?_,
      fun h => absurd h (by simp [Gen.isPadding])⟩
    rotate_left
    · intro hp _
      show v'.outOfWork a = true
      rw [(k7 hp).2.2]
      simp [Video.exhausted]
    refine ⟨hl, hF.start, hF.startMode, hF.startClean, fun h => absurd h (by simp [Gen.isNew]),
      h.clean, ⟨dw, heap, hF.run⟩, rfl, h.vmode, rfl, ?_, ?_⟩
    · exact k6
    · intro hp
      obtain ⟨y1, y2, y3⟩ := k7 hp
      refine ⟨y1, y2, ?_, ?_, ?_⟩
      · show v'.pixelmap = _
        rw [y3, exhausted_pixelmap]
      · intro b
        show v'.priority b = e.v.priority b
        rw [y3, exhausted_priority]
      · show v'.mode = _
        rw [y3]; exact h.vmode
  | padding tgt a =>
    obtain ⟨hl, hz, dw, heap, hF⟩ := hG
    have hnext : e.v.next t e.rng (.padding tgt a)
        = .ok (⟨32, tgt.bank a 0 0, [0, 0, 0, 0]⟩, e.v, e.rng, .padding tgt a) := by
      obtain ⟨mem, hmem, hmb⟩ := targetMemory_ok (mode := e.v.mode) (h.vmode ▸ hl.aux)
        (h.vmode ▸ hl.valid)
      show (padOp e.v tgt a >>= fun op => _) = _
      unfold padOp
      rw [hmem]
      simp only [bind, Except.bind, pure, Except.pure, hmb]
    rw [hcall, hnext]
    refine ⟨_, _, .padding tgt a, rfl, ?_, ?_, rfl, rfl, rfl, rfl, rfl, rfl, rfl, rfl, rfl, rfl, rfl,
      rfl, fun _ h => absurd h (by simp [Gen.isPadding]), fun _ => ⟨rfl, rfl⟩⟩
    · exact ⟨h.vmode, h.valid, h.holes, h.clean, h.prio, hl, hz, dw, heap,
        ⟨hF.start, hF.startMode, hF.startClean, hF.run⟩⟩
    · refine ⟨hl, hF.start, hF.startMode, hF.startClean, fun h => absurd h (by simp [Gen.isNew]),
        h.clean, ⟨dw, heap, hF.run⟩, rfl, h.vmode, rfl, ?_, ?_⟩
      · intro h; exact absurd h (by simp [Gen.isPadding])
      · intro _; exact ⟨rfl, hz, rfl, fun _ => rfl, h.vmode⟩

/-! ### Histories -/

/-- Consecutive steps share the screen memory and the priorities. -/
def Chain : Video → List Step → Video → Prop
  | v, [], v' => v'.pixelmap = v.pixelmap ∧ ∀ b, v'.priority b = v.priority b
  | v, s :: tr, v' => s.before.pixelmap = v.pixelmap ∧ (∀ b, s.before.priority b = v.priority b) ∧
      Chain s.after tr v'

theorem Chain.congr {v w : Video} {tr : List Step} {v' : Video} (h : Chain v tr v')
    (hp : w.pixelmap = v.pixelmap) (hq : ∀ b, w.priority b = v.priority b) : Chain w tr v' := by
  cases tr with
  | nil => exact ⟨h.1.trans hp.symm, fun b => (h.2 b).trans (hq b).symm⟩
  | cons s tr => exact ⟨h.1.trans hp.symm, fun b => (h.2.1 b).trans (hq b).symm, h.2.2⟩

theorem GenInv.congr {t : EditTable} {mode : VideoMode} {e e' : Enc} {g : Option Gen}
    (h : GenInv t mode e g) (hs : e'.startV = e.startV) (hm : e'.v.mode = e.v.mode)
    (hp : e'.v.pixelmap = e.v.pixelmap) (hq : ∀ b, e'.v.priority b = e.v.priority b) :
    GenInv t mode e' g := by
  have key : ∀ {tgt a dw heap}, FrameInv t mode e tgt a dw heap →
      FrameInv t mode e' tgt a dw heap := by
    intro tgt a dw heap hF
    refine ⟨hs ▸ hF.start, hs ▸ hF.startMode, hs ▸ hF.startClean, ?_⟩
    rw [hs]
    exact hF.run.congr hm hp (hq _)
  match g, h with
  | none, _ => trivial
  | some (.notStarted _ _), h => exact h
  | some (.running _ _ _ _), ⟨h1, h2⟩ => exact ⟨h1, key h2⟩
  | some (.padding _ _), ⟨h1, h3, dw, heap, h4⟩ =>
    exact ⟨h1, fun p o => by rw [hq]; exact h3 p o, dw, heap, key h4⟩

/-- One call of a legal history. -/
theorem call_ok {t : EditTable} {mode : VideoMode} {e : Enc} (h : EInv t mode e)
    (c : Call) (hc : c.Legal mode)
    (hg : c.isStart = true ∨ e.gen ≠ none) :
    ∃ e' tr, e.call t c = .ok (e', tr) ∧ EInv t mode e' ∧
      (∀ s ∈ tr, StepOk t mode s) ∧ Chain e.v tr e'.v ∧ e'.gen ≠ none := by
  cases c with
  | start tgt a =>
    refine ⟨{ e with gen := some (.notStarted tgt a) }, [], rfl, ?_, by simp, ⟨rfl, fun _ => rfl⟩,
      by simp⟩
    exact ⟨h.vmode, h.valid, h.holes, h.clean, h.prio, hc⟩
  | reset =>
    refine ⟨_, [], rfl, ?_, by simp, ⟨rfl, fun _ => rfl⟩, ?_⟩
    · exact ⟨h.vmode, h.valid, h.holes, h.clean, h.prio, h.gen.congr rfl rfl rfl (fun _ => rfl)⟩
    · rcases hg with hg | hg
      · exact absurd hg (by simp [Call.isStart])
      · exact hg
  | pull =>
    have hg' : e.gen ≠ none := by
      rcases hg with hg | hg
      · exact absurd hg (by simp [Call.isStart])
      · exact hg
    obtain ⟨g, hg'⟩ := Option.ne_none_iff_exists'.mp hg'
    obtain ⟨e', s, g', k1, k2, k3, k4, -, -, -, -, -, -, -, k5, k6, -, -, -, -⟩ := pull_ok h hg'
    refine ⟨e', [s], k1, k2, by simpa using k3, ?_, by rw [k4]; simp⟩
    refine ⟨by rw [k5], fun b => by rw [k5], ?_⟩
    rw [k6]
    exact ⟨rfl, fun _ => rfl⟩

theorem Chain.append {v v' v'' : Video} {tr tr' : List Step} (h : Chain v tr v')
    (h' : Chain v' tr' v'') : Chain v (tr ++ tr') v'' := by
  induction tr generalizing v with
  | nil => exact h'.congr h.1.symm (fun b => (h.2 b).symm)
  | cons s tr ih => exact ⟨h.1, h.2.1, ih h.2.2⟩

theorem run_ok {t : EditTable} {mode : VideoMode} (cs : List Call) : ∀ {e : Enc},
    EInv t mode e → (∀ c ∈ cs, c.Legal mode) →
    (e.gen ≠ none ∨ ∀ c, cs.head? = some c → c.isStart = true) →
    ∃ e' tr, e.run t cs = .ok (e', tr) ∧ EInv t mode e' ∧
      (∀ s ∈ tr, StepOk t mode s) ∧ Chain e.v tr e'.v := by
  induction cs with
  | nil =>
    intro e h _ _
    exact ⟨e, [], rfl, h, by simp, ⟨rfl, fun _ => rfl⟩⟩
  | cons c cs ih =>
    intro e h hc hg
    obtain ⟨e1, tr1, a1, a2, a3, a4, a5⟩ := call_ok h c (hc c (by simp)) (by
      rcases hg with hg | hg
      · exact .inr hg
      · exact .inl (hg c rfl))
    obtain ⟨e2, tr2, b1, b2, b3, b4⟩ := ih a2 (fun c h => hc c (by simp [h])) (.inl a5)
    refine ⟨e2, tr1 ++ tr2, ?_, b2, ?_, a4.append b4⟩
    · unfold Enc.run
      simp only [a1, bind, Except.bind, b1, pure, Except.pure]
    · intro s hs
      rcases List.mem_append.mp hs with hs | hs
      · exact a3 s hs
      · exact b3 s hs

theorem run_append {t : EditTable} (cs cs' : List Call) : ∀ (e e1 e2 : Enc) (tr1 tr2 : List Step),
    e.run t cs = .ok (e1, tr1) → e1.run t cs' = .ok (e2, tr2) →
    e.run t (cs ++ cs') = .ok (e2, tr1 ++ tr2) := by
  induction cs with
  | nil =>
    intro e e1 e2 tr1 tr2 h h'
    cases h
    exact h'
  | cons c cs ih =>
    intro e e1 e2 tr1 tr2 h h'
    unfold Enc.run at h
    simp only [bind, Except.bind] at h
    cases hc : e.call t c with
    | error x => rw [hc] at h; cases h
    | ok r =>
      obtain ⟨ea, ta⟩ := r
      rw [hc] at h
      simp only at h
      cases hr : ea.run t cs with
      | error x => rw [hr] at h; cases h
      | ok r =>
        obtain ⟨eb, tb⟩ := r
        rw [hr] at h
        simp only [pure, Except.pure, Except.ok.injEq, Prod.mk.injEq] at h
        obtain ⟨rfl, rfl⟩ := h
        have := ih ea eb e2 tb tr2 hr h'
        show Enc.run t e (c :: (cs ++ cs')) = _
        unfold Enc.run
        simp only [bind, Except.bind, hc, this, pure, Except.pure, List.append_assoc]

theorem videoNew_ok (mode : VideoMode) : ∃ v, Video.new mode = .ok v ∧ v.mode = mode ∧
    v.pixelmap.Valid mode ∧ (∀ b p o, v.pixelmap.bank b p o = 0) ∧ (∀ b p o, v.priority b p o = 0) ∧
    (∀ b, v.outOfWork b = false) := by
  cases mode with
  | HGR =>
    refine ⟨_, rfl, rfl, (hgr_new_valid (m := emptyMap) rfl rfl).1, ?_, ?_, fun _ => rfl⟩
    · intro b p o; cases b <;> rfl
    · intro b p o; cases b <;> rfl
  | DHGR =>
    refine ⟨_, rfl, rfl, (dhgr_new_valid (m := emptyMap) (a := emptyMap) rfl rfl rfl).1, ?_, ?_, fun _ => rfl⟩
    · intro b p o; cases b <;> rfl
    · intro b p o; cases b <;> rfl

theorem init_ok (t : EditTable) (mode : VideoMode) (tape : Nat → Nat) :
    ∃ e, Enc.init mode tape = .ok e ∧ EInv t mode e ∧
      (∀ b p o, e.v.pixelmap.bank b p o = 0) ∧ (∀ b p o, e.v.priority b p o = 0) := by
  obtain ⟨v, h1, h2, h3, h4, h5, -⟩ := videoNew_ok mode
  refine ⟨⟨v, none, ⟨tape, 0⟩, v⟩, ?_, ?_, h4, h5⟩
  · unfold Enc.init
    rw [h1]; rfl
  · refine ⟨h2, h3, fun b p o _ => h4 b p o, fun _ b p o => by simp [h4], ?_, trivial⟩
    intro b
    exact Bounded.zero (h5 b)

/-- Every legal history runs without an exception. -/
theorem runNew_ok {t : EditTable} {mode : VideoMode} {calls : List Call} (h : Legal mode calls)
    (tape : Nat → Nat) :
    ∃ e0 e tr, Enc.init mode tape = .ok e0 ∧ runNew mode t tape calls = .ok (e, tr) ∧
      EInv t mode e ∧
      (∀ s ∈ tr, StepOk t mode s) ∧ Chain e0.v tr e.v ∧ (∀ b p o, e0.v.pixelmap.bank b p o = 0) := by
  obtain ⟨e0, i1, i2, i3, -⟩ := init_ok t mode tape
  obtain ⟨e, tr, r1, r2, r3, r4⟩ := run_ok calls i2 h.each (.inr h.first)
  refine ⟨e0, e, tr, i1, ?_, r2, r3, r4, i3⟩
  unfold runNew; rw [i1]; exact r1

end IIVision
