import Verif.Spec.PaletteBits
import Verif.Props.Bitmap
import Verif.Proofs.Program
import Verif.Proofs.Bind

/-! The encoder on frames with palette bits compared with the encoder on the same frames without. -/

namespace IIVision
open Spec

attribute [local irreducible] screenHoles

def cleanGen : Gen → Gen
  | .notStarted T a => .notStarted (cleanBitmap T) a
  | .running T a dw heap => .running (cleanBitmap T) a dw heap
  | .padding T a => .padding (cleanBitmap T) a

theorem innerLoop_clean (t : EditTable) (T : Bitmap) (a : Bool) (p : Fin 32) (c : U8) (o : Fin 256) :
    ∀ (l : List Cand) (s : Inner), innerLoop t (cleanBitmap T) a p c o l s = innerLoop t T a p c o l s := by
  intro l
  induction l with
  | nil => intro s; rfl
  | cons x l ih =>
    intro s
    unfold innerLoop
    simp only [ih]
    rfl

theorem innerLoop_head {t : EditTable} {T : Bitmap} {a : Bool} {p : Fin 32} {c : U8} {o : Fin 256} : 
    ∀ (l : List Cand) (s s' : Inner), innerLoop t T a p c o l s = .ok s' → s.offsets.head? = some o →
      s'.offsets.head? = some o ∧ s'.v.mode = s.v.mode := by
  intro l
  induction l with
  | nil => intro s s' h ho; cases h; exact ⟨ho, rfl⟩
  | cons x l ih =>
    intro s s' h ho
    unfold innerLoop at h
    refine bind_ok_elim h fun _ h => ?_
    refine bind_ok_elim h fun _ h => ?_
    refine bind_ok_elim h fun _ h => ?_
    split at h
    · exact ih _ _ h ho
    refine bind_ok_elim h fun _ h => ?_
    refine bind_ok_elim h fun d h => ?_
    refine bind_ok_elim h fun pm h => ?_
    have ho' : (s.offsets ++ [x.offset]).head? = some o := by
      cases hs : s.offsets with
      | nil => rw [hs] at ho; cases ho
      | cons y l' => rw [hs] at ho; exact ho
    have hm : ∀ (g : Grid Int) (pm : Bitmap), ({ s.v.setPriority a g with pixelmap := pm } : Video).mode = s.v.mode := by
      intro g pm; unfold Video.setPriority; split <;> rfl
    extract_lets v1 v2 at h
    have hv2 : v2.mode = s.v.mode := hm _ _
    clear_value v2
    split at h
    split at h
    · rw [← Except.ok.inj h]
      exact ⟨ho', hv2⟩
    · obtain ⟨h1, h2⟩ := ih _ _ h ho'
      exact ⟨h1, h2.trans hv2⟩

theorem targetMemory_clean (T : Bitmap) (a : Bool) :
    targetMemory .DHGR (cleanBitmap T) a = (targetMemory .DHGR T a).map cleanMap := by
  unfold targetMemory
  split
  · show (match T.aux.map cleanMap with | some a => Except.ok a | none => Except.error PyErr.attributeError) = _
    cases T.aux <;> rfl
  · rfl

theorem targetMemory_bank {T : Bitmap} {a : Bool} {mem : MemoryMap} (h : targetMemory .DHGR T a = .ok mem) :
    T.bank a = mem.pageOffset := by
  unfold targetMemory at h
  unfold Bitmap.bank
  cases a with
  | false => simp at h ⊢; rw [h]
  | true =>
    simp at h ⊢
    cases ha : T.aux with
    | none => rw [ha] at h; cases h
    | some m => rw [ha] at h; cases h; rfl

theorem padOffsets_head {o : Fin 256} {l : List (Fin 256)} (h : l.head? = some o) : (padOffsets o l).head? = some o := by
  unfold padOffsets
  cases l with
  | nil => cases h
  | cons x l => exact h

theorem low_clean {b : U8} (h : b.toNat < 0x80) : b &&& 0x7f#8 = b := by
  have : ∀ b : U8, b.toNat < 0x80 → b &&& 0x7f#8 = b := by decide +kernel
  exact this b h

/-- What `next` gives on the frame without palette bits, and on the frame itself. -/
def NextAlike (T : Bitmap) (a : Bool) (x : Except PyErr (VideoOp × Video × Rng × Gen))
    (op' : VideoOp) (v1 : Video) (r1 : Rng) (g1' : Gen) : Prop :=
  v1.mode = .DHGR ∧
  ((∃ op g1, x = .ok (op, v1, r1, g1) ∧ g1' = cleanGen g1 ∧ g1.target = T ∧ g1.isAux = a ∧ AlikeOp op op' ∧
      (g1.isPadding = false → op = op' ∧ ¬ StoresPaletteBit T a op')) ∨
   (x = .error .assertionError ∧ g1'.isPadding = false ∧ StoresPaletteBit T a op'))

/-- The other case: the frame without palette bits gives an exception. -/
def FailAlike (x x' : Except PyErr (VideoOp × Video × Rng × Gen)) : Prop :=
  ∀ e, x' = .error e → x = .error e ∨ x = .error .assertionError

theorem emitCell_fail {t : EditTable} {v : Video} {r : Rng} {T : Bitmap} {a : Bool} {dw : Grid Int} {heap : List Entry} {p : Fin 32} {o : Fin 256}
    (hm : v.mode = .DHGR) : FailAlike (emitCell t v r T a dw heap p o) (emitCell t v r (cleanBitmap T) a dw heap p o) := by
  intro e h
  unfold emitCell at h ⊢
  rw [hm, targetMemory_clean] at h
  rw [hm]
  cases hmem : targetMemory .DHGR T a with
  | error e' => rw [hmem] at h; left; exact h
  | ok mem =>
    rw [hmem] at h
    simp only [Except.map, Except.bind_ok] at h ⊢
    by_cases hb : (mem.pageOffset p o).toNat < 0x80
    · left
      have hc : (cleanMap mem).pageOffset p o = mem.pageOffset p o := low_clean hb
      rw [hc] at h
      simp only [innerLoop_clean] at h
      revert h
      generalize hd : decide (True → (mem.pageOffset p o).toNat < 0x80) = d
      cases pyAssert d with
      | error e' => intro h; exact h
      | ok u =>
        simp only [Except.bind_ok]
        cases hap : (v.setPriority a (Grid.set (v.priority a) p o 0)).pixelmap.apply
            (v.setPriority a (Grid.set (v.priority a) p o 0)).mode.cls p o a (mem.pageOffset p o) with
        | error e' => intro h; exact h
        | ok pm =>
          simp only [Except.bind_ok]
          rw [show computeError (v.setPriority a (Grid.set (v.priority a) p o 0)).mode.cls t p (mem.pageOffset p o) (cleanBitmap T) (Grid.set dw p o 0 p) a r =
            computeError (v.setPriority a (Grid.set (v.priority a) p o 0)).mode.cls t p (mem.pageOffset p o) T (Grid.set dw p o 0 p) a r from rfl]
          cases computeError (v.setPriority a (Grid.set (v.priority a) p o 0)).mode.cls t p (mem.pageOffset p o) T (Grid.set dw p o 0 p) a r with
          | error e' => intro h; exact h
          | ok cr =>
            simp only [Except.bind_ok]
            intro h
            cases hin : innerLoop t T a p (mem.pageOffset p o) o cr.1
              ⟨{ v.setPriority a (Grid.set (v.priority a) p o 0) with pixelmap := pm }, heap, cr.2, [o]⟩ with
            | error e' => rw [hin] at h; exact h
            | ok s => rw [hin] at h; cases h
    · right
      rw [show decide (True → (mem.pageOffset p o).toNat < 0x80) = false from by
        simp only [decide_eq_false_iff_not]; intro h; exact hb (h trivial)]
      rfl

theorem finish_fail {v : Video} {r : Rng} {T : Bitmap} {a : Bool} (hm : v.mode = .DHGR) :
    FailAlike (finishFrame v r T a) (finishFrame v r (cleanBitmap T) a) := by
  intro e h
  unfold finishFrame padOp at h ⊢
  simp only [hm] at h ⊢
  rw [targetMemory_clean] at h
  cases hmem : targetMemory .DHGR T a with
  | error e => rw [hmem] at h; left; exact h
  | ok mem => rw [hmem] at h; cases h

theorem outer_fail {t : EditTable} {T : Bitmap} {a : Bool} {dw : Grid Int} : ∀ (n : Nat) (v : Video) (r : Rng) (heap : List Entry), v.mode = .DHGR →
    FailAlike (outerLoop t T a dw n v r heap) (outerLoop t (cleanBitmap T) a dw n v r heap) := by
  intro n
  induction n with
  | zero => intro v r heap hm; exact finish_fail hm
  | succ n ih =>
    intro v r heap hm e h
    unfold outerLoop at h ⊢
    cases hp : heapPop Entry.lt heap with
    | none => rw [hp] at h; exact finish_fail hm e h
    | some eh =>
      obtain ⟨x, heap'⟩ := eh
      rw [hp] at h
      simp only at h ⊢
      generalize screenHoles x.page x.offset = b at h ⊢
      cases b with
      | true => exact .inl h
      | false =>
        simp only [pyAssert, Bool.not_false, if_true, Except.bind_ok] at h ⊢
        by_cases hz : v.priority a x.page x.offset = 0
        · rw [if_pos hz] at h ⊢
          exact ih v r heap' hm e h
        · rw [if_neg hz] at h ⊢
          exact emitCell_fail hm e h

theorem emitCell_clean {t : EditTable} {v : Video} {r : Rng} {T : Bitmap} {a : Bool} {dw : Grid Int} {heap : List Entry} {p : Fin 32} {o : Fin 256}
    (hm : v.mode = .DHGR) {op' : VideoOp} {v1 : Video} {r1 : Rng} {g1' : Gen}
    (h : emitCell t v r (cleanBitmap T) a dw heap p o = .ok (op', v1, r1, g1')) :
    NextAlike T a (emitCell t v r T a dw heap p o) op' v1 r1 g1' := by
  unfold emitCell at h ⊢
  rw [hm, targetMemory_clean] at h
  rw [hm]
  cases hmem : targetMemory .DHGR T a with
  | error e => rw [hmem] at h; cases h
  | ok mem =>
    have hbank := targetMemory_bank hmem
    rw [hmem] at h
    simp only [Except.map, Except.bind_ok] at h ⊢
    have hlow : ∀ b : U8, (b &&& 0x7f#8).toNat < 0x80 := by decide +kernel
    rw [show decide (True → ((cleanMap mem).pageOffset p o).toNat < 0x80) = true from by
      simp only [decide_eq_true_eq]; intro _; exact hlow _] at h
    simp only [pyAssert, if_true, Except.bind_ok] at h
    have hmode : ∀ g, (v.setPriority a g).mode = .DHGR := by
      intro g; unfold Video.setPriority; split <;> exact hm
    -- the result on the clean frame
    cases hap : (v.setPriority a (Grid.set (v.priority a) p o 0)).pixelmap.apply
        (v.setPriority a (Grid.set (v.priority a) p o 0)).mode.cls p o a ((cleanMap mem).pageOffset p o) with
    | error e => rw [hap] at h; cases h
    | ok pm =>
      rw [hap, Except.bind_ok] at h
      cases hce : computeError (v.setPriority a (Grid.set (v.priority a) p o 0)).mode.cls t p ((cleanMap mem).pageOffset p o) (cleanBitmap T)
          (Grid.set dw p o 0 p) a r with
      | error e => simp only [hce] at h; cases h
      | ok cr =>
        simp only [hce, Except.bind_ok, innerLoop_clean] at h
        obtain ⟨cands, r2⟩ := cr
        simp only at h
        cases hin : innerLoop t T a p ((cleanMap mem).pageOffset p o) o cands
            ⟨{ v.setPriority a (Grid.set (v.priority a) p o 0) with pixelmap := pm }, heap, r2, [o]⟩ with
        | error e => rw [hin] at h; cases h
        | ok s =>
          rw [hin, Except.bind_ok] at h
          have hh := Except.ok.inj h
          simp only [Prod.mk.injEq] at hh
          obtain ⟨rfl, rfl, rfl, rfl⟩ := hh
          obtain ⟨q1, q2⟩ := innerLoop_head _ _ _ hin rfl
          have q3 := padOffsets_head q1
          refine ⟨q2.trans (hmode _), ?_⟩
          by_cases hb : (mem.pageOffset p o).toNat < 0x80
          · left
            have hc : (cleanMap mem).pageOffset p o = mem.pageOffset p o := low_clean hb
            rw [hc] at hap hce hin ⊢
            refine ⟨_, .running T a (Grid.set dw p o 0) s.heap, ?_, rfl, rfl, rfl, .inl rfl, fun _ => ⟨rfl, ?_⟩⟩
            · simp only [hb, implies_true, decide_true, pyAssert, if_true, Except.bind_ok, hap]
              rw [show computeError (v.setPriority a (Grid.set (v.priority a) p o 0)).mode.cls t p (mem.pageOffset p o) T (Grid.set dw p o 0 p) a r =
                computeError (v.setPriority a (Grid.set (v.priority a) p o 0)).mode.cls t p (mem.pageOffset p o) (cleanBitmap T) (Grid.set dw p o 0 p) a r from rfl, hce]
              simp only [Except.bind_ok, hin]
              rfl
            · rintro ⟨p', o', e1, e2, e3⟩
              have : p' = p := by apply Fin.ext; simp only at e1; omega
              subst this
              rw [q3] at e2
              cases e2
              rw [hbank] at e3
              omega
          · right
            refine ⟨?_, rfl, p, o, rfl, q3, by rw [hbank]; omega⟩
            rw [show decide (True → (mem.pageOffset p o).toNat < 0x80) = false from by
              simp only [decide_eq_false_iff_not]; intro h; exact hb (h trivial)]
            rfl

theorem finish_clean {v : Video} {r : Rng} {T : Bitmap} {a : Bool} (hm : v.mode = .DHGR) {op' : VideoOp} {v1 : Video} {r1 : Rng} {g1' : Gen}
    (h : finishFrame v r (cleanBitmap T) a = .ok (op', v1, r1, g1')) : NextAlike T a (finishFrame v r T a) op' v1 r1 g1' := by
  unfold finishFrame padOp at h ⊢
  simp only [hm] at h ⊢
  rw [targetMemory_clean] at h
  cases hmem : targetMemory .DHGR T a with
  | error e => rw [hmem] at h; cases h
  | ok mem =>
    rw [hmem] at h
    have hh := Except.ok.inj h
    simp only [Prod.mk.injEq] at hh
    obtain ⟨rfl, rfl, rfl, rfl⟩ := hh
    exact ⟨rfl, .inl ⟨_, .padding T a, rfl, rfl, rfl, rfl, .inr ⟨rfl, rfl⟩, fun h => (by cases h)⟩⟩

theorem outer_clean {t : EditTable} {T : Bitmap} {a : Bool} {dw : Grid Int} : ∀ (n : Nat) (v : Video) (r : Rng) (heap : List Entry), v.mode = .DHGR →
    ∀ (op' : VideoOp) (v1 : Video) (r1 : Rng) (g1' : Gen), outerLoop t (cleanBitmap T) a dw n v r heap = .ok (op', v1, r1, g1') →
    NextAlike T a (outerLoop t T a dw n v r heap) op' v1 r1 g1' := by
  intro n
  induction n with
  | zero => intro v r heap hm op' v1 r1 g1' h; exact finish_clean hm h
  | succ n ih =>
    intro v r heap hm op' v1 r1 g1' h
    unfold outerLoop at h ⊢
    cases hp : heapPop Entry.lt heap with
    | none => rw [hp] at h; exact finish_clean hm h
    | some eh =>
      obtain ⟨e, heap'⟩ := eh
      rw [hp] at h
      simp only at h ⊢
      generalize screenHoles e.page e.offset = b at h ⊢
      cases b with
      | true => cases h
      | false =>
        simp only [pyAssert, Bool.not_false, if_true, Except.bind_ok] at h ⊢
        by_cases hz : v.priority a e.page e.offset = 0
        · rw [if_pos hz] at h ⊢
          exact ih v r heap' hm op' v1 r1 g1' h
        · rw [if_neg hz] at h ⊢
          exact emitCell_clean hm h

theorem startFrame_clean {t : EditTable} {v : Video} {r : Rng} {T : Bitmap} {a : Bool} (hm : v.mode = .DHGR) :
    startFrame t v r (cleanBitmap T) a = startFrame t v r T a := by
    have ht : (targetMemory v.mode (cleanBitmap T) a).map (fun _ => ()) = (targetMemory v.mode T a).map (fun _ => ()) := by
      rw [hm, targetMemory_clean]
      cases targetMemory .DHGR T a <;> rfl
    unfold startFrame
    show (do
      let mem ← sourceMemory v a
      pyAssert (decide (∀ p o, screenHoles p o = true → mem.pageOffset p o = 0))
      let _ ← targetMemory v.mode (cleanBitmap T) a
      let dw ← v.mode.cls.diffWeights t v.pixelmap.packed T.packed a
      let dw := clearHoles dw
      let prio := accumulate (v.priority a) dw
      pyAssert (decide (∀ p o, prio p o ≥ 0))
      let (heap, r) := heapifyPriorities prio r
      return (v.setPriority a prio, r, dw, heap)) = _
    revert ht
    generalize targetMemory v.mode (cleanBitmap T) a = x
    generalize targetMemory v.mode T a = y
    intro ht
    cases x <;> cases y
    · cases ht; rfl
    · cases ht
    · cases ht
    · rfl

theorem startFrame_mode {t : EditTable} {v : Video} {r : Rng} {T : Bitmap} {a : Bool} {v2 : Video} {r2 : Rng} {dw : Grid Int} {heap : List Entry}
    (hs : startFrame t v r T a = .ok (v2, r2, dw, heap)) : v2.mode = v.mode := by
  unfold startFrame at hs
  refine bind_ok_elim hs fun _ hs => ?_
  refine bind_ok_elim hs fun _ hs => ?_
  refine bind_ok_elim hs fun _ hs => ?_
  refine bind_ok_elim hs fun _ hs => ?_
  extract_lets dw prio at hs
  refine bind_ok_elim hs fun _ hs => ?_
  clear_value prio dw
  generalize heapifyPriorities prio r = x at hs
  obtain ⟨x1, x2⟩ := x
  have q := Except.ok.inj hs
  rw [← (Prod.mk.inj q).1]
  unfold Video.setPriority; split <;> rfl

theorem next_clean {t : EditTable} {v : Video} {r : Rng} {g : Gen} (hm : v.mode = .DHGR) {op' : VideoOp} {v1 : Video} {r1 : Rng} {g1' : Gen}
    (h : v.next t r (cleanGen g) = .ok (op', v1, r1, g1')) : NextAlike g.target g.isAux (v.next t r g) op' v1 r1 g1' := by
  cases g with
  | running T a dw heap => exact outer_clean _ v r heap hm op' v1 r1 g1' h
  | padding T a =>
    simp only [cleanGen, Video.next, padOp, hm, targetMemory_clean] at h ⊢
    cases hmem : targetMemory .DHGR T a with
    | error e => rw [hmem] at h; cases h
    | ok mem =>
      rw [hmem] at h
      have hh := Except.ok.inj h
      simp only [Prod.mk.injEq] at hh
      obtain ⟨rfl, rfl, rfl, rfl⟩ := hh
      exact ⟨hm, .inl ⟨_, .padding T a, rfl, rfl, rfl, rfl, .inr ⟨rfl, rfl⟩, fun h => (by cases h)⟩⟩
  | notStarted T a =>
    simp only [cleanGen, Video.next] at h ⊢
    have hst := startFrame_clean (t := t) (r := r) (T := T) (a := a) hm
    · rw [hst] at h
      cases hs : startFrame t v r T a with
      | error e => rw [hs] at h; cases h
      | ok x =>
        obtain ⟨v2, r2, dw, heap⟩ := x
        rw [hs, Except.bind_ok] at h
        rw [Except.bind_ok]
        simp only at h ⊢
        have hm2 : v2.mode = .DHGR := (startFrame_mode hs).trans hm
        exact outer_clean _ v2 r2 heap hm2 op' v1 r1 g1' h

theorem next_fail {t : EditTable} {v : Video} {r : Rng} {g : Gen} (hm : v.mode = .DHGR) : FailAlike (v.next t r g) (v.next t r (cleanGen g)) := by
  intro e h
  cases g with
  | running T a dw heap => exact outer_fail _ v r heap hm e h
  | padding T a =>
    simp only [cleanGen, Video.next, padOp, hm, targetMemory_clean] at h ⊢
    cases hmem : targetMemory .DHGR T a with
    | error e => rw [hmem] at h; exact .inl h
    | ok mem => rw [hmem] at h; cases h
  | notStarted T a =>
    simp only [cleanGen, Video.next] at h ⊢
    rw [startFrame_clean hm] at h
    cases hs : startFrame t v r T a with
    | error e => rw [hs] at h; exact .inl h
    | ok x =>
      obtain ⟨v2, r2, dw, heap⟩ := x
      rw [hs, Except.bind_ok] at h
      rw [Except.bind_ok]
      exact outer_fail _ v2 r2 heap ((startFrame_mode hs).trans hm) e h

theorem new_clean (m a : MemoryMap) : DHGRBitmap.new (cleanMap m) (cleanMap a) = (DHGRBitmap.new m a).map cleanBitmap := by
  obtain ⟨b, hb⟩ : ∃ b, DHGRBitmap.new m a = .ok b := ⟨_, dhgr_new m a⟩
  obtain ⟨b', hb'⟩ : ∃ b', DHGRBitmap.new (cleanMap m) (cleanMap a) = .ok b' := ⟨_, dhgr_new _ _⟩
  have hp : b'.packed = b.packed := (C06_dhgr_lossless _ _ _ _ _ _ hb' hb).2 (by
    intro p o
    have : ∀ x : U8, x &&& 0x7f#8 &&& 0x7f#8 = x &&& 0x7f#8 := by decide +kernel
    exact ⟨this _, this _⟩)
  rw [hb, hb']
  have e1 := (dhgr_new m a).symm.trans hb
  have e2 := (dhgr_new (cleanMap m) (cleanMap a)).symm.trans hb'
  cases e1
  cases e2
  simp only [Except.map, cleanBitmap, Option.map_some, Except.ok.injEq, Bitmap.mk.injEq, true_and]
  exact hp

theorem bitmapOf_clean {M : Movie} (hm : M.mode = .DHGR) (f : Frame) :
    M.bitmapOf (cleanFrame f) = (M.bitmapOf f).map cleanBitmap := by
  unfold Movie.bitmapOf
  rw [hm]
  obtain ⟨m, x⟩ := f
  cases x with
  | none => rfl
  | some a => exact new_clean m a

/-- The coder with all palette bits removed. -/
def cleanCoder (c : Coder) : Coder :=
  { c with frames := c.frames.map cleanFrame, gen := c.gen.map cleanGen, target := c.target.map cleanBitmap }

theorem newFrame_clean {M : Movie} (hm : M.mode = .DHGR) (aux : Bool) (c : Coder) (f : Frame) :
    Coder.newFrame M aux (cleanCoder c) (cleanFrame f) = (Coder.newFrame M aux c f).map cleanCoder := by
  unfold Coder.newFrame
  rw [bitmapOf_clean hm, show (cleanCoder c).frameNumber = c.frameNumber from rfl]
  cases M.shouldEncode c.frameNumber with
  | error e => rfl
  | ok b =>
    cases b with
    | false => rfl
    | true =>
      simp only [Except.bind_ok, if_true]
      cases M.bitmapOf f with
      | error e => rfl
      | ok T => rfl

theorem fetch_clean {M : Movie} (hm : M.mode = .DHGR) (aux : Bool) (c : Coder) :
    Coder.fetch M aux (cleanCoder c) = (Coder.fetch M aux c).map (Option.map cleanCoder) := by
  unfold Coder.fetch
  by_cases h : M.thr c.frameNumber ≤ c.ticks
  · rw [if_pos h, if_pos (show M.thr (cleanCoder c).frameNumber ≤ (cleanCoder c).ticks from h)]
    show (match c.frames.map cleanFrame with
      | [] => Except.ok none
      | f :: fs => do
        let c ← Coder.newFrame M aux { cleanCoder c with frameNumber := c.frameNumber + 1, frames := fs } f
        return some c) = _
    cases c.frames with
    | nil => rfl
    | cons f fs =>
      simp only [List.map_cons]
      rw [show ({ cleanCoder c with frameNumber := c.frameNumber + 1, frames := fs.map cleanFrame } : Coder) =
        cleanCoder { c with frameNumber := c.frameNumber + 1, frames := fs } from rfl, newFrame_clean hm]
      cases Coder.newFrame M aux { c with frameNumber := c.frameNumber + 1, frames := fs } f <;> rfl
  · rw [if_neg h, if_neg (show ¬ M.thr (cleanCoder c).frameNumber ≤ (cleanCoder c).ticks from h)]; rfl

theorem flip_clean (aux : Bool) (c : Coder) : (cleanCoder c).flip aux = (c.flip aux).map cleanCoder := by
  obtain ⟨ph, au, fr, tk, fn, v, rng, gen, tgt, lb⟩ := c
  unfold Coder.flip cleanCoder
  simp only
  by_cases h : aux ≠ lb
  · rw [if_pos h, if_pos h]
    cases tgt <;> rfl
  · rw [if_neg h, if_neg h]; rfl

theorem fetch_mode {M : Movie} {aux : Bool} {c c1 : Coder} (h : Coder.fetch M aux c = .ok (some c1)) : c1.v.mode = c.v.mode := by
  unfold Coder.fetch Coder.newFrame at h
  simp only [bind, Except.bind, pure, Except.pure] at h
  repeat' split at h
  all_goals first | cases h; rfl | (rename_i h2; repeat' split at h2)
  all_goals first | (cases h2; cases h; rfl) | (cases h2; cases h) | cases h2 | cases h

theorem flip_mode {aux : Bool} {c c1 : Coder} (h : c.flip aux = .ok c1) : c1.v.mode = c.v.mode := by
  unfold Coder.flip at h
  repeat' split at h
  all_goals first | cases h; rfl | cases h

theorem tickOp_clean {M : Movie} (c : Coder) (au : Int) (hv : c.v.mode = .DHGR) :
    match (cleanCoder c).tickOp M au with
    | .error e => c.tickOp M au = .error e ∨ c.tickOp M au = .error .assertionError
    | .ok (op', c1') => (∃ op c1, c.tickOp M au = .ok (op, c1) ∧ c1' = cleanCoder c1 ∧ c1.v.mode = .DHGR ∧ AlikeOpcode op op') ∨
        c.tickOp M au = .error .assertionError := by
  obtain ⟨ph, aud, fr, tk, fn, v, rng, gen, tgt, lb⟩ := c
  unfold Coder.tickOp cleanCoder
  simp only at hv ⊢
  cases gen with
  | none => exact .inl rfl
  | some g =>
    simp only [Option.map_some]
    cases hn : v.next M.table rng (cleanGen g) with
    | error e =>
      rcases next_fail hv e hn with h | h
      · rw [h]; exact .inl rfl
      · rw [h]; exact .inr rfl
    | ok x =>
      obtain ⟨op', v1, r1, g1'⟩ := x
      obtain ⟨hv1, h | ⟨h, -⟩⟩ := next_clean hv hn
      · obtain ⟨op, g1, h, rfl, -, -, ha, -⟩ := h
        rw [h]
        simp only [Except.bind_ok]
        have hp : op.page = op'.page ∧ op.offsets = op'.offsets := by
          rcases ha with rfl | ⟨h1, h2⟩
          · exact ⟨rfl, rfl⟩
          · rw [h1, h2]; exact ⟨rfl, rfl⟩
        rw [hp.1, hp.2]
        cases ht : tickOpcodes (au * 2 + 34) op'.page with
        | error e => exact .inl rfl
        | ok tp =>
          obtain ⟨t, p⟩ := tp
          simp only [Except.bind_ok]
          by_cases hl : op'.offsets.length ≠ 4
          · unfold Opcode.newTick
            rw [if_pos hl, if_pos hl]; exact .inl rfl
          · unfold Opcode.newTick
            rw [if_neg hl, if_neg hl]
            left
            refine ⟨_, _, rfl, rfl, hv1, ?_⟩
            rcases ha with rfl | ⟨h1, h2⟩
            · exact .inl rfl
            · right
              refine ⟨t, op.content, ?_, ?_⟩
              all_goals
                have h3 : op'.page = 32 := by rw [h2]
                have h4 : op'.offsets = [0, 0, 0, 0] := by rw [h2]
                have h5 : op'.content = op.content &&& 0x7f#8 := by rw [h2]
                have h6 : p = 0 := by
                  unfold tickOpcodes at ht
                  rw [h3] at ht
                  split at ht
                  · cases ht; rfl
                  · cases ht
                rw [h6, h4]
              rw [h5]
      · rw [h]
        simp only [Except.bind_ok]
        cases ht : tickOpcodes (au * 2 + 34) op'.page with
        | error e => exact .inr rfl
        | ok tp =>
          simp only [Except.bind_ok]
          cases Opcode.newTick tp.1 tp.2 op'.content op'.offsets with
          | error e => exact .inr rfl
          | ok o => exact .inr rfl

theorem iter_clean {M : Movie} (hm : M.mode = .DHGR) (aux : Bool) (c : Coder) (au : Int) (hv : c.v.mode = .DHGR) :
    match Coder.iter M aux (cleanCoder c) au with
    | .error e => Coder.iter M aux c au = .error e ∨ Coder.iter M aux c au = .error .assertionError
    | .ok none => Coder.iter M aux c au = .ok none
    | .ok (some (op', c1')) => (∃ op c1, Coder.iter M aux c au = .ok (some (op, c1)) ∧ c1' = cleanCoder c1 ∧ c1.v.mode = .DHGR ∧ AlikeOpcode op op') ∨
        Coder.iter M aux c au = .error .assertionError := by
  unfold Coder.iter
  rw [show ({ cleanCoder c with ticks := (cleanCoder c).ticks + 1 } : Coder) = cleanCoder { c with ticks := c.ticks + 1 } from rfl, fetch_clean hm]
  cases hf : Coder.fetch M aux { c with ticks := c.ticks + 1 } with
  | error e => exact .inl rfl
  | ok x =>
    cases x with
    | none => rfl
    | some c1 =>
      have h1 : c1.v.mode = .DHGR := (fetch_mode hf).trans hv
      simp only [Except.map, Except.bind_ok, Option.map_some]
      rw [flip_clean]
      cases hfl : c1.flip aux with
      | error e => exact .inl rfl
      | ok c2 =>
        have h2 : c2.v.mode = .DHGR := (flip_mode hfl).trans h1
        simp only [Except.map, Except.bind_ok]
        have h3 := tickOp_clean (M := M) c2 au h2
        revert h3
        cases (cleanCoder c2).tickOp M au with
        | error e =>
          rintro (h | h)
          · rw [h]; exact .inl rfl
          · rw [h]; exact .inr rfl
        | ok r =>
          obtain ⟨op', c1'⟩ := r
          rintro (⟨op, c3, h, rfl, q1, q2⟩ | h)
          · rw [h]; exact .inl ⟨_, _, rfl, rfl, q1, q2⟩
          · rw [h]; exact .inr rfl

/-- One operation of the whole encoder, without and with palette bits. -/
theorem coder_clean {M : Movie} (hm : M.mode = .DHGR) (aux : Bool) (c : Coder) (hv : c.v.mode = .DHGR) :
    match Coder.next M aux (cleanCoder c) with
    | .error e => Coder.next M aux c = .error e ∨ Coder.next M aux c = .error .assertionError
    | .ok none => Coder.next M aux c = .ok none
    | .ok (some (op', c1')) => (∃ op c1, Coder.next M aux c = .ok (some (op, c1)) ∧ c1' = cleanCoder c1 ∧ c1.v.mode = .DHGR ∧ AlikeOpcode op op') ∨
        Coder.next M aux c = .error .assertionError := by
  obtain ⟨ph, aud, fr, tk, fn, v, rng, gen, tgt, lb⟩ := c
  cases ph with
  | new => exact .inl ⟨_, _, rfl, rfl, hv, .inl rfl⟩
  | header =>
    cases aud with
    | nil => rfl
    | cons x rest => exact iter_clean hm aux ⟨.loop, rest, fr, tk, fn, v, rng, gen, tgt, aux⟩ x hv
  | loop =>
    cases aud with
    | nil => rfl
    | cons x rest => exact iter_clean hm aux ⟨.loop, rest, fr, tk, fn, v, rng, gen, tgt, lb⟩ x hv

end IIVision
