import Verif.Proofs.Heap
import Verif.Proofs.Cell

/-! The frame encoder: what one resumption does, and the loop invariant. -/

namespace IIVision
open Spec

theorem priority_set (v : Video) (a : Bool) (g : Grid Int) : (v.setPriority a g).priority a = g := by
  cases a <;> rfl
theorem priority_set_ne (v : Video) (a : Bool) (g : Grid Int) :
    (v.setPriority a g).priority (!a) = v.priority (!a) := by
  cases a <;> rfl
theorem setPriority_pixelmap (v : Video) (a : Bool) (g : Grid Int) :
    (v.setPriority a g).pixelmap = v.pixelmap := by cases a <;> rfl
theorem setPriority_mode (v : Video) (a : Bool) (g : Grid Int) :
    (v.setPriority a g).mode = v.mode := by cases a <;> rfl
theorem setPriority_outOfWork (v : Video) (a : Bool) (g : Grid Int) :
    (v.setPriority a g).outOfWork = v.outOfWork := by cases a <;> rfl
theorem priority_pixelmap (v : Video) (b : Bool) (pm : Bitmap) :
    ({ v with pixelmap := pm } : Video).priority b = v.priority b := rfl

/-- What the encoder records as remaining error after storing `content` at `o`. -/
def errAfter (mode : VideoMode) (t : EditTable) (tgt : Bitmap) (isAux : Bool) (page : Fin 32)
    (content : U8) (o : Fin 256) : Nat :=
  mode.dist t (mode.kOf isAux o) (mode.cell tgt.packed isAux page o)
    (mode.cellWith tgt.packed isAux page o content)

/-- Cells of one page receiving the stores of an operation. -/
def storeAll {α : Type} (g : Grid α) (page : Fin 32) (os : List (Fin 256)) (f : Fin 256 → α) : Grid α :=
  fun p o => if p = page ∧ o ∈ os then f o else g p o

theorem storeAll_nil {α : Type} (g : Grid α) (page : Fin 32) (f : Fin 256 → α) :
    storeAll g page [] f = g := by
  funext p o; simp [storeAll]

theorem storeAll_cons {α : Type} (g : Grid α) (page : Fin 32) (x : Fin 256) (os : List (Fin 256))
    (f : Fin 256 → α) : storeAll (Grid.set g page x (f x)) page os f = storeAll g page (x :: os) f := by
  funext p o
  unfold storeAll Grid.set
  by_cases hp : p = page
  · by_cases ho : o ∈ os
    · simp [hp, ho]
    · by_cases hx : o = x
      · simp [hp, hx]
      · simp [hp, ho, hx]
  · simp [hp]

/-- The inner loop never raises, and does exactly a list of stores. -/
theorem innerLoop_ok {t : EditTable} {tgt : Bitmap} {isAux : Bool} {page : Fin 32} {content : U8}
    {offset : Fin 256} (cs : List Cand) : ∀ (s : Inner),
    AuxOk s.v.mode isAux → s.v.pixelmap.Valid s.v.mode →
    (∀ c ∈ cs, c.delta < 0 ∧ c.offset ≠ offset ∧ screenHoles page c.offset = false) →
    (cs.map (·.offset)).Nodup → s.offsets.length ≤ 2 →
    ∃ (s' : Inner) (extra : List (Fin 256)) (pushed : List Entry),
      innerLoop t tgt isAux page content offset cs s = .ok s' ∧
      extra.Sublist (cs.map (·.offset)) ∧
      s'.offsets = s.offsets ++ extra ∧ s'.offsets.length ≤ 3 ∧
      (∀ o ∈ extra, s.v.priority isAux page o ≠ 0) ∧
      s'.heap = pushed ++ s.heap ∧
      (∀ e ∈ pushed, 0 < e.key ∧ screenHoles e.page e.offset = false) ∧
      s'.v.mode = s.v.mode ∧ s'.v.pixelmap.Valid s.v.mode ∧
      s'.v.outOfWork = s.v.outOfWork ∧
      s'.v.priority isAux = storeAll (s.v.priority isAux) page extra
        (fun o => (errAfter s.v.mode t tgt isAux page content o : Int)) ∧
      s'.v.priority (!isAux) = s.v.priority (!isAux) ∧
      s'.v.pixelmap.bank isAux = storeAll (s.v.pixelmap.bank isAux) page extra (fun _ => content) ∧
      s'.v.pixelmap.bank (!isAux) = s.v.pixelmap.bank (!isAux) ∧
      extra = ((cs.map (·.offset)).filter fun o => decide (s.v.priority isAux page o ≠ 0)).take
        (3 - s.offsets.length) := by
  induction cs with
  | nil =>
    intro s hx hv _ _ hl
    refine ⟨s, [], [], rfl, List.Sublist.refl _, by simp, by omega, by simp, by simp, by simp, rfl,
      hv, rfl, ?_, rfl, ?_, rfl, by simp⟩ <;> rw [storeAll_nil]
  | cons c cs ih =>
    intro s hx hv hc hnd hl
    obtain ⟨h1, h2, h3⟩ := hc c (by simp)
    have hcs : ∀ c ∈ cs, c.delta < 0 ∧ c.offset ≠ offset ∧ screenHoles page c.offset = false :=
      fun c h => hc c (by simp [h])
    simp only [List.map_cons, List.nodup_cons] at hnd
    unfold innerLoop
    simp only [h1, h2, h3, decide_true, pyAssert, Bool.not_false, if_true, bind, Except.bind, ne_eq,
      not_false_eq_true]
    by_cases hp : s.v.priority isAux page c.offset = 0
    · rw [if_pos hp]
      obtain ⟨s', extra, pushed, g1, g2, g3⟩ := ih s hx hv hcs hnd.2 hl
      refine ⟨s', extra, pushed, g1, List.Sublist.cons _ g2, ?_⟩
      rw [List.map_cons, List.filter_cons_of_neg (by simpa using hp)]
      exact g3
    · rw [if_neg hp, byteOffset_ok hx]
      simp only
      rw [bytePairDifference_ok _ _ (kOf_lt _ _ _)]
      simp only
      obtain ⟨pm, a1, a2, a3, a4⟩ := apply_ok s.v.pixelmap hv page c.offset isAux hx content
      rw [a1]
      simp only
      have he : ((t (s.v.mode.kOf isAux c.offset)
          (s.v.mode.pairNat (s.v.mode.cls.masked (tgt.packed page ⟨c.offset.val / 2, by omega⟩)
            (s.v.mode.kOf isAux c.offset))
            (s.v.mode.cls.masked (s.v.mode.cls.maskedUpdate (s.v.mode.kOf isAux c.offset)
              (tgt.packed page ⟨c.offset.val / 2, by omega⟩) content)
              (s.v.mode.kOf isAux c.offset)))).toNat : Int)
          = (errAfter s.v.mode t tgt isAux page content c.offset : Int) := rfl
      rw [he]
      generalize hpd : t (s.v.mode.kOf isAux c.offset) _ = p
      -- the state after this store
      generalize hhr : (if ¬p = 0 then
          ((⟨((-p).toNat : Int), s.r.draw.1, page, c.offset⟩ : Entry) :: s.heap, s.r.draw.2)
        else (s.heap, s.r)) = hr
      obtain ⟨heap', r'⟩ := hr
      simp only
      obtain ⟨push1, hpush, hpk⟩ : ∃ push1 : List Entry, heap' = push1 ++ s.heap ∧
          ∀ e ∈ push1, 0 < e.key ∧ screenHoles e.page e.offset = false := by
        by_cases hz : p = 0
        · rw [if_neg (by simpa using hz)] at hhr
          exact ⟨[], by rw [← (Prod.mk.inj hhr).1]; rfl, by simp⟩
        · rw [if_pos hz] at hhr
          refine ⟨[⟨((-p).toNat : Int), s.r.draw.1, page, c.offset⟩], by
            rw [← (Prod.mk.inj hhr).1]; rfl, ?_⟩
          intro e he
          simp only [List.mem_singleton] at he
          subst he
          refine ⟨?_, h3⟩
          have : (-p).toNat ≠ 0 := by
            intro h
            apply hz
            have h' : -p = 0 := BitVec.eq_of_toNat_eq (by simpa using h)
            simpa using h'
          show (0 : Int) < ((-p).toNat : Int)
          omega
      generalize hv1 : ({ s.v.setPriority isAux (Grid.set (s.v.priority isAux) page c.offset
        (errAfter s.v.mode t tgt isAux page content c.offset : Int)) with pixelmap := pm } : Video) = v1
      have e1 : v1.mode = s.v.mode := by rw [← hv1]; exact setPriority_mode ..
      have e2 : v1.pixelmap = pm := by rw [← hv1]
      have e3 : v1.outOfWork = s.v.outOfWork := by rw [← hv1]; exact setPriority_outOfWork ..
      have e4 : v1.priority isAux = Grid.set (s.v.priority isAux) page c.offset
        (errAfter s.v.mode t tgt isAux page content c.offset : Int) := by
        rw [← hv1, priority_pixelmap, priority_set]
      have e5 : v1.priority (!isAux) = s.v.priority (!isAux) := by
        rw [← hv1, priority_pixelmap, priority_set_ne]
      by_cases h3l : (s.offsets ++ [c.offset]).length = 3
      · rw [if_pos h3l]
        refine ⟨_, [c.offset], push1, rfl, ?_, rfl, (by
          show (s.offsets ++ [c.offset]).length ≤ 3; omega), ?_, hpush, hpk, e1, ?_, e3, ?_, e5, ?_, ?_, ?_⟩
        · simp
        · intro o ho; simp at ho; subst ho; exact hp
        · show v1.pixelmap.Valid _; rw [e2]; exact a2
        · show v1.priority isAux = _
          rw [e4, ← storeAll_cons, storeAll_nil]
        · show v1.pixelmap.bank isAux = _
          rw [e2, a3, ← storeAll_cons, storeAll_nil]
        · show v1.pixelmap.bank (!isAux) = _
          rw [e2, a4]
        · rw [List.length_append, List.length_singleton] at h3l
          rw [List.map_cons, List.filter_cons_of_pos (by simpa using hp), show 3 - s.offsets.length = 1 by omega]
          rfl
      · rw [if_neg h3l]
        obtain ⟨s', extra, pushed, g1, g2, g3, g4, g5, g6, g7, g8, g9, g10, g11, g12, g13, g14, g15⟩ :=
          ih ⟨v1, heap', r', s.offsets ++ [c.offset]⟩ (by rw [e1]; exact hx)
            (by show v1.pixelmap.Valid v1.mode; rw [e1, e2]; exact a2) hcs hnd.2
            (by simp at h3l ⊢; omega)
        simp only [e1, e2, e3, e4, e5] at g5 g8 g9 g10 g11 g12 g13 g14 g15
        refine ⟨s', c.offset :: extra, pushed ++ push1, g1, ?_, ?_, g4, ?_, ?_, ?_, g8, g9, g10,
          ?_, g12, ?_, ?_, ?_⟩
        · exact List.Sublist.cons_cons _ g2
        · rw [g3]; simp
        · intro o ho
          simp only [List.mem_cons] at ho
          rcases ho with rfl | ho
          · exact hp
          · have := g5 o ho
            unfold Grid.set at this
            rw [if_neg] at this
            · exact this
            · rintro ⟨-, rfl⟩
              exact hnd.1 (g2.subset ho)
        · rw [g6, hpush, List.append_assoc]
        · intro e he
          rcases List.mem_append.mp he with he | he
          · exact g7 e he
          · exact hpk e he
        · rw [g11, ← storeAll_cons]
        · rw [g13, a3, ← storeAll_cons]
        · rw [g14, a4]
        · rw [List.length_append, List.length_singleton] at h3l g15
          have hlt : s.offsets.length ≤ 1 := by omega
          rw [List.map_cons, List.filter_cons_of_pos (by simpa using hp),
            show 3 - s.offsets.length = (3 - (s.offsets.length + 1)) + 1 by omega, List.take_succ_cons, g15]
          refine congrArg (c.offset :: List.take (3 - (s.offsets.length + 1)) ·) ?_
          refine List.filter_congr fun o ho => ?_
          have hne : o ≠ c.offset := fun h => hnd.1 (h ▸ ho)
          unfold Grid.set
          rw [if_neg (fun h => hne h.2)]


/-- The error `_compute_error` charges for storing `content` at `o`. -/
def errNew (mode : VideoMode) (t : EditTable) (tgt : Bitmap) (isAux : Bool) (page : Fin 32)
    (content : U8) (o : Fin 256) : Nat :=
  mode.dist t (mode.kOf isAux o) (mode.cellWith tgt.packed isAux page o content)
    (mode.cell tgt.packed isAux page o)

theorem computeError_ok {mode : VideoMode} {isAux : Bool} (hx : AuxOk mode isAux) (t : EditTable)
    (page : Fin 32) (content : U8) (tgt : Bitmap) (dw : Fin 256 → Int) (r : Rng) :
    ∃ cands r', computeError mode.cls t page content tgt dw isAux r = .ok (cands, r') ∧
      (∀ c ∈ cands, c.delta < 0 ∧
        c.delta = (errNew mode t tgt isAux page content c.offset : Int) - dw c.offset) ∧
      (cands.map (·.offset)).Nodup ∧ cands.Pairwise (fun a b => a.delta ≤ b.delta) ∧
      ∀ o, (errNew mode t tgt isAux page content o : Int) - dw o < 0 → o ∈ cands.map (·.offset) := by
  unfold computeError
  rw [computeDeltaPage_ok mode hx]
  simp only [bind, Except.bind, pure, Except.pure]
  refine ⟨_, _, rfl, ?_, ?_, ?_, ?_⟩
  · intro c hc
    rw [(heapDrain_perm _ _ (Nat.le_refl _)).mem_iff] at hc
    obtain ⟨o, ho, n, rfl⟩ := mapDraw_mem hc
    simp only [List.mem_filter, decide_eq_true_eq] at ho
    exact ⟨ho.2, rfl⟩
  · refine ((heapDrain_perm _ _ (Nat.le_refl _)).map _).nodup_iff.mpr ?_
    rw [mapDraw_map _ (fun c : Cand => c.offset) id (fun _ _ => rfl), List.map_id]
    exact (List.nodup_finRange 256).filter _
  · exact heapDrain_sorted (·.delta) (fun a b => (Cand.lt_key a b).1)
      (fun a b => (Cand.lt_key a b).2) _ _ (Nat.le_refl _)
  · intro o ho
    rw [((heapDrain_perm _ _ (Nat.le_refl _)).map _).mem_iff,
      mapDraw_map _ (fun c : Cand => c.offset) id (fun _ _ => rfl), List.map_id]
    simp only [List.mem_filter, decide_eq_true_eq]
    exact ⟨List.mem_finRange o, ho⟩

/-- Snapshot of a bank at the start of a frame. -/
structure Snap where
  /-- pending priority after accumulating the new frame's weights -/
  P0 : Grid Int
  /-- diff weights (zero in screen holes) -/
  dw0 : Grid Int
  /-- memory of the bank -/
  m0 : Mem

/-- Invariant of a started, not yet exhausted frame encoder. -/
structure RunInv (t : EditTable) (v : Video) (tgt : Bitmap) (isAux : Bool) (dw : Grid Int)
    (heap : List Entry) (S : Snap) : Prop where
  aux : AuxOk v.mode isAux
  valid : v.pixelmap.Valid v.mode
  tvalid : tgt.Valid v.mode
  tclean : v.mode = .DHGR → ∀ p o, (tgt.bank isAux p o).toNat < 0x80
  dw_range : ∀ p o, 0 ≤ dw p o ∧ dw p o ≤ S.dw0 p o
  dw0_hole : ∀ p o, screenHoles p o = true → S.dw0 p o = 0
  pend : ∀ p o, v.priority isAux p o ≠ 0 → dw p o = S.dw0 p o ∧ 0 < S.dw0 p o
  nonneg : ∀ p o, 0 ≤ v.priority isAux p o
  heapHole : ∀ e ∈ heap, screenHoles e.page e.offset = false
  heapOrig : ∀ e ∈ heap, e.key ≤ 0 → e.key = - S.P0 e.page e.offset
  inHeap : ∀ p o, v.priority isAux p o ≠ 0 →
    0 < S.P0 p o ∧ ∃ e ∈ heap, e.page = p ∧ e.offset = o ∧ e.key = - S.P0 p o
  untouched : ∀ p o, S.dw0 p o = 0 → v.pixelmap.bank isAux p o = S.m0 p o
  settled : ∀ p o, S.dw0 p o ≠ 0 → v.priority isAux p o = 0 →
    v.pixelmap.bank isAux p o = tgt.bank isAux p o ∨
    errAfter v.mode t tgt isAux p (v.pixelmap.bank isAux p o) o = 0

theorem targetMemory_ok {mode : VideoMode} {tgt : Bitmap} {isAux : Bool} (hx : AuxOk mode isAux)
    (hv : tgt.Valid mode) : ∃ mem, targetMemory mode tgt isAux = .ok mem ∧
      mem.pageOffset = tgt.bank isAux := by
  unfold targetMemory
  cases isAux with
  | false => exact ⟨_, by simp, rfl⟩
  | true =>
    have hm := hx rfl
    subst hm
    obtain ⟨a, ha⟩ : ∃ a, tgt.aux = some a := by
      have := hv.auxSome; simp [Option.isSome_iff_exists] at this; exact this
    refine ⟨a, by simp [ha], ?_⟩
    simp [Bitmap.bank, ha]

/-- What emitting one operation does. -/
structure Emitted (t : EditTable) (v : Video) (tgt : Bitmap) (isAux : Bool) (S : Snap)
    (op : VideoOp) (v' : Video) (page : Fin 32) (offset : Fin 256) (extra : List (Fin 256)) :
    Prop where
  opPage : op.page = page.val + 32
  opContent : op.content = tgt.bank isAux page offset
  opOffsets : op.offsets = (offset :: extra) ++ List.replicate (3 - extra.length) offset
  few : extra.length ≤ 2
  nodup : (offset :: extra).Nodup
  visible : ∀ o ∈ offset :: extra, screenHoles page o = false
  pending : ∀ o ∈ offset :: extra, v.priority isAux page o ≠ 0
  better : ∀ o ∈ extra,
    (errNew v.mode t tgt isAux page op.content o : Int) < S.dw0 page o
  mode : v'.mode = v.mode
  valid : v'.pixelmap.Valid v.mode
  outOfWork : v'.outOfWork = v.outOfWork
  prio : v'.priority isAux = storeAll (Grid.set (v.priority isAux) page offset 0) page extra
    (fun o => (errAfter v.mode t tgt isAux page op.content o : Int))
  prioOther : v'.priority (!isAux) = v.priority (!isAux)
  bank : v'.pixelmap.bank isAux
    = storeAll (v.pixelmap.bank isAux) page (offset :: extra) (fun _ => op.content)
  bankOther : v'.pixelmap.bank (!isAux) = v.pixelmap.bank (!isAux)
  best : ∀ o, o ≠ offset → v.priority isAux page o ≠ 0 →
    (errNew v.mode t tgt isAux page op.content o : Int) < S.dw0 page o → o ∉ extra →
    extra.length = 2 ∧ ∀ x ∈ extra, (errNew v.mode t tgt isAux page op.content x : Int) - S.dw0 page x
      ≤ (errNew v.mode t tgt isAux page op.content o : Int) - S.dw0 page o

theorem emitCell_ok {t : EditTable} {v : Video} {tgt : Bitmap} {isAux : Bool} {dw : Grid Int}
    {heap : List Entry} {S : Snap} (hI : RunInv t v tgt isAux dw heap S) (heap0 : List Entry)
    (page : Fin 32) (offset : Fin 256) (hsub : ∀ e ∈ heap0, e ∈ heap)
    (hall : ∀ e ∈ heap, e ∈ heap0 ∨ (e.page = page ∧ e.offset = offset))
    (hp : v.priority isAux page offset ≠ 0) (hh : screenHoles page offset = false) (r : Rng) :
    ∃ op v' r' dw' heap' extra,
      emitCell t v r tgt isAux dw heap0 page offset = .ok (op, v', r', .running tgt isAux dw' heap') ∧
      Emitted t v tgt isAux S op v' page offset extra ∧ RunInv t v' tgt isAux dw' heap' S := by
  obtain ⟨mem, hmem, hmb⟩ := targetMemory_ok hI.aux hI.tvalid
  unfold emitCell
  rw [hmem]
  simp only [bind, Except.bind]
  rw [hmb]
  generalize hcd : tgt.bank isAux page offset = content
  have hassert : pyAssert (decide (v.mode = .DHGR → content.toNat < 0x80)) = .ok () := by
    rw [decide_eq_true]
    · rfl
    · intro hm
      have := hI.tclean hm page offset
      rwa [hcd] at this
  rw [hassert]
  simp only
  generalize hv0 : v.setPriority isAux (Grid.set (v.priority isAux) page offset 0) = v0
  have e0m : v0.mode = v.mode := by rw [← hv0]; exact setPriority_mode ..
  have e0p : v0.pixelmap = v.pixelmap := by rw [← hv0]; exact setPriority_pixelmap ..
  have e0o : v0.outOfWork = v.outOfWork := by rw [← hv0]; exact setPriority_outOfWork ..
  have e0q : v0.priority isAux = Grid.set (v.priority isAux) page offset 0 := by
    rw [← hv0]; exact priority_set ..
  have e0r : v0.priority (!isAux) = v.priority (!isAux) := by rw [← hv0]; exact priority_set_ne ..
  obtain ⟨pm, a1, a2, a3, a4⟩ := apply_ok v.pixelmap hI.valid page offset isAux hI.aux content
  rw [e0p, e0m, a1]
  simp only
  generalize hdw : Grid.set dw page offset 0 = dw1
  obtain ⟨cands, r1, c1, c2, c3, c4, c5⟩ :=
    computeError_ok hI.aux t page content tgt (dw1 page) r
  rw [c1]
  simp only
  generalize hv1 : ({ v0 with mode := v.mode, pixelmap := pm } : Video) = v1
  have e1m : v1.mode = v.mode := by rw [← hv1]
  have e1p : v1.pixelmap = pm := by rw [← hv1]
  have e1o : v1.outOfWork = v.outOfWork := by rw [← hv1]; exact e0o
  have e1q : v1.priority isAux = Grid.set (v.priority isAux) page offset 0 := by
    rw [← hv1]; exact e0q
  have e1r : v1.priority (!isAux) = v.priority (!isAux) := by
    rw [← hv1]; exact e0r
  have hdwr : ∀ p o, 0 ≤ dw1 p o ∧ dw1 p o ≤ S.dw0 p o := by
    intro p o
    rw [← hdw]
    unfold Grid.set
    have := hI.dw_range p o
    split <;> omega
  have hcand : ∀ c ∈ cands, c.delta < 0 ∧ c.offset ≠ offset ∧
      screenHoles page c.offset = false := by
    intro c hc
    obtain ⟨d1, d2⟩ := c2 c hc
    have hpos : 0 < dw1 page c.offset := by omega
    refine ⟨d1, ?_, ?_⟩
    · intro h
      rw [h, ← hdw] at hpos
      simp [Grid.set] at hpos
    · by_contra hne
      have := hI.dw0_hole page c.offset (by simpa using hne)
      have := (hdwr page c.offset).2
      omega
  obtain ⟨s', extra, pushed, g1, g2, g3, g4, g5, g6, g7, g8, g9, g10, g11, g12, g13, g14, g15⟩ :=
    innerLoop_ok (t := t) (tgt := tgt) (isAux := isAux) (page := page) (content := content)
      (offset := offset) cands ⟨v1, heap0, r1, [offset]⟩ (by rw [e1m]; exact hI.aux)
      (by show v1.pixelmap.Valid v1.mode; rw [e1m, e1p]; exact a2) hcand c3 (by simp)
  rw [g1]
  simp only [pure, Except.pure]
  simp only [e1m, e1p, e1o, e1q, e1r] at g5 g8 g9 g10 g11 g12 g13 g14 g15
  have hexm : ∀ o ∈ extra, ∃ c ∈ cands, c.offset = o := by
    intro o ho
    have := g2.subset ho
    simpa using this
  have hlen : extra.length ≤ 2 := by rw [g3] at g4; simpa using g4
  have hoff : offset ∉ extra := by
    intro ho
    obtain ⟨c, hc, h⟩ := hexm offset ho
    exact (hcand c hc).2.1 h
  have hpend : ∀ o ∈ extra, v.priority isAux page o ≠ 0 := by
    intro o ho
    have := g5 o ho
    unfold Grid.set at this
    rw [if_neg] at this
    · exact this
    · rintro ⟨-, rfl⟩
      exact hoff ho
  have hbank : s'.v.pixelmap.bank isAux
      = storeAll (v.pixelmap.bank isAux) page (offset :: extra) (fun _ => content) := by
    rw [g13, a3, ← storeAll_cons]
  have hem : Emitted t v tgt isAux S
      ⟨page.val + 32, content, padOffsets offset s'.offsets⟩ s'.v page offset extra := by
    refine ⟨rfl, hcd.symm, ?_, hlen, List.nodup_cons.mpr ⟨hoff, g2.nodup c3⟩, ?_, ?_, ?_, g8, g9, g10,
      g11, g12, hbank, g14.trans a4, ?_⟩
    · show padOffsets offset s'.offsets = _
      rw [g3]
      unfold padOffsets
      simp
    · intro o ho
      simp only [List.mem_cons] at ho
      rcases ho with rfl | ho
      · exact hh
      · obtain ⟨c, hc, rfl⟩ := hexm o ho
        exact (hcand c hc).2.2
    · intro o ho
      simp only [List.mem_cons] at ho
      rcases ho with rfl | ho
      · exact hp
      · exact hpend o ho
    · intro o ho
      obtain ⟨c, hc, rfl⟩ := hexm o ho
      obtain ⟨d1, d2⟩ := c2 c hc
      have := (hdwr page c.offset).2
      show (errNew v.mode t tgt isAux page content c.offset : Int) < _
      omega
    · intro o hne hpo hlt hno
      change (errNew v.mode t tgt isAux page content o : Int) < _ at hlt
      have hdo : ∀ x, x ≠ offset → v.priority isAux page x ≠ 0 → dw1 page x = S.dw0 page x := by
        intro x hx hpx
        rw [← hdw]
        unfold Grid.set
        rw [if_neg (fun h => hx h.2)]
        exact (hI.pend page x hpx).1
      have hoc := c5 o (by rw [hdo o hne hpo]; omega)
      have hsort : (cands.map (·.offset)).Pairwise fun a b =>
          (errNew v.mode t tgt isAux page content a : Int) - dw1 page a
            ≤ (errNew v.mode t tgt isAux page content b : Int) - dw1 page b := by
        rw [List.pairwise_map]
        refine c4.imp_of_mem fun {a b} ha hb h => ?_
        rw [← (c2 a ha).2, ← (c2 b hb).2]
        exact h
      rw [List.length_singleton] at g15
      generalize hfl : (cands.map (·.offset)).filter (fun o => decide
        (Grid.set (v.priority isAux) page offset 0 page o ≠ 0)) = fl at g15
      have hof : o ∈ fl := by
        rw [← hfl, List.mem_filter]
        refine ⟨hoc, ?_⟩
        unfold Grid.set
        rw [if_neg (fun h => hne h.2)]
        simpa using hpo
      have hsf := hsort.filter (fun o => decide (Grid.set (v.priority isAux) page offset 0 page o ≠ 0))
      rw [hfl] at hsf
      have hsplit : extra ++ fl.drop 2 = fl := by rw [g15]; exact List.take_append_drop 2 fl
      have hod : o ∈ fl.drop 2 := by
        rw [← hsplit] at hof
        exact (List.mem_append.mp hof).resolve_left hno
      constructor
      · rw [g15, List.length_take]
        have := List.length_pos_of_mem hod
        rw [List.length_drop] at this
        omega
      · intro x hx
        rw [← hsplit] at hsf
        have := (List.pairwise_append.mp hsf).2.2 x hx o hod
        rw [hdo o hne hpo, hdo x (fun h => hoff (h ▸ hx)) (hpend x hx)] at this
        exact this
  refine ⟨_, _, _, _, _, extra, rfl, hem, ?_⟩
  have hprio : ∀ p o, s'.v.priority isAux p o =
      if p = page ∧ o ∈ extra then (errAfter v.mode t tgt isAux page content o : Int)
      else if p = page ∧ o = offset then 0 else v.priority isAux p o := by
    intro p o; rw [g11]; rfl
  have hnz : ∀ p o, s'.v.priority isAux p o ≠ 0 → v.priority isAux p o ≠ 0 ∧
      ¬(p = page ∧ o = offset) := by
    intro p o h
    rw [hprio] at h
    by_cases h1 : p = page ∧ o ∈ extra
    · obtain ⟨rfl, ho⟩ := h1
      exact ⟨hpend o ho, fun h => hoff (h.2 ▸ ho)⟩
    · rw [if_neg h1] at h
      by_cases h2 : p = page ∧ o = offset
      · rw [if_pos h2] at h; exact absurd rfl h
      · rw [if_neg h2] at h; exact ⟨h, h2⟩
  have hbk : ∀ p o, s'.v.pixelmap.bank isAux p o =
      if p = page ∧ o ∈ offset :: extra then content else v.pixelmap.bank isAux p o := by
    intro p o; rw [hbank]; rfl
  constructor
  · rw [g8]; exact hI.aux
  · rw [g8]; exact g9
  · rw [g8]; exact hI.tvalid
  · rw [g8]; exact hI.tclean
  · exact hdwr
  · exact hI.dw0_hole
  · intro p o h
    obtain ⟨h1, h2⟩ := hnz p o h
    have := hI.pend p o h1
    refine ⟨?_, this.2⟩
    rw [← hdw]
    unfold Grid.set
    rw [if_neg h2]
    exact this.1
  · intro p o
    rw [hprio]
    have := hI.nonneg p o
    split
    · omega
    · split <;> omega
  · intro e he
    rw [g6] at he
    rcases List.mem_append.mp he with he | he
    · exact (g7 e he).2
    · exact hI.heapHole e (hsub e he)
  · intro e he hk
    rw [g6] at he
    rcases List.mem_append.mp he with he | he
    · have := (g7 e he).1; omega
    · exact hI.heapOrig e (hsub e he) hk
  · intro p o h
    obtain ⟨h1, h2⟩ := hnz p o h
    obtain ⟨i1, e, i2, i3, i4, i5⟩ := hI.inHeap p o h1
    refine ⟨i1, e, ?_, i3, i4, i5⟩
    rw [g6]
    refine List.mem_append.mpr (.inr ?_)
    rcases hall e i2 with h | h
    · exact h
    · exact absurd ⟨i3.symm.trans h.1, i4.symm.trans h.2⟩ h2
  · intro p o h
    rw [hbk, if_neg, hI.untouched p o h]
    rintro ⟨rfl, ho⟩
    have := hem.pending o ho
    have := (hI.pend p o this).2
    omega
  · intro p o h0 hz
    rw [g8]
    by_cases hmem : p = page ∧ o ∈ offset :: extra
    · rw [hbk, if_pos hmem]
      obtain ⟨rfl, ho⟩ := hmem
      rcases List.mem_cons.mp ho with rfl | ho
      · exact .inl hcd.symm
      · right
        rw [hprio, if_pos ⟨rfl, ho⟩] at hz
        exact_mod_cast hz
    · rw [hbk, if_neg hmem]
      apply hI.settled p o h0
      rw [hprio] at hz
      have n1 : ¬(p = page ∧ o ∈ extra) := fun h => hmem ⟨h.1, List.mem_cons_of_mem _ h.2⟩
      have n2 : ¬(p = page ∧ o = offset) := fun h => hmem ⟨h.1, by rw [h.2]; exact List.mem_cons_self ..⟩
      rw [if_neg n1, if_neg n2] at hz
      exact hz

theorem RunInv.pop {t : EditTable} {v : Video} {tgt : Bitmap} {isAux : Bool} {dw : Grid Int}
    {heap : List Entry} {S : Snap} (hI : RunInv t v tgt isAux dw heap S) {e : Entry}
    (hz : v.priority isAux e.page e.offset = 0) : RunInv t v tgt isAux dw (heap.erase e) S := by
  refine { hI with heapHole := ?_, heapOrig := ?_, inHeap := ?_ }
  · intro x hx; exact hI.heapHole x (List.mem_of_mem_erase hx)
  · intro x hx; exact hI.heapOrig x (List.mem_of_mem_erase hx)
  · intro p o h
    obtain ⟨i1, x, i2, i3, i4, i5⟩ := hI.inHeap p o h
    refine ⟨i1, x, ?_, i3, i4, i5⟩
    rw [List.mem_erase_of_ne]
    · exact i2
    · rintro rfl
      rw [i3, i4] at hz
      exact h hz

/-- The state after the encoder has noticed that nothing is left to do. -/
def Video.exhausted (v : Video) (isAux : Bool) : Video :=
  { v with outOfWork := fun b => if b = isAux then true else v.outOfWork b }

theorem finishFrame_ok {v : Video} {tgt : Bitmap} {isAux : Bool} (hx : AuxOk v.mode isAux)
    (hv : tgt.Valid v.mode) (r : Rng) : finishFrame v r tgt isAux
      = .ok (⟨32, tgt.bank isAux 0 0, [0, 0, 0, 0]⟩, v.exhausted isAux, r, .padding tgt isAux) := by
  obtain ⟨mem, hmem, hmb⟩ := targetMemory_ok hx hv
  unfold finishFrame padOp
  simp only [hmem, bind, Except.bind, pure, Except.pure, hmb]
  rfl

/-- Resuming a started encoder either emits one operation for a pending cell whose
frame-start priority is maximal among the pending ones, or there is no pending cell
and it starts padding. -/
theorem outerLoop_ok {t : EditTable} {tgt : Bitmap} {isAux : Bool} {dw : Grid Int} {S : Snap}
    {v : Video} (r : Rng) : ∀ (n : Nat) (heap : List Entry), heap.length ≤ n →
    RunInv t v tgt isAux dw heap S →
    (∃ op v' r' dw' heap' page offset extra,
      outerLoop t tgt isAux dw n v r heap = .ok (op, v', r', .running tgt isAux dw' heap') ∧
      Emitted t v tgt isAux S op v' page offset extra ∧ RunInv t v' tgt isAux dw' heap' S ∧
      ∀ p o, v.priority isAux p o ≠ 0 → S.P0 p o ≤ S.P0 page offset) ∨
    ((∀ p o, v.priority isAux p o = 0) ∧
      outerLoop t tgt isAux dw n v r heap
        = .ok (⟨32, tgt.bank isAux 0 0, [0, 0, 0, 0]⟩, v.exhausted isAux, r, .padding tgt isAux)) := by
  intro n
  induction n with
  | zero =>
    intro heap hl hI
    have : heap = [] := List.length_eq_zero_iff.mp (by omega)
    subst this
    right
    constructor
    · intro p o
      by_contra h
      obtain ⟨-, e, he, -⟩ := hI.inHeap p o h
      simp at he
    · exact finishFrame_ok hI.aux hI.tvalid r
  | succ n ih =>
    intro heap hl hI
    by_cases hne : heap = []
    · subst hne
      right
      constructor
      · intro p o
        by_contra h
        obtain ⟨-, e, he, -⟩ := hI.inHeap p o h
        simp at he
      · exact finishFrame_ok hI.aux hI.tvalid r
    · obtain ⟨e, hpop, hmem⟩ := heapPop_some (lt := Entry.lt) hne
      have hkey := heapPop_key (·.key) (fun a b => (Entry.lt_key a b).1)
        (fun a b => (Entry.lt_key a b).2) hpop
      have hhole := hI.heapHole e hmem
      have hstep : outerLoop t tgt isAux dw (n + 1) v r heap =
          if v.priority isAux e.page e.offset = 0 then
            outerLoop t tgt isAux dw n v r (heap.erase e)
          else emitCell t v r tgt isAux dw (heap.erase e) e.page e.offset := by
        show (match heapPop Entry.lt heap with
          | none => _
          | some (e, heap) => _) = _
        simp only [hpop, hhole, pyAssert, Bool.not_false, if_true, bind, Except.bind]
      rw [hstep]
      by_cases hz : v.priority isAux e.page e.offset = 0
      · rw [if_pos hz]
        refine ih (heap.erase e) ?_ (hI.pop hz)
        rw [List.length_erase_of_mem hmem]
        omega
      · rw [if_neg hz]
        left
        obtain ⟨op, v', r', dw', heap', extra, h1, h2, h3⟩ := emitCell_ok hI (heap.erase e) e.page
          e.offset (fun x hx => List.mem_of_mem_erase hx) (by
            intro x hx
            by_cases hxe : x = e
            · exact .inr ⟨by rw [hxe], by rw [hxe]⟩
            · exact .inl ((List.mem_erase_of_ne hxe).mpr hx)) hz hhole r
        refine ⟨op, v', r', dw', heap', e.page, e.offset, extra, h1, h2, h3, ?_⟩
        intro p o h
        obtain ⟨i1, x, i2, i3, i4, i5⟩ := hI.inHeap p o h
        have hk : e.key ≤ x.key := hkey x i2
        have := hI.heapOrig e hmem (by omega)
        omega

/-- Frame-start diff weights. -/
def startWeights (mode : VideoMode) (t : EditTable) (src tgt : Packed) (isAux : Bool) : Grid Int :=
  fun p o => if screenHoles p o then 0 else
    (mode.dist t (mode.kOf isAux o) (mode.cell src isAux p o) (mode.cell tgt isAux p o) : Int)

/-- Frame-start priorities. -/
def startPrio (old dw : Grid Int) : Grid Int :=
  fun p o => (if dw p o = 0 then 0 else old p o) + dw p o

theorem startWeights_range (mode : VideoMode) (t : EditTable) (src tgt : Packed) (isAux : Bool)
    (p : Fin 32) (o : Fin 256) : 0 ≤ startWeights mode t src tgt isAux p o ∧
      startWeights mode t src tgt isAux p o ≤ 65535 := by
  unfold startWeights
  have := dist_lt mode t (mode.kOf isAux o) (mode.cell src isAux p o) (mode.cell tgt isAux p o)
  split <;> omega

theorem wrap32_id {x : Int} (h0 : 0 ≤ x) (h1 : x < 2 ^ 31) : wrap32 x = x := by
  unfold wrap32
  rw [Int.bmod_eq_of_le] <;> omega

/-- What a frame start needs of the encoder state and the target. -/
structure StartOk (v : Video) (tgt : Bitmap) (isAux : Bool) : Prop where
  aux : AuxOk v.mode isAux
  valid : v.pixelmap.Valid v.mode
  tvalid : tgt.Valid v.mode
  tclean : v.mode = .DHGR → ∀ p o, (tgt.bank isAux p o).toNat < 0x80
  holes : ∀ p o, screenHoles p o = true → v.pixelmap.bank isAux p o = 0
  prio : ∀ p o, 0 ≤ v.priority isAux p o ∧ v.priority isAux p o + 65535 < 2 ^ 31

/-- The frame-start snapshot. -/
def snapOf (t : EditTable) (v : Video) (tgt : Bitmap) (isAux : Bool) : Snap :=
  let dw := startWeights v.mode t v.pixelmap.packed tgt.packed isAux
  ⟨startPrio (v.priority isAux) dw, dw, v.pixelmap.bank isAux⟩

theorem sourceMemory_ok {v : Video} {isAux : Bool} (hx : AuxOk v.mode isAux)
    (hv : v.pixelmap.Valid v.mode) : ∃ mem, sourceMemory v isAux = .ok mem ∧
      mem.pageOffset = v.pixelmap.bank isAux := by
  unfold sourceMemory
  cases isAux with
  | false => exact ⟨_, rfl, rfl⟩
  | true =>
    obtain ⟨a, ha⟩ : ∃ a, v.pixelmap.aux = some a := by
      have := hv.auxSome
      rw [hx rfl] at this
      simp [Option.isSome_iff_exists] at this; exact this
    exact ⟨a, by simp [ha], by simp [Bitmap.bank, ha]⟩

attribute [local irreducible] allCells screenHoles heapifyPriorities in
theorem startFrame_ok {t : EditTable} {v : Video} {tgt : Bitmap} {isAux : Bool}
    (h : StartOk v tgt isAux) (r : Rng) :
    ∃ r' heap, startFrame t v r tgt isAux
        = .ok (v.setPriority isAux (snapOf t v tgt isAux).P0, r', (snapOf t v tgt isAux).dw0, heap) ∧
      RunInv t (v.setPriority isAux (snapOf t v tgt isAux).P0) tgt isAux (snapOf t v tgt isAux).dw0
        heap (snapOf t v tgt isAux) := by
  obtain ⟨mem, hmem, hmb⟩ := targetMemory_ok h.aux h.tvalid
  obtain ⟨smem, hsm, hsb⟩ := sourceMemory_ok h.aux h.valid
  have hdw := startWeights_range v.mode t v.pixelmap.packed tgt.packed isAux
  have hclear : clearHoles (fun p o => (v.mode.dist t (v.mode.kOf isAux o)
      (v.mode.cell v.pixelmap.packed isAux p o) (v.mode.cell tgt.packed isAux p o) : Int))
      = startWeights v.mode t v.pixelmap.packed tgt.packed isAux := rfl
  have hprio : accumulate (v.priority isAux)
      (startWeights v.mode t v.pixelmap.packed tgt.packed isAux) = (snapOf t v tgt isAux).P0 := by
    funext p o
    have := hdw p o
    have := h.prio p o
    show wrap32 _ = _
    rw [wrap32_id]
    · rfl
    · split <;> omega
    · split <;> omega
  have hP0 : ∀ p o, (snapOf t v tgt isAux).P0 p o
      = (if startWeights v.mode t v.pixelmap.packed tgt.packed isAux p o = 0 then 0
        else v.priority isAux p o) + startWeights v.mode t v.pixelmap.packed tgt.packed isAux p o :=
    fun p o => rfl
  have hP0n : ∀ p o, 0 ≤ (snapOf t v tgt isAux).P0 p o := by
    intro p o
    have := hdw p o
    have := h.prio p o
    rw [hP0]
    split <;> omega
  refine ⟨(heapifyPriorities (snapOf t v tgt isAux).P0 r).2,
    (heapifyPriorities (snapOf t v tgt isAux).P0 r).1, ?_, ?_⟩
  · unfold startFrame
    simp only [hsm, bind, Except.bind]
    rw [show pyAssert (decide (∀ p o, screenHoles p o = true → smem.pageOffset p o = 0)) = .ok () by
      rw [decide_eq_true]
      · rfl
      · intro p o hh; rw [hsb]; exact h.holes p o hh]
    simp only
    rw [hmem]
    simp only
    rw [diffWeights_ok v.mode h.aux]
    simp only
    rw [hclear, hprio]
    rw [show pyAssert (decide (∀ p o, (snapOf t v tgt isAux).P0 p o ≥ 0)) = .ok () by
      rw [decide_eq_true]
      · rfl
      · exact hP0n]
    rfl
  · constructor
    · rw [setPriority_mode]; exact h.aux
    · rw [setPriority_mode, setPriority_pixelmap]; exact h.valid
    · rw [setPriority_mode]; exact h.tvalid
    · rw [setPriority_mode]; exact h.tclean
    · intro p o; exact ⟨(hdw p o).1, Int.le_refl _⟩
    · intro p o hh
      show startWeights _ _ _ _ _ _ _ = 0
      unfold startWeights
      rw [if_pos hh]
    · intro p o hne
      rw [priority_set, hP0] at hne
      refine ⟨rfl, ?_⟩
      show 0 < startWeights v.mode t v.pixelmap.packed tgt.packed isAux p o
      have := hdw p o
      by_cases h0 : startWeights v.mode t v.pixelmap.packed tgt.packed isAux p o = 0
      · rw [h0] at hne; simp at hne
      · omega
    · intro p o; rw [priority_set]; exact hP0n p o
    · intro e he
      by_contra hh
      apply (heapify_mem he).2
      rw [hP0]
      have : startWeights v.mode t v.pixelmap.packed tgt.packed isAux e.page e.offset = 0 := by
        unfold startWeights
        rw [if_pos (by simpa using hh)]
      rw [this]; simp
    · intro e he _
      exact (heapify_mem he).1
    · intro p o hne
      rw [priority_set] at hne
      have := hP0n p o
      exact ⟨by omega, heapify_mem' r hne⟩
    · intro p o _; rw [setPriority_pixelmap]; rfl
    · intro p o h0 hz
      rw [priority_set, hP0] at hz
      exfalso
      have := hdw p o
      have := h.prio p o
      have h0' : startWeights v.mode t v.pixelmap.packed tgt.packed isAux p o ≠ 0 := h0
      rw [if_neg h0'] at hz
      omega

end IIVision
