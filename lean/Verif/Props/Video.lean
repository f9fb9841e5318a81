import Verif.Proofs.Encoder
import Verif.Model.Colours

/-! C15-C22: the frame encoder under arbitrary histories. -/

namespace IIVision
open Spec

/-! ### Stores of an operation on the player -/

theorem bankOf_store (m : Mem × Mem) (a : Bool) (p : Fin 32) (o : Fin 256) (c : U8) :
    bankOf (storeBank m a p o c) a = Grid.set (bankOf m a) p o c ∧
    bankOf (storeBank m a p o c) (!a) = bankOf m (!a) := by
  cases a <;> exact ⟨rfl, rfl⟩

theorem bankOf_stores (a : Bool) (p : Fin 32) (c : U8) (os : List (Fin 256)) : ∀ m : Mem × Mem,
    bankOf (os.foldl (fun m o => storeBank m a p o c) m) a = storeAll (bankOf m a) p os (fun _ => c) ∧
    bankOf (os.foldl (fun m o => storeBank m a p o c) m) (!a) = bankOf m (!a) := by
  induction os with
  | nil => intro m; exact ⟨(storeAll_nil _ _ _).symm, rfl⟩
  | cons o os ih =>
    intro m
    obtain ⟨h1, h2⟩ := ih (storeBank m a p o c)
    obtain ⟨g1, g2⟩ := bankOf_store m a p o c
    refine ⟨?_, by rw [List.foldl_cons, h2, g2]⟩
    rw [List.foldl_cons, h1, g1, ← storeAll_cons]

theorem storeAll_mem {α : Type} (g : Grid α) (p : Fin 32) (os os' : List (Fin 256)) (f : Fin 256 → α)
    (h : ∀ o, o ∈ os ↔ o ∈ os') : storeAll g p os f = storeAll g p os' f := by
  funext p' o; unfold storeAll; simp only [h]

theorem bankOf_banks (b : Bitmap) (a : Bool) : bankOf (banks b) a = b.bank a := by
  cases a <;> rfl

theorem bankOf_ext {m m' : Mem × Mem} (h : ∀ a, bankOf m a = bankOf m' a) : m = m' :=
  Prod.ext (h false) (h true)

theorem ofNat_page (page : Fin 32) : Fin.ofNat 32 (page.val + 32 - 32) = page := by
  apply Fin.ext; simp

theorem Emitted.pageIx {t : EditTable} {v : Video} {tgt : Bitmap} {a : Bool} {S : Snap} {op : VideoOp}
    {v' : Video} {page : Fin 32} {offset : Fin 256} {extra : List (Fin 256)}
    (h : Emitted t v tgt a S op v' page offset extra) : op.pageIx = page := by
  unfold VideoOp.pageIx; rw [h.opPage]; exact ofNat_page page

theorem Emitted.mem {t : EditTable} {v : Video} {tgt : Bitmap} {a : Bool} {S : Snap} {op : VideoOp}
    {v' : Video} {page : Fin 32} {offset : Fin 256} {extra : List (Fin 256)}
    (h : Emitted t v tgt a S op v' page offset extra) (o : Fin 256) :
    o ∈ op.offsets ↔ o ∈ offset :: extra := by
  rw [h.opOffsets]
  simp only [List.mem_append, List.mem_replicate, List.mem_cons]
  constructor
  · rintro (h | ⟨-, h⟩)
    · exact h
    · exact .inl h
  · exact .inl

theorem Emitted.play {t : EditTable} {v : Video} {tgt : Bitmap} {a : Bool} {S : Snap} {op : VideoOp}
    {v' : Video} {page : Fin 32} {offset : Fin 256} {extra : List (Fin 256)}
    (h : Emitted t v tgt a S op v' page offset extra) (m : Mem × Mem) :
    bankOf (playOp m a op) a = storeAll (bankOf m a) page (offset :: extra) (fun _ => op.content) ∧
    bankOf (playOp m a op) (!a) = bankOf m (!a) := by
  obtain ⟨h1, h2⟩ := bankOf_stores a op.pageIx op.content op.offsets m
  refine ⟨?_, h2⟩
  unfold playOp
  rw [h1, h.pageIx]
  exact storeAll_mem _ _ _ _ _ h.mem

/-! ### C15, C16 -/

/-- C15: from a new `Video`, every legal history of frame starts (in either bank),
partially consumed frames and resets, with any distance table and any random choices, runs
without tripping an assertion or any other exception; no operation stores into a screen
hole, and the holes of the encoder's memory stay zero. -/
theorem C15_encoder_total (mode : VideoMode) (t : EditTable) (tape : Nat → Nat) (calls : List Call)
    (h : Legal mode calls) :
    ∃ e tr, runNew mode t tape calls = .ok (e, tr) ∧
      (∀ s ∈ tr, ∀ o ∈ s.op.offsets, Displayed o) ∧
      (∀ b p o, ¬ Displayed o → e.v.pixelmap.bank b p o = 0) := by
  obtain ⟨e0, e, tr, -, h2, h3, h4, -, -⟩ := runNew_ok (t := t) h tape
  refine ⟨e, tr, h2, ?_, ?_⟩
  · intro s hs o ho
    have hk := h4 s hs
    cases hp : s.padding with
    | false =>
      obtain ⟨page, offset, extra, hE, -, -⟩ := hk.emit hp
      exact (visible_holes page o).mp (hE.visible o ((hE.mem o).mp ho))
    | true =>
      rw [(hk.pad hp).1] at ho
      simp at ho
      subst ho
      show (0 : Nat) < 120
      omega
  · intro b p o ho
    apply h3.holes
    by_contra hh
    exact ho ((visible_holes p o).mp (by simpa using hh))

/-- C16: every operation is (page 32..63, content, 4 offsets): the content is the target's
byte at the first offset; the offsets are the first one and at most two others, pairwise
distinct, padded with the first one. -/
theorem C16_operation_shape (mode : VideoMode) (t : EditTable) (tape : Nat → Nat) (calls : List Call)
    (h : Legal mode calls) (e : Enc) (tr : List Step) (hr : runNew mode t tape calls = .ok (e, tr))
    (s : Step) (hs : s ∈ tr) :
    ∃ (first : Fin 256) (extra : List (Fin 256)),
      s.op.page = s.op.pageIx.val + 32 ∧ 32 ≤ s.op.page ∧ s.op.page ≤ 63 ∧
      s.op.offsets = (first :: extra) ++ List.replicate (3 - extra.length) first ∧
      s.op.offsets.length = 4 ∧ extra.length ≤ 2 ∧ (first :: extra).Nodup ∧
      s.op.content = s.target.bank s.isAux s.op.pageIx first := by
  obtain ⟨e0, e', tr', -, h2, -, h4, -, -⟩ := runNew_ok (t := t) h tape
  rw [h2] at hr; cases hr
  have hk := h4 s hs
  cases hp : s.padding with
  | false =>
    obtain ⟨page, offset, extra, hE, -, -⟩ := hk.emit hp
    have := hE.few
    have hpg := hE.opPage
    refine ⟨offset, extra, by rw [hE.pageIx, hpg], by omega, by omega, hE.opOffsets, ?_, hE.few,
      hE.nodup, ?_⟩
    · rw [hE.opOffsets]; simp; omega
    · rw [hE.pageIx]; exact hE.opContent
  | true =>
    rw [(hk.pad hp).1]
    exact ⟨0, [], rfl, by simp, by simp, rfl, rfl, by simp, by simp, rfl⟩

/-! ### C17, C18 -/

/-- A zero distance in a diagonal-only DHGR table means equal bytes (low 7 bits). -/
theorem windowDist_zero_dhgr {t : EditTable} (hd : DiagOnly dhgr t) {m m' : Mem × Mem}
    {a : Bool} {p : Fin 32} {o : Fin 256} (h : windowDist .DHGR t m m' a p o = 0) :
    bankOf m a p o &&& 0x7f#8 = bankOf m' a p o &&& 0x7f#8 := by
  have h0 : t (VideoMode.DHGR.kOf a o) (winVal .DHGR m.1 m.2 a p o * 2 ^ dhgr.maskedBits
      + winVal .DHGR m'.1 m'.2 a p o) = 0 := by
    apply BitVec.eq_of_toNat_eq
    exact h
  have hw := winVal_inj ((hd _ _ _ (kOf_lt .DHGR a o) (winVal_lt .DHGR m.1 m.2 a p o) (winVal_lt .DHGR m'.1 m'.2 a p o)).1 h0)
  have h7 : ∀ (x y : U8), (x.getLsbD 0 = y.getLsbD 0 ∧ x.getLsbD 1 = y.getLsbD 1 ∧
      x.getLsbD 2 = y.getLsbD 2 ∧ x.getLsbD 3 = y.getLsbD 3 ∧ x.getLsbD 4 = y.getLsbD 4 ∧
      x.getLsbD 5 = y.getLsbD 5 ∧ x.getLsbD 6 = y.getLsbD 6) → x &&& 0x7f#8 = y &&& 0x7f#8 := by
    rintro x y ⟨t0, t1, t2, t3, t4, t5, t6⟩
    apply BitVec.eq_of_getLsbD_eq
    intro i hi
    rw [BitVec.getLsbD_and, BitVec.getLsbD_and]
    have hi' : i = 0 ∨ i = 1 ∨ i = 2 ∨ i = 3 ∨ i = 4 ∨ i = 5 ∨ i = 6 ∨ i = 7 := by omega
    rcases hi' with rfl | rfl | rfl | rfl | rfl | rfl | rfl | rfl <;> simp_all
  cases a
  · simp only [window, dhgrWindow, List.cons.injEq] at hw
    obtain ⟨-, -, -, t0, t1, t2, t3, t4, t5, t6, -⟩ := hw
    exact h7 _ _ ⟨t0, t1, t2, t3, t4, t5, t6⟩
  · simp only [window, dhgrWindow, List.cons.injEq] at hw
    obtain ⟨-, -, -, t0, t1, t2, t3, t4, t5, t6, -⟩ := hw
    exact h7 _ _ ⟨t0, t1, t2, t3, t4, t5, t6⟩

theorem and7f_of_lt {x : U8} (h : x.toNat < 0x80) : x &&& 0x7f#8 = x := by
  apply BitVec.eq_of_toNat_eq
  rw [BitVec.toNat_and]
  show x.toNat &&& (2 ^ 7 - 1) = _
  rw [Nat.and_two_pow_sub_one_eq_mod]
  omega

attribute [local irreducible] screenHoles startWeights weight in
theorem snap_dw {t : EditTable} {v : Video} {tgt : Bitmap} {a : Bool} (h : StartOk v tgt a)
    (p : Fin 32) (o : Fin 256) : (snapOf t v tgt a).dw0 p o
      = (weight v.mode t (banks v.pixelmap) (banks tgt) a p o : Int) :=
  startWeights_eq h.valid h.tvalid h.aux t p o

attribute [local irreducible] screenHoles startWeights weight in
theorem snap_P0 {t : EditTable} {s : Step} (h : StartOk s.startV s.target s.isAux)
    (p : Fin 32) (o : Fin 256) : (snapOf t s.startV s.target s.isAux).P0 p o
      = s.startPriority t p o := by
  have hd := snap_dw (t := t) h p o
  unfold Step.startPriority
  show startPrio _ _ p o = _
  unfold startPrio
  have hd' : startWeights s.startV.mode t s.startV.pixelmap.packed s.target.packed s.isAux p o
      = (weight s.startV.mode t (banks s.startV.pixelmap) (banks s.target) s.isAux p o : Int) := hd
  rw [hd']
  by_cases hz : weight s.startV.mode t (banks s.startV.pixelmap) (banks s.target) s.isAux p o = 0
  · rw [hz]; simp
  · rw [if_neg hz, if_neg]
    exact_mod_cast hz

theorem mid_priority {t : EditTable} {mode : VideoMode} {s : Step} (h : StepOk t mode s)
    (p : Fin 32) (o : Fin 256) : (s.mid t).priority s.isAux p o = s.pending t p o := by
  unfold Step.mid Step.pending
  split
  · rw [priority_set]; exact snap_P0 h.start p o
  · rfl

/-- When a padding operation is emitted in DHGR with a diagonal-only table, the bank
already equals the target on all visible bytes. -/
theorem pad_equal {t : EditTable} (hd : DiagOnly dhgr t) {s : Step}
    (h : StepOk t .DHGR s) (hp : s.padding = true) (p : Fin 32) (o : Fin 256) (ho : Displayed o) :
    s.before.pixelmap.bank s.isAux p o = s.target.bank s.isAux p o := by
  obtain ⟨dw, heap, hI⟩ := h.run
  obtain ⟨-, hz, -, -⟩ := h.pad hp
  have hmap := h.midMap
  have hclean := h.clean rfl s.isAux p o
  have hmode := h.midMode
  have htc := h.legal.clean rfl p o
  have h7 : s.before.pixelmap.bank s.isAux p o &&& 0x7f#8 = s.target.bank s.isAux p o &&& 0x7f#8 := by
    by_cases h0 : (snapOf t s.startV s.target s.isAux).dw0 p o = 0
    · have hu := hI.untouched p o h0
      rw [hmap] at hu
      have hm0 : (snapOf t s.startV s.target s.isAux).m0 p o = s.startV.pixelmap.bank s.isAux p o := rfl
      rw [hu, hm0]
      rw [snap_dw h.start] at h0
      have h0' : weight s.startV.mode t (banks s.startV.pixelmap) (banks s.target) s.isAux p o = 0 := by
        exact_mod_cast h0
      unfold weight at h0'
      rw [if_pos ho, h.startMode] at h0'
      have := windowDist_zero_dhgr hd h0'
      rwa [bankOf_banks, bankOf_banks] at this
    · rcases hI.settled p o h0 (hz p o) with hs | hs
      · rw [hmap] at hs; rw [hs]
      · rw [hmap, hmode, errAfter_eq h.legal.valid h.legal.aux] at hs
        unfold storeError at hs
        have := windowDist_zero_dhgr hd hs
        rw [bankOf_banks, (bankOf_store _ _ _ _ _).1] at this
        rw [this]
        unfold Grid.set
        rw [if_pos ⟨rfl, rfl⟩]
  rwa [and7f_of_lt hclean, and7f_of_lt htc] at h7

/-- What one step does to a player that agrees with the encoder. -/
theorem step_agree {t : EditTable} {mode : VideoMode} {s : Step} (h : StepOk t mode s)
    (m : Mem × Mem) (b : Bool) (p : Fin 32) (o : Fin 256)
    (ha : bankOf m b p o = s.before.pixelmap.bank b p o)
    (hcase : (s.padding = true ∧ b = s.isAux ∧ p = 0 ∧ o = 0 → 
      s.before.pixelmap.bank s.isAux 0 0 = s.target.bank s.isAux 0 0)) :
    bankOf (playOp m s.isAux s.op) b p o = s.after.pixelmap.bank b p o := by
  cases hp : s.padding with
  | false =>
    obtain ⟨page, offset, extra, hE, -, -⟩ := h.emit hp
    obtain ⟨p1, p2⟩ := hE.play m
    rcases bool_eq_or_not s.isAux b with rfl | rfl
    · rw [p1, hE.bank, h.midMap]
      unfold storeAll
      split
      · rfl
      · exact ha
    · rw [p2, hE.bankOther, h.midMap]; exact ha
  | true =>
    obtain ⟨o1, -, o3, -⟩ := h.pad hp
    rw [o3, o1]
    obtain ⟨q1, q2⟩ := bankOf_stores s.isAux 0 (s.target.bank s.isAux 0 0) [0, 0, 0, 0] m
    have e : playOp m s.isAux ⟨32, s.target.bank s.isAux 0 0, [0, 0, 0, 0]⟩
        = List.foldl (fun m o => storeBank m s.isAux 0 o (s.target.bank s.isAux 0 0)) m [0, 0, 0, 0] := rfl
    rw [e]
    rcases bool_eq_or_not s.isAux b with rfl | rfl
    · rw [q1]
      unfold storeAll
      split
      · rename_i hh
        obtain ⟨rfl, ho⟩ := hh
        simp at ho
        subst ho
        exact (hcase ⟨hp, rfl, rfl, rfl⟩).symm
      · exact ha
    · rw [q2]; exact ha

theorem play_agree {t : EditTable} {mode : VideoMode} (b : Bool) (p : Fin 32) (o : Fin 256)
    (tr : List Step) : ∀ (v v' : Video) (m : Mem × Mem), Chain v tr v' →
    (∀ s ∈ tr, StepOk t mode s) →
    (∀ s ∈ tr, s.padding = true ∧ b = s.isAux ∧ p = 0 ∧ o = 0 →
      s.before.pixelmap.bank s.isAux 0 0 = s.target.bank s.isAux 0 0) →
    bankOf m b p o = v.pixelmap.bank b p o →
    bankOf (play m tr) b p o = v'.pixelmap.bank b p o := by
  induction tr with
  | nil => intro v v' m hc _ _ ha; rw [hc.1]; exact ha
  | cons s tr ih =>
    intro v v' m hc hk hcase ha
    refine ih s.after v' _ hc.2.2 (fun s h => hk s (by simp [h])) (fun s h => hcase s (by simp [h])) ?_
    exact step_agree (hk s (by simp)) m b p o (by rw [hc.1]; exact ha) (hcase s (by simp))

/-- C17: a player that starts from the same blank screen and executes the operations of any
legal history has, in both banks, the encoder's own memory contents - except possibly the
byte (page 0, offset 0) of a bank for which a padding operation was emitted.  In DHGR with
a diagonal-only table the agreement is exact. -/
theorem C17_player_agrees (mode : VideoMode) (t : EditTable) (tape : Nat → Nat) (calls : List Call)
    (h : Legal mode calls) (e : Enc) (tr : List Step) (hr : runNew mode t tape calls = .ok (e, tr)) :
    (∀ b p o, (p, o) ≠ (0, 0) → bankOf (play blank tr) b p o = e.v.pixelmap.bank b p o) ∧
    (∀ b, (∀ s ∈ tr, s.isAux = b → s.padding = false) →
      bankOf (play blank tr) b = e.v.pixelmap.bank b) ∧
    (mode = .DHGR → DiagOnly dhgr t → play blank tr = banks e.v.pixelmap) := by
  obtain ⟨e0, e', tr', -, h2, -, h4, h5, h6⟩ := runNew_ok (t := t) h tape
  rw [h2] at hr; cases hr
  have hinit : ∀ b p o, bankOf blank b p o = e0.v.pixelmap.bank b p o := by
    intro b p o; rw [h6]; cases b <;> rfl
  refine ⟨?_, ?_, ?_⟩
  · intro b p o hne
    refine play_agree b p o tr _ _ _ h5 h4 ?_ (hinit b p o)
    rintro s - ⟨-, -, rfl, rfl⟩
    exact absurd rfl hne
  · intro b hb
    funext p o
    refine play_agree b p o tr _ _ _ h5 h4 ?_ (hinit b p o)
    rintro s hs ⟨hp, rfl, -⟩
    rw [hb s hs rfl] at hp
    exact absurd hp (by simp)
  · rintro rfl hd
    apply bankOf_ext
    intro b
    rw [bankOf_banks]
    funext p o
    refine play_agree b p o tr _ _ _ h5 h4 ?_ (hinit b p o)
    rintro s hs ⟨hp, -⟩
    exact pad_equal hd (h4 s hs) hp 0 0 (by show (0 : Nat) < 120; omega)

/-- C18, true part: a padding operation leaves the encoder's memory alone and makes the
player store the target's byte at (page 0, offset 0) of the active bank, nothing else. -/
theorem C18_padding_effect (mode : VideoMode) (t : EditTable) (tape : Nat → Nat) (calls : List Call)
    (h : Legal mode calls) (e : Enc) (tr : List Step) (hr : runNew mode t tape calls = .ok (e, tr))
    (s : Step) (hs : s ∈ tr) (hp : s.padding = true) (m : Mem × Mem) :
    s.after.pixelmap = s.before.pixelmap ∧
    (∀ b p o, bankOf (playOp m s.isAux s.op) b p o =
      if b = s.isAux ∧ p = 0 ∧ o = 0 then s.target.bank s.isAux 0 0 else bankOf m b p o) := by
  obtain ⟨e0, e', tr', -, h2, -, h4, -, -⟩ := runNew_ok (t := t) h tape
  rw [h2] at hr; cases hr
  obtain ⟨o1, -, o3, -⟩ := (h4 s hs).pad hp
  refine ⟨o3, ?_⟩
  intro b p o
  rw [o1]
  obtain ⟨q1, q2⟩ := bankOf_stores s.isAux 0 (s.target.bank s.isAux 0 0) [0, 0, 0, 0] m
  have e : playOp m s.isAux ⟨32, s.target.bank s.isAux 0 0, [0, 0, 0, 0]⟩
      = List.foldl (fun m o => storeBank m s.isAux 0 o (s.target.bank s.isAux 0 0)) m [0, 0, 0, 0] := rfl
  rw [e]
  rcases bool_eq_or_not s.isAux b with rfl | rfl
  · rw [q1]
    unfold storeAll
    simp
  · rw [q2, if_neg]
    rintro ⟨h, -⟩
    cases hx : s.isAux <;> rw [hx] at h <;> simp at h

/-! ### C19, C21, C22 -/

/-- C19: an operation is emitted for a pending cell whose frame-start priority is largest
among all cells of the bank still pending at that moment; padding happens exactly when
nothing is pending. -/
theorem C19_greedy (mode : VideoMode) (t : EditTable) (tape : Nat → Nat) (calls : List Call)
    (h : Legal mode calls) (e : Enc) (tr : List Step) (hr : runNew mode t tape calls = .ok (e, tr))
    (s : Step) (hs : s ∈ tr) :
    (s.padding = true ↔ ∀ p o, s.pending t p o = 0) ∧
    (s.padding = false → ∃ first, s.op.offsets.head? = some first ∧
      0 < s.pending t s.op.pageIx first ∧
      ∀ p o, s.pending t p o ≠ 0 → s.startPriority t p o ≤ s.startPriority t s.op.pageIx first) := by
  obtain ⟨e0, e', tr', -, h2, -, h4, -, -⟩ := runNew_ok (t := t) h tape
  rw [h2] at hr; cases hr
  have hk := h4 s hs
  have hE : s.padding = false → ∃ first, s.op.offsets.head? = some first ∧
      0 < s.pending t s.op.pageIx first ∧
      ∀ p o, s.pending t p o ≠ 0 → s.startPriority t p o ≤ s.startPriority t s.op.pageIx first := by
    intro hp
    obtain ⟨page, offset, extra, hE, -, hmax⟩ := hk.emit hp
    obtain ⟨dw, heap, hI⟩ := hk.run
    refine ⟨offset, by rw [hE.opOffsets]; rfl, ?_, ?_⟩
    · have h1 := hE.pending offset (by simp)
      have h2 := hI.nonneg page offset
      rw [mid_priority hk] at h1 h2
      rw [hE.pageIx]
      omega
    · intro p o hpo
      rw [← mid_priority hk] at hpo
      have := hmax p o hpo
      rw [snap_P0 hk.start, snap_P0 hk.start] at this
      rw [hE.pageIx]; exact this
  refine ⟨⟨?_, ?_⟩, hE⟩
  · intro hp p o
    rw [← mid_priority hk]
    exact (hk.pad hp).2.1 p o
  · intro hz
    by_contra hne
    obtain ⟨first, -, h1, -⟩ := hE (by simpa using hne)
    rw [hz] at h1
    omega

/-- C21: with a symmetric distance table (loaded tables are, C12), every additional offset of
an operation was pending, the error of the stored byte there against the target is smaller
than the cell's frame-start weight, and exactly that error remains as its priority; the first
offset's priority becomes 0 and it gets exactly the target's byte. -/
theorem C21_secondary_stores (mode : VideoMode) (t : EditTable)
    (hsym : Symmetric mode.cls.maskedBits t) (tape : Nat → Nat) (calls : List Call)
    (h : Legal mode calls) (e : Enc) (tr : List Step) (hr : runNew mode t tape calls = .ok (e, tr))
    (s : Step) (hs : s ∈ tr) (hp : s.padding = false) (first : Fin 256)
    (hf : s.op.offsets.head? = some first) :
    s.after.priority s.isAux s.op.pageIx first = 0 ∧
    s.after.pixelmap.bank s.isAux s.op.pageIx first = s.target.bank s.isAux s.op.pageIx first ∧
    ∀ o ∈ s.op.offsets, o ≠ first →
      0 < s.pending t s.op.pageIx o ∧
      storeError mode t (banks s.target) s.isAux s.op.pageIx o s.op.content
        < weight mode t (banks s.startV.pixelmap) (banks s.target) s.isAux s.op.pageIx o ∧
      s.after.priority s.isAux s.op.pageIx o
        = (storeError mode t (banks s.target) s.isAux s.op.pageIx o s.op.content : Int) ∧
      s.after.pixelmap.bank s.isAux s.op.pageIx o = s.op.content := by
  obtain ⟨e0, e', tr', -, h2, -, h4, -, -⟩ := runNew_ok (t := t) h tape
  rw [h2] at hr; cases hr
  have hk := h4 s hs
  obtain ⟨page, offset, extra, hE, -, -⟩ := hk.emit hp
  obtain ⟨dw, heap, hI⟩ := hk.run
  have : first = offset := by
    rw [hE.opOffsets] at hf
    simpa using hf.symm
  subst this
  have hnd := List.nodup_cons.mp hE.nodup
  rw [hE.pageIx]
  refine ⟨?_, ?_, ?_⟩
  · rw [hE.prio]
    unfold storeAll Grid.set
    rw [if_neg (fun h => hnd.1 h.2), if_pos ⟨rfl, rfl⟩]
  · rw [hE.bank]
    unfold storeAll
    rw [if_pos ⟨rfl, by simp⟩, hE.opContent]
  · intro o ho hne
    have hoe : o ∈ extra := by
      have := (hE.mem o).mp ho
      simpa [hne] using this
    refine ⟨?_, ?_, ?_, ?_⟩
    · have h1 := hE.pending o (by simp [hoe])
      have h2 := hI.nonneg page o
      rw [mid_priority hk] at h1 h2
      omega
    · have hb := hE.better o hoe
      rw [hk.midMode, errNew_eq hk.legal.valid hk.legal.aux hsym, snap_dw hk.start, hk.startMode] at hb
      exact_mod_cast hb
    · rw [hE.prio]
      unfold storeAll
      rw [if_pos ⟨rfl, hoe⟩, hk.midMode]
      show ((errAfter mode t s.target s.isAux page s.op.content o : Nat) : Int) = _
      rw [errAfter_eq hk.legal.valid hk.legal.aux]
    · rw [hE.bank]
      unfold storeAll
      rw [if_pos ⟨rfl, by simp [hoe]⟩]

/-- C22: priorities never wrap, however long the history: they stay between 0 and
16383 * 65535 < 2^31, and a `next()` leaves the priority of every cell it does not store
to exactly at (accumulated + weight), in unbounded arithmetic. -/
theorem C22_no_overflow (mode : VideoMode) (t : EditTable) (tape : Nat → Nat) (calls : List Call)
    (h : Legal mode calls) (e : Enc) (tr : List Step) (hr : runNew mode t tape calls = .ok (e, tr)) :
    (∀ b p o, 0 ≤ e.v.priority b p o ∧ e.v.priority b p o ≤ 16383 * 65535 ∧
      e.v.priority b p o < 2 ^ 31) ∧
    (∀ s ∈ tr, ∀ p o, (s.padding = true ∨ p ≠ s.op.pageIx ∨ o ∉ s.op.offsets) →
      s.after.priority s.isAux p o = s.pending t p o ∧
      s.after.priority (!s.isAux) p o = s.before.priority (!s.isAux) p o) := by
  obtain ⟨e0, e', tr', -, h2, h3, h4, -, -⟩ := runNew_ok (t := t) h tape
  rw [h2] at hr; cases hr
  refine ⟨?_, ?_⟩
  · intro b p o
    have h1 := (h3.prio b).nonneg p o
    have h2 := (h3.prio b).le p o
    refine ⟨h1, h2, by omega⟩
  · intro s hs p o hc
    have hk := h4 s hs
    cases hp : s.padding with
    | false =>
      obtain ⟨page, offset, extra, hE, -, -⟩ := hk.emit hp
      constructor
      · have hn : ¬(p = page ∧ o ∈ offset :: extra) := by
          rintro ⟨rfl, ho⟩
          rcases hc with hc | hc | hc
          · rw [hp] at hc; exact absurd hc (by simp)
          · exact hc hE.pageIx.symm
          · exact hc ((hE.mem o).mpr ho)
        rw [hE.prio]
        unfold storeAll Grid.set
        rw [if_neg (fun h => hn ⟨h.1, by simp [h.2]⟩), if_neg (fun h => hn ⟨h.1, by simp [h.2]⟩)]
        exact mid_priority hk p o
      · rw [hE.prioOther, hk.midOther]
    | true =>
      obtain ⟨-, -, -, q, -⟩ := hk.pad hp
      constructor
      · rw [q, mid_priority hk]
      · rw [q, hk.midOther]

/-! ### C20 -/

/-- Number of pending cells of a bank. -/
def pendCount (v : Video) (a : Bool) : Nat :=
  allCells.countP fun c => decide (v.priority a c.1 c.2 ≠ 0)

theorem pendCount_lt {t : EditTable} {mode : VideoMode} {s : Step} (h : StepOk t mode s)
    (hp : s.padding = false) : pendCount s.after s.isAux < pendCount (s.mid t) s.isAux := by
  obtain ⟨page, offset, extra, hE, -, -⟩ := h.emit hp
  have hnd := List.nodup_cons.mp hE.nodup
  unfold pendCount
  refine countP_lt (x := (page, offset)) ?_ (mem_allCells _) ?_ ?_
  · rintro ⟨p, o⟩ - hc
    simp only [decide_eq_true_eq] at hc ⊢
    by_contra hz
    apply hc
    rw [hE.prio]
    unfold storeAll Grid.set
    rw [if_neg]
    · split
      · rfl
      · exact hz
    · rintro ⟨rfl, ho⟩
      exact hE.pending o (by simp [ho]) hz
  · simp only [decide_eq_false_iff_not, not_not]
    rw [hE.prio]
    unfold storeAll Grid.set
    rw [if_neg (fun h => hnd.1 h.2), if_pos ⟨rfl, rfl⟩]
  · simp only [decide_eq_true_eq]
    exact hE.pending offset (by simp)

theorem pendCount_zero {v : Video} {a : Bool} (h : ∀ p o, v.priority a p o = 0) : pendCount v a = 0 := by
  unfold pendCount
  rw [List.countP_eq_zero]
  rintro ⟨p, o⟩ -
  simp [h]

theorem run_cons {t : EditTable} {e e1 e2 : Enc} {c : Call} {cs : List Call} {s tr : List Step}
    (h1 : e.call t c = .ok (e1, s)) (h2 : e1.run t cs = .ok (e2, tr)) :
    e.run t (c :: cs) = .ok (e2, s ++ tr) := by
  unfold Enc.run
  simp only [h1, bind, Except.bind, h2, pure, Except.pure]

/-- Pulling a started frame `m` times. -/
theorem pulls_ok {t : EditTable} {mode : VideoMode} (m : Nat) : ∀ {e : Enc} {g : Gen},
    EInv t mode e → e.gen = some g → g.isNew = false →
    (g.isPadding = true → e.v.outOfWork g.isAux = true) →
    ∃ e' tr g', e.run t (List.replicate m .pull) = .ok (e', tr) ∧ EInv t mode e' ∧
      e'.gen = some g' ∧ g'.target = g.target ∧ g'.isAux = g.isAux ∧ g'.isNew = false ∧
      e'.startV = e.startV ∧ tr.length = m ∧
      (tr.filter fun s => !s.padding).length ≤ pendCount e.v g.isAux ∧
      (pendCount e.v g.isAux < m → g'.isPadding = true) ∧
      (g.isPadding = true → g'.isPadding = true) ∧
      (g'.isPadding = true → e'.v.outOfWork g.isAux = true) := by
  induction m with
  | zero =>
    intro e g h hg hnew ho
    exact ⟨e, [], g, rfl, h, hg, rfl, rfl, hnew, rfl, rfl, by simp, by omega, id, ho⟩
  | succ m ih =>
    intro e g h hg hnew ho
    obtain ⟨e1, s, g1, a1, a2, a3, a4, a5, a6, a7, -, a9, a10, a11, a12, a13, -, a15, a16, a17⟩ :=
      pull_ok h hg
    have ho1 : g1.isPadding = true → e1.v.outOfWork g1.isAux = true := by
      intro hp
      rw [a6]
      cases hgp : g.isPadding with
      | false => exact a16 hp hgp
      | true => rw [(a17 hgp).2]; exact ho hgp
    obtain ⟨e2, tr, g2, b1, b2, b3, b4, b5, b6, b7, b8, b9, b10, b11, b12⟩ :=
      ih (e := e1) a2 a4 a7 ho1
    have hmid : s.mid t = e.v := by
      unfold Step.mid
      rw [a10, hnew, a12]
      rfl
    refine ⟨e2, s :: tr, g2, ?_, b2, b3, b4.trans a5, b5.trans a6, b6, ?_, by simp [b8], ?_, ?_, ?_, ?_⟩
    · rw [List.replicate_succ]
      exact run_cons a1 b1
    · rw [b7, a15, hnew]; rfl
    · cases hp : s.padding with
      | true =>
        have hz : pendCount e1.v g1.isAux = 0 := by
          have hG := a2.gen
          rw [a11] at hp
          rw [a4] at hG
          cases g1 with
          | padding tg aa => exact pendCount_zero hG.2.1
          | notStarted _ _ => exact absurd hp (by simp [Gen.isPadding])
          | running _ _ _ _ => exact absurd hp (by simp [Gen.isPadding])
        rw [List.filter_cons_of_neg (by simp [hp])]
        omega
      | false =>
        have hlt := pendCount_lt a3 hp
        rw [hmid, a9, a13] at hlt
        rw [List.filter_cons_of_pos (by simp [hp]), List.length_cons]
        rw [a6] at b9
        omega
    · intro hm
      cases hp : s.padding with
      | true => rw [a11] at hp; exact b11 hp
      | false =>
        have hlt := pendCount_lt a3 hp
        rw [hmid, a9, a13] at hlt
        rw [a6] at b10
        exact b10 (by omega)
    · intro hp
      exact b11 (a17 hp).1
    · rw [← a6]; exact b12

theorem pendCount_start {t : EditTable} {v : Video} {tgt : Bitmap} {a : Bool} (h : StartOk v tgt a) :
    pendCount (v.setPriority a (snapOf t v tgt a).P0) a
      = allCells.countP fun c => decide (weight v.mode t (banks v.pixelmap) (banks tgt) a c.1 c.2 ≠ 0) := by
  unfold pendCount
  apply List.countP_congr
  rintro ⟨p, o⟩ -
  simp only [decide_eq_true_eq]
  rw [priority_set]
  have h1 : (snapOf t v tgt a).P0 p o = Step.startPriority ⟨tgt, a, true, v, v, ⟨0, 0, []⟩, v, true⟩ t p o :=
    snap_P0 (s := ⟨tgt, a, true, v, v, ⟨0, 0, []⟩, v, true⟩) h p o
  rw [h1]
  unfold Step.startPriority
  simp only
  have := (h.prio p o).1
  split
  · rename_i hz; simp [hz]
  · rename_i hz
    constructor
    · intro _; exact hz
    · intro _; omega

theorem visible_count : allCells.countP (fun c => decide (Displayed c.2)) = 7680 := by decide +kernel

theorem weight_visible {mode : VideoMode} {t : EditTable} {m m' : Mem × Mem} {a : Bool} {p : Fin 32}
    {o : Fin 256} (h : weight mode t m m' a p o ≠ 0) : Displayed o := by
  unfold weight at h
  by_contra hv
  rw [if_neg hv] at h
  exact h rfl

theorem storeError_own {mode : VideoMode} {t : EditTable} (hz : ZeroDiag mode.cls.maskedBits t)
    (tgt : Mem × Mem) (a : Bool) (p : Fin 32) (o : Fin 256) :
    storeError mode t tgt a p o (bankOf tgt a p o) = 0 := by
  have hs : storeBank tgt a p o (bankOf tgt a p o) = tgt := by
    apply bankOf_ext
    intro b
    rcases bool_eq_or_not a b with rfl | rfl
    · rw [(bankOf_store _ _ _ _ _).1]
      funext p' o'
      unfold Grid.set
      split
      · rename_i h; rw [h.1, h.2]
      · rfl
    · rw [(bankOf_store _ _ _ _ _).2]
  unfold storeError
  rw [hs]
  unfold windowDist
  rw [hz _ _ (winVal_lt _ _ _ _ _ _)]
  rfl

/-- C20: let `N` be the number of cells of the bank that differ (have non-zero weight) when
frame `tgt` is started after any legal history; `N ≤ 7680`.  Pulling `m` times yields `m`
operations of which at most `N` are not padding.  If `m > N` the encoder is out of work, and
then each displayed byte either had weight zero and is what it was when the frame was
started, or holds a byte with error zero against the target; in DHGR with a diagonal-only table
the bank equals the target's bank on all displayed bytes. -/
theorem C20_converges (mode : VideoMode) (t : EditTable) (tape : Nat → Nat) (pre : List Call)
    (tgt : Bitmap) (a : Bool) (m : Nat)
    (h : Legal mode (pre ++ .start tgt a :: List.replicate m .pull)) :
    ∃ e0 tr0 e tr, runNew mode t tape pre = .ok (e0, tr0) ∧
      e0.run t (.start tgt a :: List.replicate m .pull) = .ok (e, tr) ∧
      runNew mode t tape (pre ++ .start tgt a :: List.replicate m .pull) = .ok (e, tr0 ++ tr) ∧
      (let w := weight mode t (banks e0.v.pixelmap) (banks tgt) a
       let N := allCells.countP fun c => decide (w c.1 c.2 ≠ 0)
       N ≤ 7680 ∧ tr.length = m ∧ (tr.filter fun s => !s.padding).length ≤ N ∧
       (N < m → e.v.outOfWork a = true ∧
        (ZeroDiag mode.cls.maskedBits t → ∀ p o, Displayed o →
          (w p o = 0 ∧ e.v.pixelmap.bank a p o = e0.v.pixelmap.bank a p o) ∨
          (w p o ≠ 0 ∧ storeError mode t (banks tgt) a p o (e.v.pixelmap.bank a p o) = 0)) ∧
        (mode = .DHGR → DiagOnly dhgr t → ∀ p o, Displayed o →
          e.v.pixelmap.bank a p o = tgt.bank a p o))) := by
  have hpre : Legal mode pre := by
    refine ⟨fun c hc => h.each c (by simp [hc]), ?_⟩
    intro c hc
    apply h.first
    cases pre with
    | nil => simp at hc
    | cons x xs => simpa using hc
  obtain ⟨ei, e0, tr0, i1, i2, i3, -, -, -⟩ := runNew_ok (t := t) hpre tape
  refine ⟨e0, tr0, ?_⟩
  -- start the frame
  obtain ⟨e1, trs, s1, s2, -, -, -⟩ := call_ok (t := t) i3 (.start tgt a) (h.each _ (by simp)) (.inl rfl)
  have he1 : e1 = { e0 with gen := some (.notStarted tgt a) } ∧ trs = [] := by
    have : Enc.call t e0 (.start tgt a) = .ok ({ e0 with gen := some (.notStarted tgt a) }, []) := rfl
    rw [this] at s1
    cases s1; exact ⟨rfl, rfl⟩
  obtain ⟨rfl, rfl⟩ := he1
  have hNle : allCells.countP (fun c => decide (weight mode t (banks e0.v.pixelmap) (banks tgt) a c.1 c.2 ≠ 0))
      ≤ 7680 := by
    rw [← visible_count]
    apply List.countP_mono_left
    rintro ⟨p, o⟩ - hc
    simp only [decide_eq_true_eq] at hc ⊢
    exact weight_visible hc
  cases m with
  | zero =>
    refine ⟨_, _, i2, run_cons s1 rfl, ?_, hNle, rfl, by simp, by omega⟩
    unfold runNew
    rw [i1]
    unfold runNew at i2
    rw [i1] at i2
    exact run_append _ _ _ _ _ _ _ i2 (run_cons s1 rfl)
  | succ m =>
    obtain ⟨e2, s, g1, a1, a2, a3, a4, a5, a6, a7, a8, a9, a10, a11, a12, a13, a14, a15, a16, a17⟩ :=
      pull_ok (t := t) s2 (g := .notStarted tgt a) rfl
    have ho1 : g1.isPadding = true → e2.v.outOfWork g1.isAux = true := by
      intro hp; rw [a6]; exact a16 hp rfl
    obtain ⟨e3, tr, g2, b1, b2, b3, b4, b5, b6, b7, b8, b9, b10, b11, b12⟩ :=
      pulls_ok (t := t) m (e := e2) a2 a4 a7 ho1
    have hrun : e0.run t (.start tgt a :: List.replicate (m + 1) .pull) = .ok (e3, [s] ++ tr) := by
      rw [List.replicate_succ]
      exact run_cons (s := []) s1 (run_cons a1 b1)
    have htg : s.target = tgt := a8
    have hau : s.isAux = a := a9
    have hsv : s.startV = e0.v := a14.trans a15
    have hst : StartOk e0.v tgt a := by
      have := a3.start
      rwa [htg, hau, hsv] at this
    have hmid : s.mid t = e0.v.setPriority a (snapOf t e0.v tgt a).P0 := by
      unfold Step.mid
      rw [a10, hsv, hau, htg]
      rfl
    have hm0 : e0.v.mode = mode := i3.vmode
    have hN := pendCount_start (t := t) hst
    rw [hm0] at hN
    have hzero : s.padding = true → pendCount e2.v g1.isAux = 0 := by
      intro hp
      have hG := a2.gen
      rw [a11] at hp
      rw [a4] at hG
      cases g1 with
      | padding tg aa => exact pendCount_zero hG.2.1
      | notStarted _ _ => exact absurd hp (by simp [Gen.isPadding])
      | running _ _ _ _ => exact absurd hp (by simp [Gen.isPadding])
    have hlt : s.padding = false → pendCount e2.v g1.isAux <
        allCells.countP fun c => decide (weight mode t (banks e0.v.pixelmap) (banks tgt) a c.1 c.2 ≠ 0) := by
      intro hp
      have := pendCount_lt a3 hp
      rw [hmid, hau, hN, a13] at this
      rw [a6]; exact this
    refine ⟨e3, [s] ++ tr, i2, hrun, ?_, hNle, by simp [b8], ?_, ?_⟩
    · unfold runNew
      rw [i1]
      unfold runNew at i2
      rw [i1] at i2
      exact run_append _ _ _ _ _ _ _ i2 hrun
    · cases hp : s.padding with
      | true =>
        have := hzero hp
        rw [List.singleton_append, List.filter_cons_of_neg (by simp [hp])]
        omega
      | false =>
        have := hlt hp
        rw [List.singleton_append, List.filter_cons_of_pos (by simp [hp]), List.length_cons]
        omega
    · intro hm
      have hpad : g2.isPadding = true := by
        cases hp : s.padding with
        | true => rw [a11] at hp; exact b11 hp
        | false => have := hlt hp; exact b10 (by omega)
      have hG := b2.gen
      rw [b3] at hG
      have hsv3 : e3.startV = e0.v := by rw [b7, a15]; rfl
      cases g2 with
      | notStarted _ _ => exact absurd hpad (by simp [Gen.isPadding])
      | running _ _ _ _ => exact absurd hpad (by simp [Gen.isPadding])
      | padding tg aa =>
        have e1 : tg = tgt := b4.trans a5
        have e2 : aa = a := b5.trans a6
        subst e1 e2
        obtain ⟨hl, hz, dw, heap, hF⟩ := hG
        have hI := hF.run
        rw [hsv3] at hI
        have hm3 : e3.v.mode = mode := b2.vmode
        refine ⟨?_, ?_, ?_⟩
        · have := b12 hpad
          rwa [a6] at this
        · intro hzd p o ho
          by_cases h0 : weight mode t (banks e0.v.pixelmap) (banks tg) aa p o = 0
          · left
            refine ⟨h0, ?_⟩
            refine (hI.untouched p o ?_).trans rfl
            rw [snap_dw hst, hm0, h0]; rfl
          · right
            refine ⟨h0, ?_⟩
            rcases hI.settled p o (by rw [snap_dw hst, hm0]; exact_mod_cast h0) (hz p o) with hs | hs
            · rw [hs, ← bankOf_banks]
              exact storeError_own hzd _ _ _ _
            · rw [hm3, errAfter_eq hl.valid hl.aux] at hs
              exact hs
        · rintro rfl hd p o ho
          have := pad_equal hd (s := ⟨tg, aa, false, e0.v, e3.v,
            ⟨32, tg.bank aa 0 0, [0, 0, 0, 0]⟩, e3.v, true⟩) ?_ rfl p o ho
          · exact this
          · exact ⟨hl, hst, hm0, i3.clean, fun h => absurd h (by simp), b2.clean, ⟨dw, heap, hI⟩, rfl,
              hm3, rfl, fun h => absurd h (by simp), fun _ => ⟨rfl, hz, rfl, fun _ => rfl, hm3⟩⟩

/-! ### C18 refuted, and non-vacuity -/

/-- A frame that is black except for a lone palette bit in its first byte. -/
def paletteFrame : Bitmap :=
  { main := { screenPage := 1, pageOffset := Grid.set (fun _ _ => 0) 0 0 0x80#8 }, aux := none,
    packed := hgr.packBody fun p c => hgrBodyCol
      (Grid.set (fun _ _ => 0) 0 0 0x80#8 p (evenOff c)) (Grid.set (fun _ _ => 0) 0 0 0x80#8 p (oddOff c)) }

theorem paletteFrame_legal : LegalFrame .HGR paletteFrame false :=
  ⟨(hgr_new_valid (m := paletteFrame.main) rfl rfl).1, by intro h; exact absurd h (by simp),
   fun h => absurd h (by simp)⟩

theorem legal_one_pull {mode : VideoMode} {tgt : Bitmap} {a : Bool} (h : LegalFrame mode tgt a) :
    Legal mode [.start tgt a, .pull] := by
  refine ⟨?_, ?_⟩
  · intro c hc
    simp only [List.mem_cons, List.not_mem_nil, or_false] at hc
    rcases hc with rfl | rfl
    · exact h
    · trivial
  · intro c hc
    simp at hc
    subst hc; rfl

/-- The distances of a generated table vanish on masked values that light the same dots
(the pixel strings are then identical, make_data_tables.py:142-174). -/
def SameDotsFree (gen : Nat → Nat → Nat → BitVec 16) : Prop :=
  ∀ k i j d, hgrToDots (BitVec.ofNat 64 i) k = .ok d → hgrToDots (BitVec.ofNat 64 j) k = .ok d →
    gen k i j = 0

theorem palette_invisible (gen : Nat → Nat → Nat → BitVec 16) (hg : SameDotsFree gen)
    (p : Fin 32) (o : Fin 256) :
    windowDist .HGR (hgr.editDistances (hgr.generated gen)) blank (banks paletteFrame) false p o = 0 := by
  have hz := (C12_symmetric_spec hgr gen).2
  have hrow : ∀ q, (banks paletteFrame).1 p q = if p = 0 ∧ q = 0 then 0x80#8 else 0 := fun q => rfl
  by_cases h0 : p = 0 ∧ o.val ≤ 1
  · obtain ⟨rfl, ho⟩ := h0
    have ho' : o = 0 ∨ o = 1 := by
      rcases o with ⟨o, h⟩
      simp only at ho
      have : o = 0 ∨ o = 1 := by omega
      rcases this with rfl | rfl
      · exact .inl rfl
      · exact .inr rfl
    have hd0 : hgrToDots (BitVec.ofNat 64 0x400) 0 = .ok 0 := by decide
    have hd0' : hgrToDots (BitVec.ofNat 64 0) 0 = .ok 0 := by decide
    have hd1 : hgrToDots (BitVec.ofNat 64 4) 1 = .ok 0 := by decide
    have hd1' : hgrToDots (BitVec.ofNat 64 0) 1 = .ok 0 := by decide
    unfold windowDist
    rcases ho' with rfl | rfl
    · have w0 : winVal .HGR blank.1 blank.2 false 0 0 = 0 := by decide +kernel
      have w1 : winVal .HGR (banks paletteFrame).1 (banks paletteFrame).2 false 0 0 = 0x400 := by
        decide +kernel
      rw [w0, w1]
      show (hgr.editDistances (hgr.generated gen) 0 0x400).toNat = 0
      have e1 : hgr.transpose 0x400 = 0x400 * 2 ^ hgr.maskedBits := by decide +kernel
      unfold Cls.editDistances
      rw [e1]
      have e2 : hgr.generated gen 0 0x400 = 0 := rfl
      have e3 : hgr.generated gen 0 (0x400 * 2 ^ hgr.maskedBits) = gen 0 0x400 0 := rfl
      rw [e2, e3, hg 0 0x400 0 0 hd0 hd0']
      rfl
    · have w0 : winVal .HGR blank.1 blank.2 false 0 1 = 0 := by decide +kernel
      have w1 : winVal .HGR (banks paletteFrame).1 (banks paletteFrame).2 false 0 1 = 4 := by
        decide +kernel
      rw [w0, w1]
      show (hgr.editDistances (hgr.generated gen) 1 4).toNat = 0
      have e1 : hgr.transpose 4 = 4 * 2 ^ hgr.maskedBits := by decide +kernel
      unfold Cls.editDistances
      rw [e1]
      have e2 : hgr.generated gen 1 4 = 0 := rfl
      have e3 : hgr.generated gen 1 (4 * 2 ^ hgr.maskedBits) = gen 1 4 0 := rfl
      rw [e2, e3, hg 1 4 0 0 hd1 hd1']
      rfl
  · have hb : before ((banks paletteFrame).1 p) o = 0 := by
      unfold before
      split
      · rfl
      · rename_i hne
        rw [hrow, if_neg]
        rintro ⟨rfl, h⟩
        apply h0
        refine ⟨rfl, ?_⟩
        have : ∀ o : Fin 256, o - 1 = 0 → o.val ≤ 1 := by decide +kernel
        exact this o h
    have hc : (banks paletteFrame).1 p o = 0 := by
      rw [hrow, if_neg]
      rintro ⟨rfl, h⟩
      exact h0 ⟨rfl, by rw [h]; decide⟩
    have ha : after ((banks paletteFrame).1 p) o = 0 := by
      unfold after
      split
      · rfl
      · rename_i hne
        rw [hrow, if_neg]
        rintro ⟨rfl, h⟩
        apply hne
        have : ∀ o : Fin 256, o + 1 = 0 → o.val = 255 := by decide +kernel
        exact this o h
    have hw : window .HGR (banks paletteFrame).1 (banks paletteFrame).2 false p o
        = window .HGR blank.1 blank.2 false p o := by
      show hgrWindow _ (before ((banks paletteFrame).1 p) o) ((banks paletteFrame).1 p o)
        (after ((banks paletteFrame).1 p) o) = hgrWindow _ (before (blank.1 p) o) (blank.1 p o)
          (after (blank.1 p) o)
      rw [hb, hc, ha]
      have h1 : before (blank.1 p) o = 0 := by unfold before; split <;> rfl
      have h2 : after (blank.1 p) o = 0 := by unfold after; split <;> rfl
      rw [h1, h2]
      rfl
    have hv : winVal .HGR (banks paletteFrame).1 (banks paletteFrame).2 false p o
        = winVal .HGR blank.1 blank.2 false p o := congrArg bitsVal hw
    unfold windowDist
    have hz' := hz (VideoMode.HGR.kOf false o) (winVal .HGR blank.1 blank.2 false p o)
      (winVal_lt .HGR blank.1 blank.2 false p o)
    rw [hv]
    exact congrArg BitVec.toNat hz'

/-- The first `next()` of the first frame. -/
theorem one_pull {t : EditTable} {mode : VideoMode} {tgt : Bitmap} {a : Bool}
    (h : LegalFrame mode tgt a) (tape : Nat → Nat) :
    ∃ e0 e s, runNew mode t tape [.start tgt a, .pull] = .ok (e, [s]) ∧ StepOk t mode s ∧
      s.target = tgt ∧ s.isAux = a ∧ s.first = true ∧ s.startV = e0 ∧ s.before = e0 ∧ s.after = e.v ∧
      banks e0.pixelmap = blank := by
  obtain ⟨e0, i1, i2, i3, -⟩ := init_ok t mode tape
  obtain ⟨e1, trs, s1, s2, -, -, -⟩ := call_ok (t := t) i2 (.start tgt a) h (.inl rfl)
  have hs : Enc.call t e0 (.start tgt a) = .ok ({ e0 with gen := some (.notStarted tgt a) }, []) := rfl
  rw [hs] at s1
  cases s1
  obtain ⟨e2, s, g1, a1, a2, a3, a4, a5, a6, a7, a8, a9, a10, a11, a12, a13, a14, a15, a16, a17⟩ :=
    pull_ok (t := t) s2 (g := .notStarted tgt a) rfl
  refine ⟨e0.v, e2, s, ?_, a3, a8, a9, a10, a14.trans a15, a12, a13, ?_⟩
  · unfold runNew
    rw [i1]
    exact run_cons (s := []) hs (run_cons a1 rfl)
  · apply bankOf_ext
    intro b
    funext p o
    rw [bankOf_banks, i3]
    cases b <;> rfl

/-- C18 is FALSE as an unrestricted claim, for every generated HGR table: asked to show a
black frame whose first byte is 0x80 on a blank screen, the encoder at once emits a padding
operation; a player executing it holds 0x80 at (0, 0) while the encoder believes 0x00. -/
theorem C18_refuted (gen : Nat → Nat → Nat → BitVec 16) (hg : SameDotsFree gen) (tape : Nat → Nat) :
    ∃ e s, runNew .HGR (hgr.editDistances (hgr.generated gen)) tape [.start paletteFrame false, .pull]
        = .ok (e, [s]) ∧ s.padding = true ∧
      bankOf (play blank [s]) false 0 0 = 0x80#8 ∧ e.v.pixelmap.bank false 0 0 = 0#8 := by
  obtain ⟨e0, e, s, h2, hk, t1, t2, t3, t4, t5, t6, hblank⟩ :=
    one_pull (t := hgr.editDistances (hgr.generated gen)) paletteFrame_legal tape
  have hpad : s.padding = true := by
    refine ((C19_greedy .HGR _ tape _ (legal_one_pull paletteFrame_legal) e [s] h2 s (by simp)).1).mpr ?_
    intro p o
    unfold Step.pending Step.startPriority
    rw [t3, t4, t1, t2, hblank]
    have hm : e0.mode = .HGR := by
      have := hk.startMode
      rwa [t4] at this
    have : weight e0.mode (hgr.editDistances (hgr.generated gen)) blank (banks paletteFrame) false p o = 0 := by
      rw [hm]
      unfold weight
      split
      · exact palette_invisible gen hg p o
      · rfl
    rw [this]
    simp
  refine ⟨e, s, h2, hpad, ?_, ?_⟩
  · have := (C18_padding_effect .HGR _ tape _ (legal_one_pull paletteFrame_legal) e [s] h2 s (by simp)
      hpad blank).2 false 0 0
    rw [t2, t1] at this
    show bankOf (playOp blank s.isAux s.op) false 0 0 = _
    rw [t2, this]
    rfl
  · rw [← t6, (hk.pad hpad).2.2.1, t5, ← bankOf_banks, hblank]; rfl

example : SameDotsFree fun _ _ _ => 0 := fun _ _ _ _ _ _ => rfl

/-- A DHGR frame with every byte 0x2a. -/
def stripesFrame : Bitmap :=
  { main := ⟨1, fun _ _ => 0x2a#8⟩, aux := some ⟨1, fun _ _ => 0x2a#8⟩,
    packed := dhgr.packBody fun _ _ => dhgrBodyCol 0x2a#8 0x2a#8 0x2a#8 0x2a#8 }

theorem stripesFrame_legal (a : Bool) : LegalFrame .DHGR stripesFrame a :=
  ⟨(dhgr_new_valid (m := ⟨1, fun _ _ => 0x2a#8⟩) (a := ⟨1, fun _ _ => 0x2a#8⟩) rfl rfl rfl).1,
   fun _ => rfl, fun _ p o => by
     have : stripesFrame.bank a p o = 0x2a#8 := by cases a <;> rfl
     rw [this]; decide⟩

/-- A non-trivial legal history: two frames in different banks, the first abandoned after
three operations, then a reset. -/
example : Legal .DHGR [.start stripesFrame false, .pull, .pull, .pull, .start stripesFrame true,
    .pull, .reset, .pull] := by
  refine ⟨?_, ?_⟩
  · intro c hc
    simp only [List.mem_cons, List.not_mem_nil, or_false] at hc
    rcases hc with rfl | rfl | rfl | rfl | rfl | rfl | rfl | rfl <;>
      first | exact stripesFrame_legal _ | trivial
  · intro c hc
    simp at hc
    subst hc; rfl

/-- On a blank screen the stripes differ in every displayed byte, so a step is a real one. -/
example : 0 < weight .DHGR (flatTable 13) blank (banks stripesFrame) false 0 0 := by decide +kernel

example : DiagOnly dhgr (flatTable 13) ∧ Symmetric dhgr.maskedBits (flatTable 13) ∧
    ZeroDiag dhgr.maskedBits (flatTable 13) :=
  ⟨(flatTable_spec 13).1 _ rfl, (flatTable_spec 13).2.2, (flatTable_spec 13).2.1⟩

end IIVision
