import Verif.Proofs.Cell

/-! Properties C04-C07 and C12-C14: packed bitmaps, windows, distance tables. -/

namespace IIVision
open Spec

theorem applyAll_ok {mode : VideoMode} (ops : List (Fin 32 × Fin 256 × Bool × U8)) :
    ∀ (b : Bitmap), b.Valid mode → (∀ op ∈ ops, AuxOk mode op.2.2.1) →
    ∃ b', b.applyAll mode.cls ops = .ok b' ∧ b'.Valid mode ∧
      (b'.bank false, b'.bank true)
        = ops.foldl (fun m op => storeBank m op.2.2.1 op.1 op.2.1 op.2.2.2)
            (b.bank false, b.bank true) := by
  induction ops with
  | nil => intro b hv _; exact ⟨b, rfl, hv, rfl⟩
  | cons op ops ih =>
    intro b hv hx
    obtain ⟨p, o, isAux, v⟩ := op
    have hx0 : AuxOk mode isAux := hx (p, o, isAux, v) (by simp)
    obtain ⟨b1, h1, h2, h3, h4⟩ := apply_ok b hv p o isAux hx0 v
    obtain ⟨b2, g1, g2, g3⟩ := ih b1 h2 (fun op hm => hx op (by simp [hm]))
    refine ⟨b2, ?_, g2, ?_⟩
    · unfold Bitmap.applyAll at g1 ⊢
      rw [List.foldlM_cons]
      simp only [h1]
      exact g1
    · rw [g3, List.foldl_cons]
      congr 1
      cases isAux
      · simp at h3 h4; simp [storeBank, h3, h4]
      · simp at h3 h4; simp [storeBank, h3, h4]

theorem hgr_new_valid {m : MemoryMap} {b : Bitmap} (hm : m.screenPage = 1)
    (hb : HGRBitmap.new m = .ok b) : b.Valid .HGR ∧ b.main = m ∧ b.aux = none :=
  new_valid .HGR m none b hm (by simp) rfl hb

theorem dhgr_new_valid {m a : MemoryMap} {b : Bitmap} (hm : m.screenPage = 1)
    (ha : a.screenPage = 1) (hb : DHGRBitmap.new m a = .ok b) :
    b.Valid .DHGR ∧ b.main = m ∧ b.aux = some a :=
  new_valid .DHGR m (some a) b hm (by simp [ha]) rfl hb

/-- C04: starting from an HGR bitmap built on any memory (screen page 1, as `Video`
uses), any sequence of byte stores through `apply` succeeds; the resulting bitmap is
exactly what building one from scratch on the current memory gives (in particular the
packed array is a fresh pack), and memory is the initial memory with those stores
performed in order. -/
theorem C04_hgr_packed_is_fresh (m : MemoryMap) (hm : m.screenPage = 1) (b : Bitmap)
    (hb : HGRBitmap.new m = .ok b) (ops : List (Fin 32 × Fin 256 × U8)) :
    ∃ b', b.applyAll hgr (ops.map fun op => (op.1, op.2.1, false, op.2.2)) = .ok b' ∧
      HGRBitmap.new b'.main = .ok b' ∧
      b'.main.pageOffset = ops.foldl (fun m op => Grid.set m op.1 op.2.1 op.2.2) m.pageOffset := by
  obtain ⟨hv, hbm, hba⟩ := hgr_new_valid hm hb
  obtain ⟨b', h1, h2, h3⟩ := applyAll_ok (mode := .HGR)
    (ops.map fun op => (op.1, op.2.1, false, op.2.2)) b hv
    (by intro op hop; simp at hop; obtain ⟨_, _, _, _, rfl⟩ := hop; intro h; cases h)
  refine ⟨b', h1, ?_, ?_⟩
  · have ha : b'.aux = none := by have := h2.auxSome; simp at this; exact this
    have := h2.fresh; rw [ha] at this; exact this
  · have h : b'.bank false = _ := congrArg Prod.fst h3
    have hgen : ∀ (ops : List (Fin 32 × Fin 256 × U8)) (x y : Mem),
        ((ops.map fun op => (op.1, op.2.1, false, op.2.2)).foldl
          (fun m (op : Fin 32 × Fin 256 × Bool × U8) => storeBank m op.2.2.1 op.1 op.2.1 op.2.2.2)
          (x, y)).1 = ops.foldl (fun m op => Grid.set m op.1 op.2.1 op.2.2) x := by
      intro ops
      induction ops with
      | nil => intro x y; rfl
      | cons op ops ih => intro x y; exact ih _ _
    rw [hgen] at h
    change b'.main.pageOffset = _ at h
    rw [h, ← hbm]; rfl

example : ∃ m b, MemoryMap.new 1 none = .ok m ∧ m.screenPage = 1 ∧ HGRBitmap.new m = .ok b :=
  ⟨_, _, rfl, rfl, rfl⟩

/-- C05: the same for DHGR and any interleaving of main and aux stores. -/
theorem C05_dhgr_packed_is_fresh (m a : MemoryMap) (hm : m.screenPage = 1) (ha : a.screenPage = 1)
    (b : Bitmap) (hb : DHGRBitmap.new m a = .ok b) (ops : List (Fin 32 × Fin 256 × Bool × U8)) :
    ∃ b' a', b.applyAll dhgr ops = .ok b' ∧ b'.aux = some a' ∧
      DHGRBitmap.new b'.main a' = .ok b' ∧
      (b'.main.pageOffset, a'.pageOffset)
        = ops.foldl (fun m op => storeBank m op.2.2.1 op.1 op.2.1 op.2.2.2)
            (m.pageOffset, a.pageOffset) := by
  obtain ⟨hv, hbm, hba⟩ := dhgr_new_valid hm ha hb
  obtain ⟨b', h1, h2, h3⟩ := applyAll_ok (mode := .DHGR) ops b hv (fun _ _ _ => rfl)
  obtain ⟨a', ha'⟩ : ∃ a', b'.aux = some a' := by
    have := h2.auxSome; simp [Option.isSome_iff_exists] at this; exact this
  refine ⟨b', a', h1, ha', ?_, ?_⟩
  · have := h2.fresh; rw [ha'] at this; exact this
  · simp only [Bitmap.bank, hbm, hba, ha', Bool.false_eq_true, if_false, if_true, Option.map_some,
      Option.getD_some] at h3
    exact h3

example : ∃ m b, MemoryMap.new 1 none = .ok m ∧ m.screenPage = 1 ∧ DHGRBitmap.new m m = .ok b :=
  ⟨_, _, rfl, rfl, rfl⟩

/-- C06 (HGR): equal packed arrays come from equal memories. -/
theorem C06_hgr_lossless (m m' : MemoryMap) (b b' : Bitmap) (hb : HGRBitmap.new m = .ok b)
    (hb' : HGRBitmap.new m' = .ok b') (h : b.packed = b'.packed) :
    m.pageOffset = m'.pageOffset := by
  have hw : ∀ (m : MemoryMap) (b : Bitmap), HGRBitmap.new m = .ok b → ∀ p o,
      HasBits (VideoMode.HGR.cell b.packed false p o)
        (window .HGR m.pageOffset (fun _ _ => 0) false p o) := by
    intro m b hb p o
    have hp : b.packed = packOf hgr hgrBodyOf (hgrBytes m.pageOffset) := by
      have := hgr_new m
      change Bitmap.new hgr m none = _ at hb
      rw [this] at hb; cases hb; rfl
    have hv := (hgr_new_valid (m := ⟨1, m.pageOffset⟩) rfl rfl).1
    have := cell_window hv (isAux := false) (by intro h; cases h) p o
    rw [hp]
    exact this
  funext p o
  have h1 := hw m b hb p o
  have h2 := hw m' b' hb' p o
  rw [h] at h1
  have := h1.unique h2 (by rw [window_length, window_length]) (by rw [window_length]; decide)
  simp only [window, hgrWindow] at this
  apply BitVec.eq_of_getLsbD_eq
  intro i hi
  rcases Nat.mod_two_eq_zero_or_one o.val with ho | ho <;>
  · simp only [ho, show ((0 : Nat) == 1) = false from rfl, show ((1 : Nat) == 1) = true from rfl,
      Bool.false_eq_true, if_false, if_true, List.cons_append, List.nil_append,
      List.cons.injEq] at this
    obtain ⟨-, -, -, t0, t1, t2, t3, t4, t5, t6, t7, -⟩ := this
    have hi' : i = 0 ∨ i = 1 ∨ i = 2 ∨ i = 3 ∨ i = 4 ∨ i = 5 ∨ i = 6 ∨ i = 7 := by omega
    rcases hi' with rfl | rfl | rfl | rfl | rfl | rfl | rfl | rfl <;> assumption

/-- C06 (DHGR): equal packed arrays come from memories that agree on the low 7 bits of
every byte of both banks; and that is all that is dropped. -/
theorem C06_dhgr_lossless (m a m' a' : MemoryMap) (b b' : Bitmap) (hb : DHGRBitmap.new m a = .ok b)
    (hb' : DHGRBitmap.new m' a' = .ok b') :
    b.packed = b'.packed ↔
    ∀ p o, m.pageOffset p o &&& 0x7f#8 = m'.pageOffset p o &&& 0x7f#8 ∧
      a.pageOffset p o &&& 0x7f#8 = a'.pageOffset p o &&& 0x7f#8 := by
  have hp : ∀ (m a : MemoryMap) (b : Bitmap), DHGRBitmap.new m a = .ok b →
      b.packed = packOf dhgr dhgrBodyOf (dhgrBytes m.pageOffset a.pageOffset) := by
    intro m a b hb
    change Bitmap.new dhgr m (some a) = _ at hb
    rw [dhgr_new m a] at hb; cases hb; rfl
  constructor
  · intro h
    have hw : ∀ (m a : MemoryMap) (b : Bitmap), DHGRBitmap.new m a = .ok b → ∀ isAux p o,
        HasBits (VideoMode.DHGR.cell b.packed isAux p o)
          (window .DHGR m.pageOffset a.pageOffset isAux p o) := by
      intro m a b hb isAux p o
      have hv := (dhgr_new_valid (m := ⟨1, m.pageOffset⟩) (a := ⟨1, a.pageOffset⟩) rfl rfl rfl).1
      have := cell_window hv (isAux := isAux) (fun _ => rfl) p o
      rw [hp m a b hb]
      exact this
    have key : ∀ isAux p o, window .DHGR m.pageOffset a.pageOffset isAux p o
        = window .DHGR m'.pageOffset a'.pageOffset isAux p o := by
      intro isAux p o
      have h1 := hw m a b hb isAux p o
      have h2 := hw m' a' b' hb' isAux p o
      rw [h] at h1
      exact h1.unique h2 (by rw [window_length, window_length]) (by rw [window_length]; decide)
    intro p o
    refine ⟨?_, ?_⟩
    · have := key false p o
      simp only [window, dhgrWindow, List.cons.injEq] at this
      obtain ⟨-, -, -, t0, t1, t2, t3, t4, t5, t6, -⟩ := this
      apply BitVec.eq_of_getLsbD_eq
      intro i hi
      rw [BitVec.getLsbD_and, BitVec.getLsbD_and]
      have hi' : i = 0 ∨ i = 1 ∨ i = 2 ∨ i = 3 ∨ i = 4 ∨ i = 5 ∨ i = 6 ∨ i = 7 := by omega
      rcases hi' with rfl | rfl | rfl | rfl | rfl | rfl | rfl | rfl <;> simp_all
    · have := key true p o
      simp only [window, dhgrWindow, List.cons.injEq] at this
      obtain ⟨-, -, -, t0, t1, t2, t3, t4, t5, t6, -⟩ := this
      apply BitVec.eq_of_getLsbD_eq
      intro i hi
      rw [BitVec.getLsbD_and, BitVec.getLsbD_and]
      have hi' : i = 0 ∨ i = 1 ∨ i = 2 ∨ i = 3 ∨ i = 4 ∨ i = 5 ∨ i = 6 ∨ i = 7 := by omega
      rcases hi' with rfl | rfl | rfl | rfl | rfl | rfl | rfl | rfl <;> simp_all
  · intro h
    rw [hp m a b hb, hp m' a' b' hb']
    have e : ∀ (m a : Mem) p c, dhgrBodyOf (dhgrBytes m a p c)
        = dhgrBodyCol (a p (evenOff c)) (m p (evenOff c)) (a p (oddOff c)) (m p (oddOff c)) :=
      fun _ _ _ _ => rfl
    have hm : ∀ x y : U8, x &&& 0x7f#8 = y &&& 0x7f#8 → u64 (x &&& 0x7f#8) = u64 (y &&& 0x7f#8) :=
      fun _ _ h => congrArg u64 h
    have hB : (fun p c => dhgrBodyOf (dhgrBytes m.pageOffset a.pageOffset p c))
        = fun p c => dhgrBodyOf (dhgrBytes m'.pageOffset a'.pageOffset p c) := by
      funext p c
      rw [e, e]
      unfold dhgrBodyCol
      rw [hm _ _ (h p (evenOff c)).1, hm _ _ (h p (evenOff c)).2, hm _ _ (h p (oddOff c)).1,
        hm _ _ (h p (oddOff c)).2]
    exact congrArg (Cls.packBody dhgr) hB

example : ∃ m b, HGRBitmap.new m = .ok b := ⟨⟨1, fun _ o => if o = 5 then 0x85 else 3⟩, _, rfl⟩

/-- C07: for a bitmap of either mode that equals a fresh pack of its memory, the masked
value at any byte is obtained without tripping the assertion, is a valid index component
(below `2^MASKED_BITS`), and its bits are exactly the byte's display bits with the three
neighbouring bits on either side. -/
theorem C07_masked_window {mode : VideoMode} {b : Bitmap} (hv : b.Valid mode) {isAux : Bool}
    (hx : isAux = true → mode = .DHGR) (p : Fin 32) (o : Fin 256) :
    ∃ k x, mode.cls.byteOffset o isAux = .ok k ∧
      mode.cls.maskAndShift (b.packed p ⟨o.val / 2, by omega⟩) k = .ok x ∧
      x.toNat < 2 ^ mode.cls.maskedBits ∧
      x.toNat = bitsVal (window mode (b.bank false) (b.bank true) isAux p o) := by
  refine ⟨mode.kOf isAux o, mode.cell b.packed isAux p o, byteOffset_ok hx o,
    maskAndShift_ok mode _ (kOf_lt mode isAux o), masked_lt mode _ (kOf_lt mode isAux o), ?_⟩
  apply (cell_window hv hx p o).toNat
  rw [window_length]; have := maskedBits_le mode; omega

theorem new_valid_example : ∃ b, Bitmap.Valid .DHGR b :=
  ⟨_, (dhgr_new_valid (m := ⟨1, fun _ _ => 3⟩) (a := ⟨1, fun _ _ => 5⟩) rfl rfl rfl).1⟩
example : ∃ b, Bitmap.Valid .HGR b := ⟨_, (hgr_new_valid (m := ⟨1, fun _ _ => 3⟩) rfl rfl).1⟩

/-! ### Distance tables -/

theorem pair_div (N a b : Nat) (hb : b < 2 ^ N) :
    (a * 2 ^ N + b) / 2 ^ N = a ∧ (a * 2 ^ N + b) % 2 ^ N = b := by
  have hpos : 0 < 2 ^ N := Nat.two_pow_pos _
  constructor
  · rw [Nat.mul_comm, Nat.mul_add_div hpos, Nat.div_eq_of_lt hb, Nat.add_zero]
  · rw [Nat.mul_comm, Nat.mul_add_mod, Nat.mod_eq_of_lt hb]

theorem transpose_eq (C : Cls) (a b : Nat) (hb : b < 2 ^ C.maskedBits) :
    C.transpose (a * 2 ^ C.maskedBits + b) = b * 2 ^ C.maskedBits + a := by
  unfold Cls.transpose
  rw [Nat.shiftRight_eq_div_pow, Nat.shiftLeft_eq, (pair_div _ a b hb).1, (pair_div _ a b hb).2,
    Nat.add_comm]

/-- C12: whatever pairwise distances `gen k i j` (`i > j`) the generator computed, the
matrix that `edit_distances` returns is symmetric, zero on the diagonal and equal to the
generated value for `a > b` (no entry is counted twice and nothing wraps). `transpose`
is an involution on the index range, so the scatter-add touches every entry once. -/
theorem C12_table_symmetric (C : Cls) (gen : Nat → Nat → Nat → BitVec 16) (k a b : Nat)
    (ha : a < 2 ^ C.maskedBits) (hb : b < 2 ^ C.maskedBits) :
    (C.editDistances (C.generated gen) k (a * 2 ^ C.maskedBits + b)
      = C.editDistances (C.generated gen) k (b * 2 ^ C.maskedBits + a)) ∧
    C.editDistances (C.generated gen) k (a * 2 ^ C.maskedBits + a) = 0 ∧
    (b < a → C.editDistances (C.generated gen) k (a * 2 ^ C.maskedBits + b) = gen k a b) ∧
    C.transpose (C.transpose (a * 2 ^ C.maskedBits + b)) = a * 2 ^ C.maskedBits + b := by
  have e1 : ∀ x y, y < 2 ^ C.maskedBits →
      C.generated gen k (x * 2 ^ C.maskedBits + y) = if y < x then gen k x y else 0 := by
    intro x y hy
    unfold Cls.generated
    simp only [(pair_div _ x y hy).1, (pair_div _ x y hy).2]
  have e2 : ∀ x y, x < 2 ^ C.maskedBits → y < 2 ^ C.maskedBits →
      C.editDistances (C.generated gen) k (x * 2 ^ C.maskedBits + y)
        = (if y < x then gen k x y else 0) + (if x < y then gen k y x else 0) := by
    intro x y hx hy
    unfold Cls.editDistances
    rw [transpose_eq C x y hy, e1 x y hy, e1 y x hx]
  refine ⟨?_, ?_, ?_, ?_⟩
  · rw [e2 a b ha hb, e2 b a hb ha, BitVec.add_comm]
  · rw [e2 a a ha ha]; simp
  · intro h
    rw [e2 a b ha hb, if_pos h, if_neg (by omega)]; simp
  · rw [transpose_eq C a b hb, transpose_eq C b a ha]

theorem C12_symmetric_spec (C : Cls) (gen : Nat → Nat → Nat → BitVec 16) :
    Symmetric C.maskedBits (C.editDistances (C.generated gen)) ∧
    ZeroDiag C.maskedBits (C.editDistances (C.generated gen)) :=
  ⟨fun k a b ha hb => (C12_table_symmetric C gen k a b ha hb).1,
   fun k a ha => (C12_table_symmetric C gen k a a ha ha).2.1⟩

example : (5 : Nat) < 2 ^ hgr.maskedBits ∧ (16383 : Nat) < 2 ^ hgr.maskedBits := by decide

theorem dist_eq_table (mode : VideoMode) (t : EditTable) (k : Nat) (x y : U64) :
    mode.dist t k x y = (t k (x.toNat * 2 ^ mode.cls.maskedBits + y.toNat)).toNat := rfl

theorem cell_toNat {mode : VideoMode} {b : Bitmap} (hv : b.Valid mode) {isAux : Bool}
    (hx : AuxOk mode isAux) (p : Fin 32) (o : Fin 256) :
    (mode.cell b.packed isAux p o).toNat = winVal mode (b.bank false) (b.bank true) isAux p o := by
  apply (cell_window hv hx p o).toNat
  rw [window_length]; have := maskedBits_le mode; omega

theorem winVal_lt (mode : VideoMode) (m a : Mem) (isAux : Bool) (p : Fin 32) (o : Fin 256) :
    winVal mode m a isAux p o < 2 ^ mode.cls.maskedBits := by
  unfold winVal
  apply Nat.lt_pow_two_of_testBit
  intro i hi
  rw [testBit_bitsVal, List.getD_eq_getElem?_getD,
    List.getElem?_eq_none (by rw [window_length]; exact hi)]
  rfl

theorem winVal_inj {mode : VideoMode} {m a m' a' : Mem} {isAux : Bool} {p : Fin 32} {o : Fin 256}
    (h : winVal mode m a isAux p o = winVal mode m' a' isAux p o) :
    window mode m a isAux p o = window mode m' a' isAux p o :=
  bitsVal_inj (by rw [window_length, window_length]) h

/-- C13, closed form: `diff_weights` never fails and the weight of a cell is the table's
distance between the source window and the target window at that byte. -/
theorem C13_diff_weights {mode : VideoMode} {src tgt : Bitmap} (hs : src.Valid mode)
    (ht : tgt.Valid mode) {isAux : Bool} (hx : isAux = true → mode = .DHGR) (t : EditTable) :
    ∃ w, mode.cls.diffWeights t src.packed tgt.packed isAux = .ok w ∧
    ∀ (p : Fin 32) (o : Fin 256), ∃ k, mode.cls.byteOffset o isAux = .ok k ∧
      w p o = ((t k (winVal mode (src.bank false) (src.bank true) isAux p o
        * 2 ^ mode.cls.maskedBits
        + winVal mode (tgt.bank false) (tgt.bank true) isAux p o)).toNat : Int) := by
  refine ⟨_, diffWeights_ok mode hx t src.packed tgt.packed, ?_⟩
  intro p o
  refine ⟨mode.kOf isAux o, byteOffset_ok hx o, ?_⟩
  simp only [dist_eq_table, cell_toNat hs hx, cell_toNat ht hx]

/-- C13: with a zero-diagonal table, equal memories have zero weight everywhere; with a
table that is zero only on the diagonal, a weight is zero iff the windows coincide, and in
DHGR a zero weight implies the stored byte's 7 display bits are equal. -/
theorem C13_zero_weights {mode : VideoMode} {src tgt : Bitmap} (hs : src.Valid mode)
    (ht : tgt.Valid mode) {isAux : Bool} (hx : isAux = true → mode = .DHGR) (t : EditTable)
    (w : Grid Int) (hw : mode.cls.diffWeights t src.packed tgt.packed isAux = .ok w) :
    (ZeroDiag mode.cls.maskedBits t → src.bank false = tgt.bank false →
      src.bank true = tgt.bank true → ∀ p o, w p o = 0) ∧
    (DiagOnly mode.cls t → ∀ p o,
      (w p o = 0 ↔ window mode (src.bank false) (src.bank true) isAux p o
        = window mode (tgt.bank false) (tgt.bank true) isAux p o) ∧
      (w p o = 0 → mode = .DHGR → src.bank isAux p o &&& 0x7f#8 = tgt.bank isAux p o &&& 0x7f#8)) := by
  obtain ⟨w', hw', hf⟩ := C13_diff_weights hs ht hx t
  rw [hw'] at hw; cases hw
  refine ⟨?_, ?_⟩
  · intro hz h1 h2 p o
    obtain ⟨k, -, he⟩ := hf p o
    rw [he, h1, h2, hz k _ (winVal_lt _ _ _ _ _ _)]; rfl
  · intro hd p o
    obtain ⟨k, hk, he⟩ := hf p o
    have hkl : k < mode.cls.byteMasks.length := by
      rw [byteOffset_ok hx o] at hk
      cases hk
      have := kOf_lt mode isAux o
      cases mode <;> exact this
    have key : w p o = 0 ↔ window mode (src.bank false) (src.bank true) isAux p o
        = window mode (tgt.bank false) (tgt.bank true) isAux p o := by
      have hz := hd k _ _ hkl (winVal_lt mode (src.bank false) (src.bank true) isAux p o)
        (winVal_lt mode (tgt.bank false) (tgt.bank true) isAux p o)
      constructor
      · intro h0
        rw [he] at h0
        apply winVal_inj
        apply hz.1
        apply BitVec.eq_of_toNat_eq
        have : (0 : BitVec 16).toNat = 0 := rfl
        rw [this]; omega
      · intro h0
        have : winVal mode (src.bank false) (src.bank true) isAux p o
            = winVal mode (tgt.bank false) (tgt.bank true) isAux p o := congrArg bitsVal h0
        rw [he, hz.2 this]; rfl
    refine ⟨key, ?_⟩
    intro h0 hm
    subst hm
    have hwin := key.1 h0
    have h7 : ∀ (x y : U8), (x.getLsbD 0 = y.getLsbD 0 ∧ x.getLsbD 1 = y.getLsbD 1 ∧
        x.getLsbD 2 = y.getLsbD 2 ∧ x.getLsbD 3 = y.getLsbD 3 ∧ x.getLsbD 4 = y.getLsbD 4 ∧
        x.getLsbD 5 = y.getLsbD 5 ∧ x.getLsbD 6 = y.getLsbD 6) → x &&& 0x7f#8 = y &&& 0x7f#8 := by
      rintro x y ⟨t0, t1, t2, t3, t4, t5, t6⟩
      apply BitVec.eq_of_getLsbD_eq
      intro i hi
      rw [BitVec.getLsbD_and, BitVec.getLsbD_and]
      have hi' : i = 0 ∨ i = 1 ∨ i = 2 ∨ i = 3 ∨ i = 4 ∨ i = 5 ∨ i = 6 ∨ i = 7 := by omega
      rcases hi' with rfl | rfl | rfl | rfl | rfl | rfl | rfl | rfl <;> simp_all
    cases isAux
    · simp only [window, dhgrWindow, List.cons.injEq] at hwin
      obtain ⟨-, -, -, t0, t1, t2, t3, t4, t5, t6, -⟩ := hwin
      exact h7 _ _ ⟨t0, t1, t2, t3, t4, t5, t6⟩
    · simp only [window, dhgrWindow, List.cons.injEq] at hwin
      obtain ⟨-, -, -, t0, t1, t2, t3, t4, t5, t6, -⟩ := hwin
      exact h7 _ _ ⟨t0, t1, t2, t3, t4, t5, t6⟩

/-- A concrete table meeting the hypotheses used above. -/
def flatTable (N : Nat) : EditTable := fun _ q => if q / 2 ^ N = q % 2 ^ N then 0 else 1

theorem flatTable_spec (N : Nat) :
    (∀ C : Cls, C.maskedBits = N → DiagOnly C (flatTable N)) ∧ ZeroDiag N (flatTable N) ∧ Symmetric N (flatTable N) := by
  refine ⟨?_, ?_, ?_⟩
  · rintro C rfl k a b _ ha hb
    unfold flatTable
    rw [(pair_div _ a b hb).1, (pair_div _ a b hb).2]
    split <;> simp_all
  · intro k a ha
    unfold flatTable
    rw [(pair_div N a a ha).1, (pair_div N a a ha).2, if_pos rfl]
  · intro k a b ha hb
    unfold flatTable
    rw [(pair_div N a b hb).1, (pair_div N a b hb).2, (pair_div N b a ha).1, (pair_div N b a ha).2]
    by_cases h : a = b
    · subst h; rfl
    · rw [if_neg h, if_neg (fun h' => h h'.symm)]

/-- C14: for any target bitmap and symmetric table, the delta computed for storing
`content` at offset `o` is (the error `byte_pair_difference` reports for that store, namely
the table distance between the target window and the target window with `content` in place)
minus the recorded weight.  Patching neighbouring headers/footers in the vectorised code
does not influence it. -/
theorem C14_delta_is_own_error {mode : VideoMode} {tgt : Bitmap} (ht : tgt.Valid mode)
    {isAux : Bool} (hx : isAux = true → mode = .DHGR) (t : EditTable)
    (hsym : Symmetric mode.cls.maskedBits t) (p : Fin 32) (content : U8) (dw : Fin 256 → Int) :
    ∃ delta, mode.cls.computeDeltaPage t tgt.packed p content dw isAux = .ok delta ∧
    ∀ o : Fin 256, ∃ k d, mode.cls.byteOffset o isAux = .ok k ∧
      mode.cls.bytePairDifference t k (tgt.packed p ⟨o.val / 2, by omega⟩) content = .ok d ∧
      delta o = (d.toNat : Int) - dw o ∧
      d = t k (winVal mode (tgt.bank false) (tgt.bank true) isAux p o * 2 ^ mode.cls.maskedBits
        + winVal mode (storeBank (tgt.bank false, tgt.bank true) isAux p o content).1
            (storeBank (tgt.bank false, tgt.bank true) isAux p o content).2 isAux p o) := by
  refine ⟨_, computeDeltaPage_ok mode hx t tgt.packed p content dw, ?_⟩
  intro o
  have hk := kOf_lt mode isAux o
  refine ⟨mode.kOf isAux o, _, byteOffset_ok hx o, bytePairDifference_ok mode t hk _ _, ?_, ?_⟩
  · simp only [VideoMode.dist]
    congr 3
    have := hsym (mode.kOf isAux o) _ _ (masked_lt mode
      (mode.cls.maskedUpdate (mode.kOf isAux o) (tgt.packed p (colOf o)) content) hk)
      (masked_lt mode (tgt.packed p (colOf o)) hk)
    exact this
  · have h1 := cell_toNat ht hx p o
    have h2 : (mode.cellWith tgt.packed isAux p o content).toNat
        = winVal mode (storeBank (tgt.bank false, tgt.bank true) isAux p o content).1
            (storeBank (tgt.bank false, tgt.bank true) isAux p o content).2 isAux p o := by
      have hb := cellWith_window ht hx p o content
      have e : winVal mode (storeBank (tgt.bank false, tgt.bank true) isAux p o content).1
            (storeBank (tgt.bank false, tgt.bank true) isAux p o content).2 isAux p o
          = bitsVal (window mode (if isAux then tgt.bank false else
              Grid.set (tgt.bank false) p o content)
            (if isAux then Grid.set (tgt.bank true) p o content else tgt.bank true) isAux p o) := by
        cases isAux <;> rfl
      rw [e]
      apply hb.toNat
      rw [window_length]; have := maskedBits_le mode; omega
    rw [← h1, ← h2]
    rfl

end IIVision
