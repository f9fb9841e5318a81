import Verif.Proofs.Window

/-! Masked values are in range, neighbour fix-ups do not matter, and closed forms of
`diff_weights`, `compute_delta_page` and `byte_pair_difference`. -/

namespace IIVision
open BitVec Spec
set_option linter.unusedSimpArgs false

/-- Bytes per packed column. -/
def VideoMode.n : VideoMode → Nat
  | .HGR => 2
  | .DHGR => 4

theorem byteOffset_ok {mode : VideoMode} {isAux : Bool} (hx : AuxOk mode isAux) (o : Nat) :
    mode.cls.byteOffset o isAux = .ok (mode.kOf isAux o) := by
  cases mode with
  | HGR =>
    cases isAux with
    | true => exact absurd (hx rfl) (by decide)
    | false =>
      show hgrByteOffset o false = .ok (o % 2)
      rcases Nat.mod_two_eq_zero_or_one o with h | h <;>
      · unfold hgrByteOffset; simp [pyAssert, bind, Except.bind, pure, Except.pure, h]
  | DHGR =>
    show dhgrByteOffset o isAux = .ok (2 * (o % 2) + (if isAux then 0 else 1))
    rcases Nat.mod_two_eq_zero_or_one o with h | h <;> cases isAux <;>
    · unfold dhgrByteOffset; simp [h]

theorem byteOffsets_ok {mode : VideoMode} {isAux : Bool} (hx : AuxOk mode isAux) :
    mode.cls.byteOffsets isAux = .ok (mode.kOf isAux 0, mode.kOf isAux 1) := by
  cases mode with
  | HGR =>
    cases isAux with
    | true => exact absurd (hx rfl) (by decide)
    | false => rfl
  | DHGR => cases isAux <;> rfl

theorem kOf_lt (mode : VideoMode) (isAux : Bool) (o : Nat) : mode.kOf isAux o < mode.n := by
  cases mode with
  | HGR => show o % 2 < 2; omega
  | DHGR => show 2 * (o % 2) + _ < 4; split <;> omega

theorem byteMasks_length (mode : VideoMode) : mode.cls.byteMasks.length = mode.n := by
  cases mode <;> rfl

theorem maskedBits_le (mode : VideoMode) : mode.cls.maskedBits ≤ 14 := by cases mode <;> decide

theorem bits_zero_lt {x : U64} {n : Nat} (h : ∀ i, i < 64 → n ≤ i → x.getLsbD i = false) :
    x.toNat < 2 ^ n := by
  apply Nat.lt_pow_two_of_testBit
  intro i hi
  rw [BitVec.testBit_toNat]
  by_cases h' : i < 64
  · exact h i h' hi
  · exact getLsbD_of_ge _ _ (by omega)

/-- The masked value is always a valid table index component. -/
theorem masked_lt (mode : VideoMode) (x : U64) {k : Nat} (hk : k < mode.n) :
    (mode.cls.masked x k).toNat < 2 ^ mode.cls.maskedBits := by
  cases mode with
  | HGR =>
    show (hgr.masked x k).toNat < 2 ^ 14
    have : k = 0 ∨ k = 1 := by have : k < 2 := hk; omega
    apply bits_zero_lt
    intro i h1 h2
    rcases this with rfl | rfl
    · show ((x &&& 0x3fff#64) >>> 0).getLsbD i = false
      simp only [getLsbD_and, getLsbD_ushiftRight]
      interval_cases i <;> simp
    · show ((x &&& 0x3fff00#64) >>> 8).getLsbD i = false
      simp only [getLsbD_and, getLsbD_ushiftRight]
      interval_cases i <;> simp
  | DHGR =>
    show (dhgr.masked x k).toNat < 2 ^ 13
    have : k = 0 ∨ k = 1 ∨ k = 2 ∨ k = 3 := by have : k < 4 := hk; omega
    apply bits_zero_lt
    intro i h1 h2
    rcases this with rfl | rfl | rfl | rfl
    · show ((x &&& 0x1fff#64) >>> 0).getLsbD i = false
      simp only [getLsbD_and, getLsbD_ushiftRight]
      interval_cases i <;> simp
    · show ((x &&& 0xfff80#64) >>> 7).getLsbD i = false
      simp only [getLsbD_and, getLsbD_ushiftRight]
      interval_cases i <;> simp
    · show ((x &&& 0x7ffc000#64) >>> 14).getLsbD i = false
      simp only [getLsbD_and, getLsbD_ushiftRight]
      interval_cases i <;> simp
    · show ((x &&& 0x3ffe00000#64) >>> 21).getLsbD i = false
      simp only [getLsbD_and, getLsbD_ushiftRight]
      interval_cases i <;> simp

theorem masked_fixLeft (mode : VideoMode) (x y : U64) :
    mode.cls.masked (mode.cls.fixColumnLeft x y) 0 = mode.cls.masked x 0 := by
  cases mode with
  | HGR =>
    show (((x &&& BitVec.ofNat 64 (2 ^ (3 + 16) - 1)) ^^^ hgrMakeFooter y) &&& 0x3fff#64) >>> 0
      = (x &&& 0x3fff#64) >>> 0
    have := hgr_ftrLike y
    generalize hgrMakeFooter y = f at *
    unfold FtrLike at this
    apply BitVec.eq_of_getLsbD_eq; intro i hi
    simp only [getLsbD_and, getLsbD_xor, getLsbD_ushiftRight]
    interval_cases i <;> simp [this, -getLsbD_eq_getElem]
  | DHGR =>
    show (((x &&& BitVec.ofNat 64 (2 ^ (3 + 28) - 1)) ^^^ dhgrMakeFooter y) &&& 0x1fff#64) >>> 0
      = (x &&& 0x1fff#64) >>> 0
    have := dhgr_ftrLike y
    generalize dhgrMakeFooter y = f at *
    unfold FtrLike at this
    apply BitVec.eq_of_getLsbD_eq; intro i hi
    simp only [getLsbD_and, getLsbD_xor, getLsbD_ushiftRight]
    interval_cases i <;> simp [this, -getLsbD_eq_getElem]

theorem masked_fixRight (mode : VideoMode) (x y : U64) :
    mode.cls.masked (mode.cls.fixColumnRight x y) (mode.n - 1)
      = mode.cls.masked x (mode.n - 1) := by
  cases mode with
  | HGR =>
    show (((x &&& (BitVec.ofNat 64 (2 ^ (16 + 3) - 1) <<< 3)) ^^^ hgrMakeHeader y)
      &&& 0x3fff00#64) >>> 8 = (x &&& 0x3fff00#64) >>> 8
    have := hgr_hdrLike y
    generalize hgrMakeHeader y = f at *
    unfold HdrLike at this
    apply BitVec.eq_of_getLsbD_eq; intro i hi
    simp only [getLsbD_and, getLsbD_xor, getLsbD_ushiftRight, getLsbD_shiftLeft]
    interval_cases i <;> simp [this, -getLsbD_eq_getElem]
  | DHGR =>
    show (((x &&& (BitVec.ofNat 64 (2 ^ (28 + 3) - 1) <<< 3)) ^^^ dhgrMakeHeader y)
      &&& 0x3ffe00000#64) >>> 21 = (x &&& 0x3ffe00000#64) >>> 21
    have := dhgr_hdrLike y
    generalize dhgrMakeHeader y = f at *
    unfold HdrLike at this
    apply BitVec.eq_of_getLsbD_eq; intro i hi
    simp only [getLsbD_and, getLsbD_xor, getLsbD_ushiftRight, getLsbD_shiftLeft]
    interval_cases i <;> simp [this, -getLsbD_eq_getElem]

theorem masked_fixArray (mode : VideoMode) (a : Row) (k : Nat) (c : Fin 128) :
    mode.cls.masked (mode.cls.fixArrayNeighbours a k c) k = mode.cls.masked (a c) k := by
  unfold Cls.fixArrayNeighbours
  split
  · rename_i h; subst h; exact masked_fixLeft mode _ _
  · split
    · rename_i h
      have : k = mode.n - 1 := by rw [h, Cls.screenBytes, byteMasks_length]
      subst this
      exact masked_fixRight mode _ _
    · rfl

/-- `(x << N) + y` as a natural number. -/
def VideoMode.pairNat (mode : VideoMode) (x y : U64) : Nat :=
  x.toNat * 2 ^ mode.cls.maskedBits + y.toNat

theorem pair_toNat (mode : VideoMode) {x y : U64} (hx : x.toNat < 2 ^ mode.cls.maskedBits)
    (hy : y.toNat < 2 ^ mode.cls.maskedBits) :
    ((x <<< mode.cls.maskedBits) + y).toNat = mode.pairNat x y := by
  unfold VideoMode.pairNat
  have h : mode.cls.maskedBits = 14 ∨ mode.cls.maskedBits = 13 := by cases mode <;> simp [VideoMode.cls, hgr, dhgr]
  rw [BitVec.toNat_add, BitVec.toNat_shiftLeft, Nat.shiftLeft_eq]
  rcases h with h | h <;> rw [h] at hx hy ⊢ <;> omega

theorem pairNat_lt (mode : VideoMode) {x y : U64} (hx : x.toNat < 2 ^ mode.cls.maskedBits)
    (hy : y.toNat < 2 ^ mode.cls.maskedBits) :
    mode.pairNat x y < 2 ^ (2 * mode.cls.maskedBits) := by
  unfold VideoMode.pairNat
  have h : mode.cls.maskedBits = 14 ∨ mode.cls.maskedBits = 13 := by cases mode <;> simp [VideoMode.cls, hgr, dhgr]
  rcases h with h | h <;> rw [h] at hx hy ⊢ <;> omega

/-- Distance read from the table for two masked values. -/
def VideoMode.dist (mode : VideoMode) (t : EditTable) (k : Nat) (x y : U64) : Nat :=
  (t k (mode.pairNat x y)).toNat

theorem dist_lt (mode : VideoMode) (t : EditTable) (k : Nat) (x y : U64) :
    mode.dist t k x y < 65536 := (t k (mode.pairNat x y)).isLt

/-- The column holding an offset. -/
def colOf (o : Fin 256) : Fin 128 := ⟨o.val / 2, by omega⟩

/-- Masked value at a cell of a packed array. -/
def VideoMode.cell (mode : VideoMode) (a : Packed) (isAux : Bool) (p : Fin 32) (o : Fin 256) : U64 :=
  mode.cls.masked (a p (colOf o)) (mode.kOf isAux o)

/-- Masked value at a cell after storing `v` there. -/
def VideoMode.cellWith (mode : VideoMode) (a : Packed) (isAux : Bool) (p : Fin 32) (o : Fin 256)
    (v : U8) : U64 :=
  mode.cls.masked (mode.cls.maskedUpdate (mode.kOf isAux o) (a p (colOf o)) v) (mode.kOf isAux o)

theorem kOf_mod (mode : VideoMode) (isAux : Bool) (o : Nat) :
    mode.kOf isAux (o % 2) = mode.kOf isAux o := by
  cases mode <;> simp [VideoMode.kOf]

theorem maskAndShift_ok (mode : VideoMode) (x : U64) {k : Nat} (hk : k < mode.n) :
    mode.cls.maskAndShift x k = .ok (mode.cls.masked x k) := by
  unfold Cls.maskAndShift pyAssert
  have := masked_lt mode x hk
  simp [show (mode.cls.masked x k).toNat ≤ 2 ^ mode.cls.maskedBits by omega, bind, Except.bind,
    pure, Except.pure]

theorem maskAndShiftRow_ok (mode : VideoMode) (x : Row) {k : Nat} (hk : k < mode.n) :
    mode.cls.maskAndShiftRow x k = .ok fun c => mode.cls.masked (x c) k := by
  unfold Cls.maskAndShiftRow pyAssert
  have : ∀ c, (mode.cls.masked (x c) k).toNat ≤ 2 ^ mode.cls.maskedBits := fun c => by
    have := masked_lt mode (x c) hk; omega
  simp [this, bind, Except.bind, pure, Except.pure]

theorem lookup_ok (mode : VideoMode) (t : EditTable) {k : Nat} (hk : k < mode.n) {x y : U64}
    (hx : x.toNat < 2 ^ mode.cls.maskedBits) (hy : y.toNat < 2 ^ mode.cls.maskedBits) :
    mode.cls.lookup t k ((x <<< mode.cls.maskedBits) + y) = .ok (t k (mode.pairNat x y)) := by
  unfold Cls.lookup
  rw [pair_toNat mode hx hy, if_pos ⟨pairNat_lt mode hx hy, by rw [byteMasks_length]; exact hk⟩]

theorem bytePairDifference_ok (mode : VideoMode) (t : EditTable) {k : Nat} (hk : k < mode.n)
    (x : U64) (v : U8) :
    mode.cls.bytePairDifference t k x v
      = .ok (t k (mode.pairNat (mode.cls.masked x k)
          (mode.cls.masked (mode.cls.maskedUpdate k x v) k))) := by
  unfold Cls.bytePairDifference
  simp only [maskAndShift_ok mode _ hk, bind, Except.bind]
  exact lookup_ok mode t hk (masked_lt mode _ hk) (masked_lt mode _ hk)

theorem distsRow_ok (mode : VideoMode) (t : EditTable) {k : Nat} (hk : k < mode.n)
    (src tgt : Row) (content : Option U8) :
    mode.cls.distsRow t src tgt content k = .ok fun c =>
      t k (mode.pairNat
        (match content with
          | some v => mode.cls.masked (mode.cls.maskedUpdate k (src c) v) k
          | none => mode.cls.masked (src c) k)
        (mode.cls.masked (tgt c) k)) := by
  unfold Cls.distsRow
  simp only [maskAndShiftRow_ok mode _ hk, bind, Except.bind]
  unfold Cls.lookupRow
  simp only [pair_toNat mode (masked_lt mode _ hk) (masked_lt mode _ hk)]
  rw [if_pos ⟨fun c => pairNat_lt mode (masked_lt mode _ hk) (masked_lt mode _ hk),
    by rw [byteMasks_length]; exact hk⟩]
  congr 1
  funext c
  cases content with
  | none => rfl
  | some v => simp only [masked_fixArray]

theorem diffWeightsPage_ok (mode : VideoMode) {isAux : Bool} (hx : AuxOk mode isAux)
    (t : EditTable) (src tgt : Row) (content : Option U8) :
    mode.cls.diffWeightsPage t src tgt isAux content = .ok fun o =>
      (mode.dist t (mode.kOf isAux o)
        (match content with
          | some v => mode.cls.masked (mode.cls.maskedUpdate (mode.kOf isAux o) (src (colOf o)) v)
              (mode.kOf isAux o)
          | none => mode.cls.masked (src (colOf o)) (mode.kOf isAux o))
        (mode.cls.masked (tgt (colOf o)) (mode.kOf isAux o)) : Int) := by
  unfold Cls.diffWeightsPage
  simp only [byteOffsets_ok hx, distsRow_ok mode t (kOf_lt mode isAux _), bind, Except.bind, pure,
    Except.pure]
  congr 1
  funext o
  rcases Nat.mod_two_eq_zero_or_one o.val with h | h
  · rw [if_pos h]
    have hk : mode.kOf isAux o.val = mode.kOf isAux 0 := by rw [← kOf_mod mode isAux o.val, h]
    rw [hk]; rfl
  · rw [if_neg (by omega)]
    have hk : mode.kOf isAux o.val = mode.kOf isAux 1 := by rw [← kOf_mod mode isAux o.val, h]
    rw [hk]; rfl

theorem forPages_ok {α : Type} {f : Fin 32 → Except PyErr α} {g : Fin 32 → α}
    (h : ∀ p, f p = .ok (g p)) : forPages f = .ok g := by
  have hs : ∀ p, (f p).toOption.isSome := fun p => by rw [h p]; rfl
  unfold forPages
  rw [dif_pos hs]
  congr 1
  funext p
  have hp : (f p).toOption = some (g p) := by rw [h p]; rfl
  simp only [hp, Option.get_some]

/-- Closed form of `diff_weights`. -/
theorem diffWeights_ok (mode : VideoMode) {isAux : Bool} (hx : AuxOk mode isAux)
    (t : EditTable) (src tgt : Packed) :
    mode.cls.diffWeights t src tgt isAux = .ok fun p o =>
      (mode.dist t (mode.kOf isAux o) (mode.cell src isAux p o) (mode.cell tgt isAux p o) : Int) := by
  unfold Cls.diffWeights
  apply forPages_ok
  intro p
  rw [diffWeightsPage_ok mode hx]
  rfl

/-- Closed form of `compute_delta_page`. -/
theorem computeDeltaPage_ok (mode : VideoMode) {isAux : Bool} (hx : AuxOk mode isAux)
    (t : EditTable) (tgt : Packed) (p : Fin 32) (v : U8) (dw : Fin 256 → Int) :
    mode.cls.computeDeltaPage t tgt p v dw isAux = .ok fun o =>
      (mode.dist t (mode.kOf isAux o) (mode.cellWith tgt isAux p o v) (mode.cell tgt isAux p o) : Int)
        - dw o := by
  unfold Cls.computeDeltaPage
  rw [diffWeightsPage_ok mode hx]
  rfl

end IIVision
