import Verif.Model.Bitmap
import Mathlib.Tactic.IntervalCases

/-! Bit-level facts about the packed column representations. -/

namespace IIVision
open BitVec
set_option linter.unusedSimpArgs false

theorem add_eq_or' {w} {x y : BitVec w} (h : x &&& y = 0#w) : x + y = x ||| y :=
  BitVec.add_eq_or_of_and_eq_zero x y h

/-- Only the three header bits are set. -/
def HdrLike (h : U64) : Prop := ∀ i, 3 ≤ i → h.getLsbD i = false
/-- Only the three bits from `n` on are set. -/
def FtrLike (n : Nat) (f : U64) : Prop := ∀ i, (i < n ∨ n + 3 ≤ i) → f.getLsbD i = false

theorem hdrLike_zero : HdrLike 0#64 := by intro i _; simp
theorem ftrLike_zero (n : Nat) : FtrLike n 0#64 := by intro i _; simp

theorem hgrBodyCol_eq (e o : U8) : hgrBodyCol e o =
    (u64 e <<< 3) ||| ((u64 o &&& 0x7f#64) <<< 12) ||| ((u64 o &&& 0x80#64) <<< 4) := by
  unfold hgrBodyCol
  rw [add_eq_or', add_eq_or']
  · apply BitVec.eq_of_getLsbD_eq; intro i hi
    simp only [getLsbD_and, getLsbD_shiftLeft, getLsbD_setWidth]
    interval_cases i <;> simp
  · rw [add_eq_or']
    all_goals
     apply BitVec.eq_of_getLsbD_eq; intro i hi
     simp only [getLsbD_and, getLsbD_or, getLsbD_shiftLeft, getLsbD_setWidth]
     interval_cases i <;> simp

theorem dhgrBodyCol_eq (a0 m0 a1 m1 : U8) : dhgrBodyCol a0 m0 a1 m1 =
    (u64 (a0 &&& 0x7f#8) <<< 3) ||| (u64 (m0 &&& 0x7f#8) <<< 10) |||
    (u64 (a1 &&& 0x7f#8) <<< 17) ||| (u64 (m1 &&& 0x7f#8) <<< 24) := by
  unfold dhgrBodyCol
  have h1 : (u64 (a0 &&& 0x7f#8) <<< 3) &&& (u64 (m0 &&& 0x7f#8) <<< 10) = 0#64 := by
    apply BitVec.eq_of_getLsbD_eq; intro i hi
    simp only [getLsbD_and, getLsbD_shiftLeft, getLsbD_setWidth]
    interval_cases i <;> simp
  have h2 : ((u64 (a0 &&& 0x7f#8) <<< 3) ||| (u64 (m0 &&& 0x7f#8) <<< 10)) &&&
      (u64 (a1 &&& 0x7f#8) <<< 17) = 0#64 := by
    apply BitVec.eq_of_getLsbD_eq; intro i hi
    simp only [getLsbD_and, getLsbD_or, getLsbD_shiftLeft, getLsbD_setWidth]
    interval_cases i <;> simp
  have h3 : ((u64 (a0 &&& 0x7f#8) <<< 3) ||| (u64 (m0 &&& 0x7f#8) <<< 10) |||
      (u64 (a1 &&& 0x7f#8) <<< 17)) &&& (u64 (m1 &&& 0x7f#8) <<< 24) = 0#64 := by
    apply BitVec.eq_of_getLsbD_eq; intro i hi
    simp only [getLsbD_and, getLsbD_or, getLsbD_shiftLeft, getLsbD_setWidth]
    interval_cases i <;> simp
  rw [add_eq_or' h1, add_eq_or' h2, add_eq_or' h3]

/-! ### HGR -/

theorem hgr_hdrLike (x : U64) : HdrLike (hgrMakeHeader x) := by
  intro i hi
  unfold hgrMakeHeader
  by_cases h : i < 64
  · simp only [getLsbD_and, getLsbD_xor, getLsbD_ushiftRight]
    interval_cases i <;> simp
  · exact getLsbD_of_ge _ _ (by omega)

theorem hgr_ftrLike (x : U64) : FtrLike 19 (hgrMakeFooter x) := by
  intro i hi
  unfold hgrMakeFooter
  by_cases h : i < 64
  · simp only [getLsbD_and, getLsbD_xor, getLsbD_ushiftRight, getLsbD_shiftLeft]
    interval_cases i <;> first | omega | simp
  · exact getLsbD_of_ge _ _ (by omega)

theorem hgr_header_body (e o e' : U8) :
    hgrMakeHeader (hgrBodyCol e o) = hgrMakeHeader (hgrBodyCol e' o) := by
  rw [hgrBodyCol_eq, hgrBodyCol_eq]; unfold hgrMakeHeader
  apply BitVec.eq_of_getLsbD_eq; intro i hi
  simp only [getLsbD_and, getLsbD_or, getLsbD_xor, getLsbD_ushiftRight, getLsbD_shiftLeft,
    getLsbD_setWidth]
  interval_cases i <;> simp

theorem hgr_footer_body (e o o' : U8) :
    hgrMakeFooter (hgrBodyCol e o) = hgrMakeFooter (hgrBodyCol e o') := by
  rw [hgrBodyCol_eq, hgrBodyCol_eq]; unfold hgrMakeFooter
  apply BitVec.eq_of_getLsbD_eq; intro i hi
  simp only [getLsbD_and, getLsbD_or, getLsbD_xor, getLsbD_ushiftRight, getLsbD_shiftLeft,
    getLsbD_setWidth]
  interval_cases i <;> simp

theorem hgr_mu0 {h f : U64} (hh : HdrLike h) (hf : FtrLike 19 f) (e o v : U8) :
    hgrMaskedUpdate 0 (h ^^^ hgrBodyCol e o ^^^ f) v = h ^^^ hgrBodyCol v o ^^^ f := by
  rw [hgrBodyCol_eq, hgrBodyCol_eq]; unfold hgrMaskedUpdate
  rw [if_pos rfl]
  apply BitVec.eq_of_getLsbD_eq; intro i hi
  simp only [getLsbD_and, getLsbD_or, getLsbD_xor, getLsbD_shiftLeft, getLsbD_setWidth,
    getLsbD_not]
  unfold HdrLike at hh; unfold FtrLike at hf
  interval_cases i <;> simp [hh, hf, -getLsbD_eq_getElem]

theorem hgr_mu1 {h f : U64} (hh : HdrLike h) (hf : FtrLike 19 f) (e o v : U8) :
    hgrMaskedUpdate 1 (h ^^^ hgrBodyCol e o ^^^ f) v = h ^^^ hgrBodyCol e v ^^^ f := by
  rw [hgrBodyCol_eq, hgrBodyCol_eq]; unfold hgrMaskedUpdate
  rw [if_neg (by decide)]
  apply BitVec.eq_of_getLsbD_eq; intro i hi
  simp only [getLsbD_and, getLsbD_or, getLsbD_xor, getLsbD_shiftLeft, getLsbD_setWidth,
    getLsbD_not, getLsbD_ushiftRight]
  unfold HdrLike at hh; unfold FtrLike at hf
  interval_cases i <;> simp [hh, hf, -getLsbD_eq_getElem]

theorem hgr_footer_col {h f : U64} (hh : HdrLike h) (hf : FtrLike 19 f) (e o : U8) :
    hgrMakeFooter (h ^^^ hgrBodyCol e o ^^^ f) = hgrMakeFooter (hgrBodyCol e o) := by
  rw [hgrBodyCol_eq]; unfold hgrMakeFooter
  apply BitVec.eq_of_getLsbD_eq; intro i hi
  simp only [getLsbD_and, getLsbD_or, getLsbD_xor, getLsbD_shiftLeft, getLsbD_setWidth,
    getLsbD_ushiftRight]
  unfold HdrLike at hh; unfold FtrLike at hf
  interval_cases i <;> simp [hh, hf, -getLsbD_eq_getElem]

theorem hgr_header_col {h f : U64} (hh : HdrLike h) (hf : FtrLike 19 f) (e o : U8) :
    hgrMakeHeader (h ^^^ hgrBodyCol e o ^^^ f) = hgrMakeHeader (hgrBodyCol e o) := by
  rw [hgrBodyCol_eq]; unfold hgrMakeHeader
  apply BitVec.eq_of_getLsbD_eq; intro i hi
  simp only [getLsbD_and, getLsbD_or, getLsbD_xor, getLsbD_shiftLeft, getLsbD_setWidth,
    getLsbD_ushiftRight]
  unfold HdrLike at hh; unfold FtrLike at hf
  interval_cases i <;> simp [hh, hf, -getLsbD_eq_getElem]

theorem hgr_clear_footer {h f : U64} (hh : HdrLike h) (hf : FtrLike 19 f) (e o : U8) :
    (h ^^^ hgrBodyCol e o ^^^ f) &&& BitVec.ofNat 64 (2 ^ (3 + 16) - 1) = h ^^^ hgrBodyCol e o := by
  rw [hgrBodyCol_eq]
  apply BitVec.eq_of_getLsbD_eq; intro i hi
  simp only [getLsbD_and, getLsbD_or, getLsbD_xor, getLsbD_shiftLeft, getLsbD_setWidth]
  unfold HdrLike at hh; unfold FtrLike at hf
  interval_cases i <;> simp [hh, hf, -getLsbD_eq_getElem]

theorem hgr_clear_header {h f : U64} (hh : HdrLike h) (hf : FtrLike 19 f) (e o : U8) :
    (h ^^^ hgrBodyCol e o ^^^ f) &&& (BitVec.ofNat 64 (2 ^ (16 + 3) - 1) <<< 3)
      = hgrBodyCol e o ^^^ f := by
  rw [hgrBodyCol_eq]
  apply BitVec.eq_of_getLsbD_eq; intro i hi
  simp only [getLsbD_and, getLsbD_or, getLsbD_xor, getLsbD_shiftLeft, getLsbD_setWidth]
  unfold HdrLike at hh; unfold FtrLike at hf
  interval_cases i <;> simp [hh, hf, -getLsbD_eq_getElem]

/-! ### DHGR -/

theorem dhgr_hdrLike (x : U64) : HdrLike (dhgrMakeHeader x) := by
  intro i hi
  unfold dhgrMakeHeader
  by_cases h : i < 64
  · simp only [getLsbD_and, getLsbD_xor, getLsbD_ushiftRight]
    interval_cases i <;> simp
  · exact getLsbD_of_ge _ _ (by omega)

theorem dhgr_ftrLike (x : U64) : FtrLike 31 (dhgrMakeFooter x) := by
  intro i hi
  unfold dhgrMakeFooter
  by_cases h : i < 64
  · simp only [getLsbD_and, getLsbD_xor, getLsbD_ushiftRight, getLsbD_shiftLeft]
    interval_cases i <;> first | omega | simp
  · exact getLsbD_of_ge _ _ (by omega)

theorem dhgr_header_body (a0 m0 a1 m1 a0' m0' a1' : U8) :
    dhgrMakeHeader (dhgrBodyCol a0 m0 a1 m1) = dhgrMakeHeader (dhgrBodyCol a0' m0' a1' m1) := by
  rw [dhgrBodyCol_eq, dhgrBodyCol_eq]; unfold dhgrMakeHeader
  apply BitVec.eq_of_getLsbD_eq; intro i hi
  simp only [getLsbD_and, getLsbD_or, getLsbD_xor, getLsbD_ushiftRight, getLsbD_shiftLeft,
    getLsbD_setWidth]
  interval_cases i <;> simp

theorem dhgr_footer_body (a0 m0 a1 m1 m0' a1' m1' : U8) :
    dhgrMakeFooter (dhgrBodyCol a0 m0 a1 m1) = dhgrMakeFooter (dhgrBodyCol a0 m0' a1' m1') := by
  rw [dhgrBodyCol_eq, dhgrBodyCol_eq]; unfold dhgrMakeFooter
  apply BitVec.eq_of_getLsbD_eq; intro i hi
  simp only [getLsbD_and, getLsbD_or, getLsbD_xor, getLsbD_ushiftRight, getLsbD_shiftLeft,
    getLsbD_setWidth]
  interval_cases i <;> simp

theorem dhgr_mu {h f : U64} (hh : HdrLike h) (hf : FtrLike 31 f) (a0 m0 a1 m1 v : U8) :
    dhgrMaskedUpdate 0 (h ^^^ dhgrBodyCol a0 m0 a1 m1 ^^^ f) v
      = h ^^^ dhgrBodyCol v m0 a1 m1 ^^^ f ∧
    dhgrMaskedUpdate 1 (h ^^^ dhgrBodyCol a0 m0 a1 m1 ^^^ f) v
      = h ^^^ dhgrBodyCol a0 v a1 m1 ^^^ f ∧
    dhgrMaskedUpdate 2 (h ^^^ dhgrBodyCol a0 m0 a1 m1 ^^^ f) v
      = h ^^^ dhgrBodyCol a0 m0 v m1 ^^^ f ∧
    dhgrMaskedUpdate 3 (h ^^^ dhgrBodyCol a0 m0 a1 m1 ^^^ f) v
      = h ^^^ dhgrBodyCol a0 m0 a1 v ^^^ f := by
  unfold HdrLike at hh; unfold FtrLike at hf
  simp only [dhgrBodyCol_eq]; unfold dhgrMaskedUpdate
  refine ⟨?_, ?_, ?_, ?_⟩ <;>
  · apply BitVec.eq_of_getLsbD_eq; intro i hi
    simp only [getLsbD_and, getLsbD_or, getLsbD_xor, getLsbD_shiftLeft, getLsbD_setWidth,
      getLsbD_not]
    interval_cases i <;> simp [hh, hf, -getLsbD_eq_getElem]

theorem dhgr_footer_col {h f : U64} (hh : HdrLike h) (hf : FtrLike 31 f) (a0 m0 a1 m1 : U8) :
    dhgrMakeFooter (h ^^^ dhgrBodyCol a0 m0 a1 m1 ^^^ f)
      = dhgrMakeFooter (dhgrBodyCol a0 m0 a1 m1) := by
  rw [dhgrBodyCol_eq]; unfold dhgrMakeFooter
  apply BitVec.eq_of_getLsbD_eq; intro i hi
  simp only [getLsbD_and, getLsbD_or, getLsbD_xor, getLsbD_shiftLeft, getLsbD_setWidth,
    getLsbD_ushiftRight]
  unfold HdrLike at hh; unfold FtrLike at hf
  interval_cases i <;> simp [hh, hf, -getLsbD_eq_getElem]

theorem dhgr_header_col {h f : U64} (hh : HdrLike h) (hf : FtrLike 31 f) (a0 m0 a1 m1 : U8) :
    dhgrMakeHeader (h ^^^ dhgrBodyCol a0 m0 a1 m1 ^^^ f)
      = dhgrMakeHeader (dhgrBodyCol a0 m0 a1 m1) := by
  rw [dhgrBodyCol_eq]; unfold dhgrMakeHeader
  apply BitVec.eq_of_getLsbD_eq; intro i hi
  simp only [getLsbD_and, getLsbD_or, getLsbD_xor, getLsbD_shiftLeft, getLsbD_setWidth,
    getLsbD_ushiftRight]
  unfold HdrLike at hh; unfold FtrLike at hf
  interval_cases i <;> simp [hh, hf, -getLsbD_eq_getElem]

theorem dhgr_clear_footer {h f : U64} (hh : HdrLike h) (hf : FtrLike 31 f) (a0 m0 a1 m1 : U8) :
    (h ^^^ dhgrBodyCol a0 m0 a1 m1 ^^^ f) &&& BitVec.ofNat 64 (2 ^ (3 + 28) - 1)
      = h ^^^ dhgrBodyCol a0 m0 a1 m1 := by
  rw [dhgrBodyCol_eq]
  apply BitVec.eq_of_getLsbD_eq; intro i hi
  simp only [getLsbD_and, getLsbD_or, getLsbD_xor, getLsbD_shiftLeft, getLsbD_setWidth]
  unfold HdrLike at hh; unfold FtrLike at hf
  interval_cases i <;> simp [hh, hf, -getLsbD_eq_getElem]

theorem dhgr_clear_header {h f : U64} (hh : HdrLike h) (hf : FtrLike 31 f) (a0 m0 a1 m1 : U8) :
    (h ^^^ dhgrBodyCol a0 m0 a1 m1 ^^^ f) &&& (BitVec.ofNat 64 (2 ^ (28 + 3) - 1) <<< 3)
      = dhgrBodyCol a0 m0 a1 m1 ^^^ f := by
  rw [dhgrBodyCol_eq]
  apply BitVec.eq_of_getLsbD_eq; intro i hi
  simp only [getLsbD_and, getLsbD_or, getLsbD_xor, getLsbD_shiftLeft, getLsbD_setWidth]
  unfold HdrLike at hh; unfold FtrLike at hf
  interval_cases i <;> simp [hh, hf, -getLsbD_eq_getElem]

end IIVision
