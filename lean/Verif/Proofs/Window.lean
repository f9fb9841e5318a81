import Verif.Proofs.Apply
import Verif.Spec.Window

/-! The masked values are exactly the specified windows. -/

namespace IIVision
open BitVec Spec
set_option linter.unusedSimpArgs false

/-- `x` has exactly the bits listed (LSB first). -/
def HasBits (x : U64) (l : List Bool) : Prop := ∀ i, i < 64 → x.getLsbD i = l.getD i false

theorem testBit_bitsVal (l : List Bool) : ∀ i, (bitsVal l).testBit i = l.getD i false := by
  induction l with
  | nil => intro i; simp [bitsVal]
  | cons b l ih =>
    intro i
    unfold bitsVal
    cases i with
    | zero => cases b <;> simp [Nat.testBit_zero]
    | succ i =>
      rw [Nat.testBit_succ, List.getD_cons_succ, ← ih i]
      congr 1
      cases b <;> simp; omega

theorem HasBits.toNat {x : U64} {l : List Bool} (h : HasBits x l) (hl : l.length ≤ 64) :
    x.toNat = bitsVal l := by
  apply Nat.eq_of_testBit_eq
  intro i
  rw [testBit_bitsVal, BitVec.testBit_toNat]
  by_cases hi : i < 64
  · exact h i hi
  · rw [getLsbD_of_ge _ _ (by omega), List.getD_eq_getElem?_getD,
      List.getElem?_eq_none (by omega)]
    rfl

theorem bitsVal_inj {l l' : List Bool} (hl : l.length = l'.length) (h : bitsVal l = bitsVal l') :
    l = l' := by
  apply List.ext_getElem hl
  intro i h1 h2
  have := testBit_bitsVal l i
  rw [h, testBit_bitsVal l' i] at this
  rw [List.getD_eq_getElem?_getD, List.getD_eq_getElem?_getD] at this
  simpa [h1, h2] using this.symm

theorem HasBits.inj {x y : U64} {l : List Bool} (hx : HasBits x l) (hy : HasBits y l) : x = y :=
  BitVec.eq_of_getLsbD_eq fun i hi => by rw [hx i hi, hy i hi]

theorem HasBits.lt {x : U64} {l : List Bool} (hx : HasBits x l) (n : Nat) (hl : l.length ≤ n) :
    x.toNat < 2 ^ n := by
  apply Nat.lt_pow_two_of_testBit
  intro i hi
  rw [BitVec.testBit_toNat]
  by_cases h : i < 64
  · rw [hx i h]
    simp [List.getD_eq_getElem?_getD, List.getElem?_eq_none (show l.length ≤ i by omega)]
  · exact getLsbD_of_ge _ _ (by omega)

theorem HasBits.unique {x : U64} {l l' : List Bool} (h : HasBits x l) (h' : HasBits x l')
    (hl : l.length = l'.length) (h64 : l.length ≤ 64) : l = l' := by
  apply List.ext_getElem hl
  intro i h1 h2
  have a := h i (by omega)
  have b := h' i (by omega)
  rw [a] at b
  rw [List.getD_eq_getElem?_getD, List.getD_eq_getElem?_getD] at b
  simpa [h1, h2] using b

theorem hgr_window0 (l e o r : U8) :
    HasBits (hgr.masked (hgrMakeHeader (hgrBodyCol 0 l) ^^^ hgrBodyCol e o ^^^
      hgrMakeFooter (hgrBodyCol r 0)) 0) (hgrWindow false l e o) := by
  intro i hi
  show (((_ : U64) &&& 0x3fff#64) >>> 0).getLsbD i = _
  rw [hgrBodyCol_eq, hgrBodyCol_eq, hgrBodyCol_eq]
  unfold hgrMakeHeader hgrMakeFooter hgrWindow
  simp only [getLsbD_and, getLsbD_or, getLsbD_xor, getLsbD_ushiftRight, getLsbD_shiftLeft,
    getLsbD_setWidth]
  interval_cases i <;> simp

theorem hgr_window1 (l e o r : U8) :
    HasBits (hgr.masked (hgrMakeHeader (hgrBodyCol 0 l) ^^^ hgrBodyCol e o ^^^
      hgrMakeFooter (hgrBodyCol r 0)) 1) (hgrWindow true e o r) := by
  intro i hi
  show (((_ : U64) &&& 0x3fff00#64) >>> 8).getLsbD i = _
  rw [hgrBodyCol_eq, hgrBodyCol_eq, hgrBodyCol_eq]
  unfold hgrMakeHeader hgrMakeFooter hgrWindow
  simp only [getLsbD_and, getLsbD_or, getLsbD_xor, getLsbD_ushiftRight, getLsbD_shiftLeft,
    getLsbD_setWidth]
  interval_cases i <;> simp

theorem dhgr_masked_eq (x : U64) (k : Nat) : dhgr.masked x k =
    (x &&& [0x1fff#64, 0xfff80#64, 0x7ffc000#64, 0x3ffe00000#64].getD k 0) >>>
      [0, 7, 14, 21].getD k 0 := rfl

theorem dhgr_window0 (l a0 m0 a1 m1 r : U8) :
    HasBits (dhgr.masked (dhgrMakeHeader (dhgrBodyCol 0 0 0 l) ^^^ dhgrBodyCol a0 m0 a1 m1 ^^^
      dhgrMakeFooter (dhgrBodyCol r 0 0 0)) 0) (dhgrWindow l a0 m0) := by
  intro i hi
  rw [dhgr_masked_eq, dhgrBodyCol_eq, dhgrBodyCol_eq, dhgrBodyCol_eq]
  unfold dhgrMakeHeader dhgrMakeFooter dhgrWindow
  simp only [List.getD_cons_zero, List.getD_cons_succ]
  simp only [getLsbD_and, getLsbD_or, getLsbD_xor, getLsbD_ushiftRight, getLsbD_shiftLeft,
    getLsbD_setWidth]
  interval_cases i <;> simp

theorem dhgr_window1 (l a0 m0 a1 m1 r : U8) :
    HasBits (dhgr.masked (dhgrMakeHeader (dhgrBodyCol 0 0 0 l) ^^^ dhgrBodyCol a0 m0 a1 m1 ^^^
      dhgrMakeFooter (dhgrBodyCol r 0 0 0)) 1) (dhgrWindow a0 m0 a1) := by
  intro i hi
  rw [dhgr_masked_eq, dhgrBodyCol_eq, dhgrBodyCol_eq, dhgrBodyCol_eq]
  unfold dhgrMakeHeader dhgrMakeFooter dhgrWindow
  simp only [List.getD_cons_zero, List.getD_cons_succ]
  simp only [getLsbD_and, getLsbD_or, getLsbD_xor, getLsbD_ushiftRight, getLsbD_shiftLeft,
    getLsbD_setWidth]
  interval_cases i <;> simp

theorem dhgr_window2 (l a0 m0 a1 m1 r : U8) :
    HasBits (dhgr.masked (dhgrMakeHeader (dhgrBodyCol 0 0 0 l) ^^^ dhgrBodyCol a0 m0 a1 m1 ^^^
      dhgrMakeFooter (dhgrBodyCol r 0 0 0)) 2) (dhgrWindow m0 a1 m1) := by
  intro i hi
  rw [dhgr_masked_eq, dhgrBodyCol_eq, dhgrBodyCol_eq, dhgrBodyCol_eq]
  unfold dhgrMakeHeader dhgrMakeFooter dhgrWindow
  simp only [List.getD_cons_zero, List.getD_cons_succ]
  simp only [getLsbD_and, getLsbD_or, getLsbD_xor, getLsbD_ushiftRight, getLsbD_shiftLeft,
    getLsbD_setWidth]
  interval_cases i <;> simp

theorem dhgr_window3 (l a0 m0 a1 m1 r : U8) :
    HasBits (dhgr.masked (dhgrMakeHeader (dhgrBodyCol 0 0 0 l) ^^^ dhgrBodyCol a0 m0 a1 m1 ^^^
      dhgrMakeFooter (dhgrBodyCol r 0 0 0)) 3) (dhgrWindow a1 m1 r) := by
  intro i hi
  rw [dhgr_masked_eq, dhgrBodyCol_eq, dhgrBodyCol_eq, dhgrBodyCol_eq]
  unfold dhgrMakeHeader dhgrMakeFooter dhgrWindow
  simp only [List.getD_cons_zero, List.getD_cons_succ]
  simp only [getLsbD_and, getLsbD_or, getLsbD_xor, getLsbD_ushiftRight, getLsbD_shiftLeft,
    getLsbD_setWidth]
  interval_cases i <;> simp

end IIVision
