import Verif.Model.Colours
import Verif.Spec.Dots
import Verif.Proofs.Window
import Mathlib.Tactic.IntervalCases

namespace IIVision
open BitVec Spec
set_option linter.unusedSimpArgs false

/-- `_double_pixels` as a disjunction. -/
def doubleOr (x : U64) : U64 :=
  ((x &&& 0x40#64) <<< 8) ||| ((x &&& 0x40#64) <<< 7) ||| ((x &&& 0x40#64) <<< 6) |||
  ((x &&& 0x20#64) <<< 6) ||| ((x &&& 0x20#64) <<< 5) |||
  ((x &&& 0x10#64) <<< 5) ||| ((x &&& 0x10#64) <<< 4) |||
  ((x &&& 0x08#64) <<< 4) ||| ((x &&& 0x08#64) <<< 3) |||
  ((x &&& 0x04#64) <<< 3) ||| ((x &&& 0x04#64) <<< 2) |||
  ((x &&& 0x02#64) <<< 2) ||| ((x &&& 0x02#64) <<< 1) |||
  ((x &&& 0x01#64) <<< 1) ||| (x &&& 0x01#64)

theorem double7 : ∀ x : BitVec 7, doublePixels (x.setWidth 64) = doubleOr (x.setWidth 64) := by
  decide +kernel

theorem and7f (x : U64) : x &&& 0x7f#64 = (x.setWidth 7).setWidth 64 := by
  apply BitVec.eq_of_getLsbD_eq
  intro i hi
  simp only [getLsbD_and, getLsbD_setWidth]
  interval_cases i <;> simp

theorem double_and (x : U64) (n : Nat) :
    (doublePixels (x &&& 0x7f#64)).getLsbD n =
      if n < 14 then x.getLsbD (n / 2) else if n = 14 then x.getLsbD 6 else false := by
  rw [and7f, double7, ← and7f]
  by_cases hn : n < 64
  · unfold doubleOr
    simp only [getLsbD_and, getLsbD_or, getLsbD_shiftLeft]
    interval_cases n <;> simp
  · rw [getLsbD_of_ge _ _ (by omega), if_neg (by omega), if_neg (by omega)]

theorem bit7_toNat (x : U64) : ((x &&& 0x80#64) >>> 7).toNat = (x.getLsbD 7).toNat := by
  have : (x &&& 0x80#64) >>> 7 = if x.getLsbD 7 then 1#64 else 0#64 := by
    apply BitVec.eq_of_getLsbD_eq
    intro i hi
    simp only [getLsbD_and, getLsbD_ushiftRight]
    by_cases h : x.getLsbD 7 <;> simp only [h] <;> interval_cases i <;>
      simp [h, -getLsbD_eq_getElem]
  rw [this]
  cases x.getLsbD 7 <;> rfl

theorem bit0_toNat (x : U64) : (x &&& 0x01#64).toNat = (x.getLsbD 0).toNat := by
  have : x &&& 0x01#64 = if x.getLsbD 0 then 1#64 else 0#64 := by
    apply BitVec.eq_of_getLsbD_eq
    intro i hi
    simp only [getLsbD_and]
    by_cases h : x.getLsbD 0 <;> simp only [h] <;> interval_cases i <;>
      simp [h, -getLsbD_eq_getElem]
  rw [this]
  cases x.getLsbD 0 <;> rfl


/-- Expansion of a 14-bit value once the three palette bits are known. -/
def dotsWith (v : U64) (k hp bp fp : Nat) : U64 :=
  let h := (v &&& 0b111#64) <<< 5
  let b := if k = 0 then v >>> 3 else v >>> 4
  let f := (v >>> 12) &&& 0b11#64
  let res := doublePixels (h &&& 0x7f#64) >>> (11 - hp)
  let res := res &&& ~~~(0x3fff#64 <<< (3 + bp))
  let res := res ^^^ (doublePixels (b &&& 0x7f#64) <<< (3 + bp))
  let res := res &&& ~~~(0xf#64 <<< (17 + fp))
  let res := res ^^^ (doublePixels (f &&& 0x7f#64) <<< (17 + fp))
  res &&& 0x1fffff#64

theorem and7f_congr {x y : U64} (h : ∀ i, i < 7 → x.getLsbD i = y.getLsbD i) :
    x &&& 0x7f#64 = y &&& 0x7f#64 := by
  rw [and7f, and7f]
  congr 1
  apply BitVec.eq_of_getLsbD_eq
  intro i hi
  simpa [getLsbD_setWidth, hi] using h i hi

theorem hgrToDots_eq (v : U64) (k : Nat) (hv : (v &&& 0x3fff#64) = v) :
    hgrToDots v k = .ok (dotsWith v k (v.getLsbD 2).toNat
      (if k = 0 then v.getLsbD 10 else v.getLsbD 3).toNat (v.getLsbD 11).toNat) := by
  have h1 : ((v &&& 0b111#64) <<< 5).getLsbD 7 = v.getLsbD 2 := by
    simp [getLsbD_and, getLsbD_shiftLeft, -getLsbD_eq_getElem]
  have h2 : (((v >>> 12) &&& 0b11#64) ^^^ (((v >>> 11) &&& 0b01#64) <<< 7)).getLsbD 7
      = v.getLsbD 11 := by
    simp [getLsbD_and, getLsbD_shiftLeft, getLsbD_ushiftRight, -getLsbD_eq_getElem]
  have h3 : ((v >>> 3) &&& 0xff#64).getLsbD 7 = v.getLsbD 10 := by
    simp [getLsbD_and, getLsbD_shiftLeft, getLsbD_ushiftRight, -getLsbD_eq_getElem]
  have h4 : (v >>> 3).getLsbD 0 = v.getLsbD 3 := by
    simp [getLsbD_ushiftRight, -getLsbD_eq_getElem]
  have h5 : (((v >>> 12) &&& 0b11#64) ^^^ (((v >>> 11) &&& 0b01#64) <<< 7)) &&& 0x7f#64
      = ((v >>> 12) &&& 0b11#64) &&& 0x7f#64 := by
    apply and7f_congr
    intro i hi
    simp only [getLsbD_and, getLsbD_xor, getLsbD_shiftLeft, getLsbD_ushiftRight]
    interval_cases i <;> simp
  have h6 : ((v >>> 3) &&& 0xff#64) &&& 0x7f#64 = (v >>> 3) &&& 0x7f#64 := by
    apply and7f_congr
    intro i hi
    simp only [getLsbD_and, getLsbD_xor, getLsbD_shiftLeft, getLsbD_ushiftRight]
    interval_cases i <;> simp
  have h7 : (((v >>> 4) &&& 0x7f#64) ^^^ (((v >>> 3) &&& 0x01#64) <<< 7)) &&& 0x7f#64
      = (v >>> 4) &&& 0x7f#64 := by
    apply and7f_congr
    intro i hi
    simp only [getLsbD_and, getLsbD_xor, getLsbD_shiftLeft, getLsbD_ushiftRight]
    interval_cases i <;> simp
  unfold hgrToDots dotsWith
  have ha : ((v &&& 0x3fff#64) == v) = true := by rw [hv]; exact beq_self_eq_true v
  rw [ha]
  simp only [pyAssert, bind, Except.bind, pure, Except.pure, if_true, bit7_toNat, bit0_toNat, h1, h2]
  by_cases hk : k = 0
  · simp only [hk, if_true, h3, h5, h6]
  · simp only [hk, if_false, h4, h5, h7]

set_option maxHeartbeats 2000000 in
theorem dotsWith_bits (odd : Bool) (l b r : U8) (v : U64) (hv : HasBits v (hgrWindow odd l b r))
    (n : Nat) (hn : n < 64) :
    (dotsWith v (if odd then 1 else 0) (l.getLsbD 7).toNat (b.getLsbD 7).toNat
      (r.getLsbD 7).toNat).getLsbD n = windowDot l b r n := by
  have H : ∀ i, v.getLsbD i = (hgrWindow odd l b r).getD i false := by
    intro i
    by_cases hi : i < 64
    · exact hv i hi
    · rw [getLsbD_of_ge _ _ (by omega), List.getD_eq_getElem?_getD, List.getElem?_eq_none]
      · rfl
      · cases odd <;> simp [hgrWindow] <;> omega
  by_cases h21 : 21 ≤ n
  · have : (0x1fffff#64).getLsbD n = false := by interval_cases n <;> rfl
    unfold dotsWith windowDot
    rw [getLsbD_and, this, Bool.and_false]
    simp [show ¬ n < 3 by omega, show ¬ n < 17 by omega, show ¬ n < 21 by omega]
  unfold dotsWith windowDot
  simp only [getLsbD_and, getLsbD_xor, getLsbD_not, getLsbD_shiftLeft, getLsbD_ushiftRight,
    double_and]
  cases hl : l.getLsbD 7 <;> cases hb : b.getLsbD 7 <;> cases hr : r.getLsbD 7 <;> cases odd <;>
    interval_cases n <;>
    simp [dotOf, hl, hb, hr, H, hgrWindow, -getLsbD_eq_getElem]


theorem hgrWindow_get (odd : Bool) (l b r : U8) :
    (hgrWindow odd l b r).getD 2 false = l.getLsbD 7 ∧
    (hgrWindow odd l b r).getD (if odd then 3 else 10) false = b.getLsbD 7 ∧
    (hgrWindow odd l b r).getD 11 false = r.getLsbD 7 := by
  cases odd <;> simp [hgrWindow]

theorem hgrToDots_window (odd : Bool) (l b r : U8) (v : U64)
    (hv : HasBits v (hgrWindow odd l b r)) :
    ∃ d, hgrToDots v (if odd then 1 else 0) = .ok d ∧ ∀ n, d.getLsbD n = windowDot l b r n := by
  have hm : (v &&& 0x3fff#64) = v := by
    apply BitVec.eq_of_getLsbD_eq
    intro i hi
    rw [getLsbD_and, hv i hi]
    cases odd <;> interval_cases i <;> simp [hgrWindow]
  obtain ⟨h2, h3, h4⟩ := hgrWindow_get odd l b r
  refine ⟨_, hgrToDots_eq v _ hm, ?_⟩
  intro n
  by_cases hn : n < 64
  · rw [← dotsWith_bits odd l b r v hv n hn, hv 2 (by omega), h2, hv 11 (by omega), h4]
    congr 3
    cases odd
    · simpa using (hv 10 (by omega)).trans h3
    · simpa using (hv 3 (by omega)).trans h3
  · rw [getLsbD_of_ge _ _ (by omega)]
    unfold windowDot
    simp [show ¬ n < 3 by omega, show ¬ n < 17 by omega, show ¬ n < 21 by omega]

end IIVision
