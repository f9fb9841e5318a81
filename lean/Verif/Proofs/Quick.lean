import Verif.Spec.Quick
import Verif.Props.Picture

/-! Counting the bytes that look wrong by the bytes that are wrong. -/

namespace IIVision
open Spec

theorem allCells_nodup : allCells.Nodup := (List.nodup_finRange 32).product (List.nodup_finRange 256)

theorem count_image {Q : Fin 32 × Fin 256 → Bool} (f : Fin 32 × Fin 256 → Fin 32 × Fin 256) (hf : Function.Injective f) :
    allCells.countP (fun c => Q (f c)) ≤ allCells.countP Q := by
  have h : (allCells.map f).countP Q ≤ allCells.countP Q :=
    (List.subperm_of_subset (allCells_nodup.map hf) (fun c _ => mem_allCells c)).countP_le Q
  rwa [List.countP_map] at h

theorem count_or (P Q : Fin 32 × Fin 256 → Bool) (l : List (Fin 32 × Fin 256)) : l.countP (fun c => P c || Q c) ≤ l.countP P + l.countP Q := by
  induction l with
  | nil => simp
  | cons c l ih =>
    rw [List.countP_cons, List.countP_cons, List.countP_cons]
    cases P c <;> cases Q c <;> simp <;> omega

theorem count_three {A P Q R : Fin 32 × Fin 256 → Bool} (f g : Fin 32 × Fin 256 → Fin 32 × Fin 256) (hf : Function.Injective f)
    (hg : Function.Injective g) (h : ∀ c, A c = true → P c = true ∨ Q (f c) = true ∨ R (g c) = true) :
    allCells.countP A ≤ allCells.countP P + allCells.countP Q + allCells.countP R := by
  have h1 : allCells.countP A ≤ allCells.countP (fun c => P c || (Q (f c) || R (g c))) :=
    List.countP_mono_left fun c _ hc => by simpa using h c hc
  have h2 := count_or P (fun c => Q (f c) || R (g c)) allCells
  have h3 := count_or (fun c => Q (f c)) (fun c => R (g c)) allCells
  have h4 := count_image (Q := Q) f hf
  have h5 := count_image (Q := R) g hg
  omega

/-- The cell of the byte before / after in memory (cyclic). -/
def prevCell (c : Fin 32 × Fin 256) : Fin 32 × Fin 256 := (c.1, c.2 - 1)
def nextCell (c : Fin 32 × Fin 256) : Fin 32 × Fin 256 := (c.1, c.2 + 1)

theorem prevCell_inj : Function.Injective prevCell := by
  rintro ⟨p, o⟩ ⟨p', o'⟩ h
  simp only [prevCell, Prod.mk.injEq] at h ⊢
  refine ⟨h.1, Fin.ext ?_⟩
  have := congrArg Fin.val h.2
  rw [Fin.sub_def, Fin.sub_def] at this
  simp only [show ((1 : Fin 256).val) = 1 from rfl] at this
  omega

theorem nextCell_inj : Function.Injective nextCell := by
  rintro ⟨p, o⟩ ⟨p', o'⟩ h
  simp only [nextCell, Prod.mk.injEq] at h ⊢
  refine ⟨h.1, Fin.ext ?_⟩
  have := congrArg Fin.val h.2
  rw [Fin.val_add, Fin.val_add] at this
  simp only [show ((1 : Fin 256).val) = 1 from rfl] at this
  omega

theorem before_congr {r r' : Fin 256 → U8} {o : Fin 256} (h : r (o - 1) = r' (o - 1)) : before r o = before r' o := by
  unfold before; rw [h]

theorem after_congr {r r' : Fin 256 → U8} {o : Fin 256} (h : r (o + 1) = r' (o + 1)) : after r o = after r' o := by
  unfold after; rw [h]

theorem weight_same {mode : VideoMode} {t : EditTable} (hz : ZeroDiag mode.cls.maskedBits t) {src tgt : Mem × Mem} {a : Bool} {p : Fin 32} {o : Fin 256}
    (h : window mode src.1 src.2 a p o = window mode tgt.1 tgt.2 a p o) : weight mode t src tgt a p o = 0 := by
  unfold weight windowDist
  have hw : winVal mode src.1 src.2 a p o = winVal mode tgt.1 tgt.2 a p o := by unfold winVal; rw [h]
  rw [hw, hz _ _ (winVal_lt ..)]
  split <;> rfl

/-- DHGR: a wrong byte spoils its own window and two of the other bank. -/
theorem dhgr_wrong {t : EditTable} (hz : ZeroDiag VideoMode.DHGR.cls.maskedBits t) (src tgt : Mem × Mem) (a : Bool) :
    differing .DHGR t src tgt a ≤ wrongBytes src tgt a + 2 * wrongBytes src tgt (!a) := by
  have key : differing .DHGR t src tgt a ≤ wrongBytes src tgt a + wrongBytes src tgt (!a) + wrongBytes src tgt (!a) := by
    unfold differing wrongBytes
    cases a with
    | true =>
      refine count_three prevCell id prevCell_inj Function.injective_id ?_
      rintro ⟨p, o⟩ h
      by_contra hn
      have h1 : src.2 p o = tgt.2 p o := by by_contra hx; exact hn (.inl (decide_eq_true hx))
      have h2 : src.1 p (o - 1) = tgt.1 p (o - 1) := by by_contra hx; exact hn (.inr <| .inl (decide_eq_true hx))
      have h3 : src.1 p o = tgt.1 p o := by by_contra hx; exact hn (.inr <| .inr (decide_eq_true hx))
      rw [decide_eq_true_eq] at h
      refine h (weight_same hz ?_)
      simp only [window]
      rw [before_congr h2, h1, h3]
    | false =>
      refine count_three id nextCell Function.injective_id nextCell_inj ?_
      rintro ⟨p, o⟩ h
      by_contra hn
      have h1 : src.1 p o = tgt.1 p o := by by_contra hx; exact hn (.inl (decide_eq_true hx))
      have h2 : src.2 p o = tgt.2 p o := by by_contra hx; exact hn (.inr <| .inl (decide_eq_true hx))
      have h3 : src.2 p (o + 1) = tgt.2 p (o + 1) := by by_contra hx; exact hn (.inr <| .inr (decide_eq_true hx))
      rw [decide_eq_true_eq] at h
      refine h (weight_same hz ?_)
      simp only [window]
      rw [after_congr h3, h1, h2]
  omega

/-- HGR: a wrong byte spoils its own window and those of its neighbours. -/
theorem hgr_wrong {t : EditTable} (hz : ZeroDiag VideoMode.HGR.cls.maskedBits t) (src tgt : Mem × Mem) :
    differing .HGR t src tgt false ≤ 3 * wrongBytes src tgt false := by
  have key : differing .HGR t src tgt false ≤ wrongBytes src tgt false + wrongBytes src tgt false + wrongBytes src tgt false := by
    unfold differing wrongBytes
    refine count_three prevCell nextCell prevCell_inj nextCell_inj ?_
    rintro ⟨p, o⟩ h
    by_contra hn
    have h1 : src.1 p o = tgt.1 p o := by by_contra hx; exact hn (.inl (decide_eq_true hx))
    have h2 : src.1 p (o - 1) = tgt.1 p (o - 1) := by by_contra hx; exact hn (.inr <| .inl (decide_eq_true hx))
    have h3 : src.1 p (o + 1) = tgt.1 p (o + 1) := by by_contra hx; exact hn (.inr <| .inr (decide_eq_true hx))
    rw [decide_eq_true_eq] at h
    refine h (weight_same hz ?_)
    simp only [window]
    rw [before_congr h2, h1, after_congr h3]
  omega

/-- Two screens that agree but for the first byte. -/
theorem wrong_first {m m' tgt : Mem × Mem} {a : Bool} (h : ∀ p o, (p, o) ≠ (0, 0) → bankOf m a p o = bankOf m' a p o) :
    wrongBytes m tgt a ≤ wrongBytes m' tgt a + 1 := by
  have h1 : wrongBytes m tgt a ≤ allCells.countP (fun c => decide (bankOf m' a c.1 c.2 ≠ bankOf tgt a c.1 c.2) || decide (c = (0, 0))) := by
    refine List.countP_mono_left fun c _ hc => ?_
    rw [Bool.or_eq_true, decide_eq_true_eq, decide_eq_true_eq]
    by_cases hz : c = (0, 0)
    · exact .inr hz
    · left
      rw [decide_eq_true_eq, h c.1 c.2 hz] at hc
      exact hc
  have h2 := count_or (fun c => decide (bankOf m' a c.1 c.2 ≠ bankOf tgt a c.1 c.2)) (fun c => decide (c = (0, 0))) allCells
  have h3 : allCells.countP (fun c => decide (c = ((0, 0) : Fin 32 × Fin 256))) ≤ 1 := by
    have := List.nodup_iff_count_le_one.mp allCells_nodup (0, 0)
    unfold List.count at this
    refine Nat.le_trans (List.countP_mono_left fun c _ hc => ?_) this
    rw [decide_eq_true_eq] at hc
    rw [hc]; rfl
  unfold wrongBytes at h1 ⊢
  omega

theorem wrong_mono {m m' tgt : Mem × Mem} {a : Bool} (h : ∀ p o, bankOf m a p o = bankOf m' a p o ∨ bankOf m a p o = bankOf tgt a p o) :
    wrongBytes m tgt a ≤ wrongBytes m' tgt a := by
  refine List.countP_mono_left fun c _ hc => ?_
  rw [decide_eq_true_eq] at hc ⊢
  rcases h c.1 c.2 with h | h
  · rwa [h] at hc
  · exact absurd h hc

end IIVision
