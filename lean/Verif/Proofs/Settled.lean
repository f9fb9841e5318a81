import Verif.Props.Shown

/-! A picture that has been current for 7681 ticks is complete, whenever frames are fetched. -/

namespace IIVision
open Spec

theorem fetched_grows (thr : Nat → Nat) {a b : Nat} (h : a ≤ b) : fetched thr a ≤ fetched thr b := by
  induction h with
  | refl => exact Nat.le_refl _
  | step _ ih => rw [fetched_succ]; split <;> omega

/-- The tick at which frame `k` is fetched, if it has been fetched at tick `t`. -/
theorem fetched_at (thr : Nat → Nat) {k : Nat} : ∀ {t : Nat}, k < fetched thr t → ∃ d, d < t ∧ fetched thr d = k ∧ fetched thr (d + 1) = k + 1
  | 0, h => absurd h (Nat.not_lt_zero _)
  | t + 1, h => by
    by_cases h1 : k < fetched thr t
    · obtain ⟨d, h2, h3⟩ := fetched_at thr h1
      exact ⟨d, by omega, h3⟩
    · have := fetched_succ thr t
      refine ⟨t, Nat.lt_succ_self t, ?_⟩
      split at this <;> omega

theorem shown_le (n : Int) (k : Nat) : shown n k ≤ k - 1 := Nat.div_mul_le_self _ _

/-- The calls while a picture is current, in HGR. -/
theorem current_calls {M : Movie} {F : List Frame} (hn : M.everyN ≠ 0) {k d i : Nat} (hk : M.everyN ∣ (k : Int))
    (c2 : fetched M.thr d = k) (c1 : fetched M.thr (d + 1) = k + 1) (hd : d + 1 ≤ i) (hnext : shown M.everyN (fetched M.thr i) = k)
    {f : Frame} {T : Bitmap} (hf : F[k]? = some f) (hT : M.bitmapOf f = .ok T) :
    movieCalls M F (fun _ => false) i = movieCalls M F (fun _ => false) d ++ .start T false :: .reset :: List.replicate (i - d) .pull := by
  have hsh : shown M.everyN (k + 1) = k := by
    apply shown_new
    rw [show (((k + 1 : Nat) : Int) - 1) = (k : Int) by omega]
    exact Int.emod_eq_zero_of_dvd hk
  have e1 : tickCalls M F (fun _ => false) d = [.start T false, .reset, .pull] := by
    unfold tickCalls
    rw [c1, c2, if_pos ⟨by omega, hk⟩, if_neg (by simp), startShown_eq (T := T) ⟨f, by rw [hsh]; exact hf, hT⟩]
    rfl
  have e2 : ∀ j, d + 1 ≤ j → j < d + 1 + (i - (d + 1)) → tickCalls M F (fun _ => false) j = [.pull] := by
    intro j h1 h2
    unfold tickCalls
    rw [if_neg, if_neg (by simp)]
    · rfl
    · rintro ⟨h3, h4⟩
      have h5 : fetched M.thr (j + 1) = fetched M.thr j + 1 := by
        rw [fetched_succ] at h3 ⊢
        split at h3
        · next h6 => rw [if_pos h6]
        · exact absurd rfl h3
      have h6 := fetched_grows M.thr h1
      have h7 := fetched_grows M.thr (show j + 1 ≤ i by omega)
      rw [h5] at h7
      have h8 : fetched M.thr j ≤ shown M.everyN (fetched M.thr i) := by
        have h9 : M.everyN.natAbs ∣ fetched M.thr j := by
          have := Int.natAbs_dvd_natAbs.2 h4
          simpa using this
        obtain ⟨q, hq⟩ := h9
        have hN : 0 < M.everyN.natAbs := Int.natAbs_pos.2 hn
        unfold shown
        rw [hq, Nat.mul_comm]
        refine Nat.mul_le_mul_right _ ?_
        rw [Nat.le_div_iff_mul_le hN, Nat.mul_comm]
        omega
      omega
  obtain ⟨m, rfl⟩ : ∃ m, i = d + 1 + m := ⟨i - (d + 1), by omega⟩
  rw [Nat.add_sub_cancel_left] at e2
  rw [movieCalls_still _ _ e2, movieCalls_succ, e1, show d + 1 + m - d = m + 1 by omega, List.replicate_succ]
  simp

/-- As C64, for any times at which frames are fetched: `i` ticks have been played, frame `k` is current, and has been since tick `i - 7680`. -/
theorem hgr_settled (deltaE : RGB → RGB → Int) (hd : ColourDifference deltaE) (hs : Separates deltaE)
    (dm0 : Nat → Nat → Int) (pal : Palette) (rgb : Colour → RGB) (hpal : (pal, rgb) ∈ palettes)
    (M : Movie) (hm : M.mode = .HGR) (ht : Loaded deltaE dm0 .HGR pal M.table)
    (A : List Int) (F : List Frame) (hin : MovieInput M A F) (tape : Nat → Nat) (ops : List Opcode) (bytes : List Nat)
    (h : M.stream tape A F = .ok (ops, bytes)) (k i : Nat) (hk : M.everyN ∣ (k : Int))
    (hlong : k < fetched M.thr (i - 7680)) (hi : i ≤ (ticksOf false ops).length) (hnext : shown M.everyN (fetched M.thr i) = k) :
    ∃ f T, F[k]? = some f ∧ M.bitmapOf f = .ok T ∧ ∀ (y : Fin 192) (d : Fin 560),
      let shows := ((ticksOf false ops).take i).foldl playTick blank
      screenDot .HGR shows y d = screenDot .HGR (banks T) y d ∨
      d = 0 ∧ hiresAddr 0 y 0 % 256 ≠ 0 ∧ (screenByte (banks T).1 y 0 = 0x7f ∧ screenByte shows.1 y 0 = 0xff ∨
        screenByte (banks T).1 y 0 = 0xff ∧ screenByte shows.1 y 0 = 0x7f) := by
  obtain ⟨d, hdi, c2, c1⟩ := fetched_at M.thr hlong
  obtain ⟨e, steps, h1, h2, h3, h4⟩ := C27_exact_history M A F hin tape ops bytes h
  obtain ⟨f, T, hf, hT⟩ : ∃ f T, F[k]? = some f ∧ M.bitmapOf f = .ok T := by
    obtain ⟨body, bytes', calls, e', steps', m1, -, -, m4, -, -, -, m8⟩ := movie_facts M A F hin tape
    rw [h] at m1
    obtain ⟨rfl, rfl⟩ := Prod.mk.inj (Except.ok.inj m1)
    have htk : ticksOf false (.header M.mode :: body ++ [.terminate]) = ticksOf false body := ticksOf_terminate body false
    rw [htk] at hi
    obtain ⟨-, -, ⟨f, q1, q2⟩, -⟩ := m8 (i - 1) _ _ (List.getElem?_eq_getElem (by omega)) (List.getElem?_eq_getElem (by omega))
    rw [show i - 1 + 1 = i by omega, hnext] at q1
    exact ⟨f, _, q1, q2⟩
  refine ⟨f, T, hf, hT, ?_⟩
  obtain ⟨e', hr⟩ := movie_prefix h2 hi
  have hb : tickBank (ticksOf false ops) = fun _ => false := funext fun j => hgr_banks hm hin h j
  rw [play_ticks h3 h4]
  rw [hb] at hr h1
  have hL : Legal M.mode (movieCalls M F (fun _ => false) i) := by
    obtain ⟨post, hpost⟩ := movieCalls_add M F (fun _ => false) i ((ticksOf false ops).length - i)
    rw [show i + ((ticksOf false ops).length - i) = (ticksOf false ops).length by omega] at hpost
    rw [hpost] at h1
    exact legal_prefix h1
  rw [current_calls hin.stride hk c2 c1 (by omega) hnext hf hT] at hr hL
  obtain ⟨pre', l1, l2, -⟩ := reset_history (t := M.table) (tape := tape) hL
  rw [l2, hm] at hr
  rw [hm] at l1
  obtain ⟨e0, tr0, e2, tr, -, k2, k3, k4⟩ := C62_hgr_finished deltaE hd hs dm0 pal rgb hpal M.table ht tape pre' T _ l1
  rw [k2] at hr
  simp only [Except.ok.injEq, Prod.mk.injEq] at hr
  rw [← hr.2]
  exact k4 (by omega)

end IIVision
