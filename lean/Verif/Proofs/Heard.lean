import Verif.Spec.Heard
import Verif.Spec.Play
import Verif.Props.Audio
import Verif.Props.Pcm

/-! Rounding errors of the sound. -/

namespace IIVision
open Spec

theorem near_round {x x' y a b : Rat} (h : |x - y| ≤ a * |y| + b) (hr : |x' - x| ≤ |x| / 2 ^ 24 + 1 / 2 ^ 149) :
    |x' - y| ≤ (a + (1 + a) / 2 ^ 24) * |y| + (b + b / 2 ^ 24 + 1 / 2 ^ 149) := by
  have h1 : |x| ≤ |y| + (a * |y| + b) := by
    have := abs_sub_abs_le_abs_sub x y
    linarith
  have h2 : |x' - y| ≤ |x' - x| + |x - y| := abs_sub_le _ _ _
  have h3 : |x| / 2 ^ 24 ≤ (|y| + (a * |y| + b)) / 2 ^ 24 := by gcongr
  calc |x' - y| ≤ _ := h2
    _ ≤ (|y| + (a * |y| + b)) / 2 ^ 24 + 1 / 2 ^ 149 + (a * |y| + b) := by linarith
    _ = _ := by ring

theorem near_scale {x y a b : Rat} (h : |x - y| ≤ a * |y| + b) (k : Rat) : |x * k - y * k| ≤ a * |y * k| + b * |k| := by
  rw [← sub_mul, abs_mul, abs_mul]
  calc |x - y| * |k| ≤ (a * |y| + b) * |k| := by gcongr
    _ = _ := by ring

theorem near_weak {x y a b a' b' : Rat} (h : |x - y| ≤ a * |y| + b) (ha : a ≤ a') (hb : b ≤ b') : |x - y| ≤ a' * |y| + b' := by
  have : a * |y| ≤ a' * |y| := by gcongr
  linarith

theorem near_abs {x y a b : Rat} (h : |x - y| ≤ a * |y| + b) {B : Rat} (ha : 0 ≤ a) (hB : |y| ≤ B) : |x| ≤ B + a * B + b := by
  have := abs_sub_abs_le_abs_sub x y
  have : a * |y| ≤ a * B := by gcongr
  linarith

/-- A sample through the arithmetic. -/
theorem quantise_near {rnd : Rat → Flt} (hr : Single rnd) (bad : Flt → Int) {N m M : Rat} (hm : |m - M| ≤ |M| / 2 ^ 24 + 1 / 2 ^ 149)
    (hM : |M| ≤ 32768) (hN : |N| ≤ 2 ^ 64) (hy : |N * M / 16384| ≤ 2 ^ 40) :
    ∃ z : Rat, |z - 16 * (N * M / 16384)| ≤ |16 * (N * M / 16384)| / 2 ^ 21 + 1 / 2 ^ 60 ∧
      quantise rnd bad (.fin N) (.fin m) = max (-15) (min 16 (towardsZero z)) := by
  have s0 : |m - M| ≤ (1 / 2 ^ 24) * |M| + 1 / 2 ^ 149 := by rw [one_div_mul_eq_div]; exact hm
  have s1 := near_scale s0 (1 / 16384)
  have hk : |(1 / 16384 : Rat)| = 1 / 16384 := abs_of_pos (by norm_num)
  rw [hk] at s1
  have hM1 : |M * (1 / 16384)| ≤ 2 := by
    rw [abs_mul, hk]
    linarith
  obtain ⟨a1, r1, e1⟩ := hr (m * (1 / 16384)) (le_trans (near_abs s1 (by norm_num) hM1) (by norm_num))
  have s2 := near_weak (near_round s1 e1) (a' := 2.5 / 2 ^ 24) (b' := 2 / 2 ^ 149) (by norm_num) (by norm_num)
  have s3 := near_weak (near_scale s2 N) (a' := 2.5 / 2 ^ 24) (b' := 1 / 2 ^ 84) le_rfl (by
    calc 2 / 2 ^ 149 * |N| ≤ 2 / 2 ^ 149 * 2 ^ 64 := by gcongr
      _ ≤ _ := by norm_num)
  have hY : M * (1 / 16384) * N = N * M / 16384 := by ring
  rw [hY] at s3
  obtain ⟨a2, r2, e2⟩ := hr (a1 * N) (le_trans (near_abs s3 (by norm_num) hy) (by norm_num))
  have s4 := near_weak (near_round s3 e2) (a' := 4 / 2 ^ 24) (b' := 1 / 2 ^ 83) (by norm_num) (by norm_num)
  have s5 := near_scale s4 16
  have hY16 : |N * M / 16384 * 16| ≤ 2 ^ 44 := by
    rw [abs_mul]
    calc |N * M / 16384| * |(16 : Rat)| ≤ 2 ^ 40 * |(16 : Rat)| := by gcongr
      _ ≤ _ := by norm_num
  have h16 : |(16 : Rat)| = 16 := abs_of_pos (by norm_num)
  rw [h16] at s5
  obtain ⟨a3, r3, e3⟩ := hr (a2 * 16) (le_trans (near_abs s5 (by norm_num) hY16) (by norm_num))
  have s6 := near_weak (near_round s5 e3) (a' := 1 / 2 ^ 21) (b' := 1 / 2 ^ 60) (by norm_num) (by norm_num)
  have h63 : |a3| < 2 ^ 63 := lt_of_le_of_lt (near_abs s6 (by norm_num) hY16) (by norm_num)
  refine ⟨a3, ?_, ?_⟩
  · rw [mul_comm (16 : Rat), div_eq_mul_one_div |_|, mul_comm |_|]
    exact s6
  · have hf : Fits (.fin a3) := abs_lt.mp h63
    obtain ⟨q, q1, q2⟩ := toInt_fits (bad := bad) hf
    cases q1
    unfold quantise
    simp only [Flt.mul, r1, r2, r3]
    rw [q2]
    generalize towardsZero a3 = i
    unfold clipSample
    split <;> try split
    all_goals omega

/-- Rounding towards zero. -/
theorem towardsZero_near (z : Rat) : (0 ≤ z → z - 1 < towardsZero z ∧ (towardsZero z : Rat) ≤ z) ∧ (z ≤ 0 → z ≤ towardsZero z ∧ (towardsZero z : Rat) < z + 1) := by
  unfold towardsZero
  constructor
  · intro h
    rw [if_pos h]
    exact ⟨Int.sub_one_lt_floor z, Int.floor_le z⟩
  · intro h
    split
    · have : z = 0 := le_antisymm h (by assumption)
      subst this
      exact ⟨by decide +kernel, by decide +kernel⟩
    · have e : z.ceil = ⌈z⌉ := ceil_eq z
      rw [e]
      exact ⟨Int.le_ceil z, Int.ceil_lt_add_one z⟩

/-- The pulse for a rounded sample. -/
theorem pulse_follows {y z : Rat} {s : Int} (hz : |z - 16 * y| ≤ |16 * y| / 2 ^ 21 + 1 / 2 ^ 60) (hs : s = max (-15) (min 16 (towardsZero z))) :
    Follows (Player.pulseWidth (2 * s + 34).toNat) y := by
  obtain ⟨t1, t2⟩ := towardsZero_near z
  have h16 : |16 * y| = 16 * |y| := by rw [abs_mul, abs_of_pos (by norm_num : (0 : Rat) < 16)]
  rw [h16] at hz
  have hz' := abs_le.mp hz
  have hr : -15 ≤ s ∧ s ≤ 16 := by omega
  obtain ⟨d, hd⟩ : ∃ d : Nat, (2 * s + 34) = d := ⟨(2 * s + 34).toNat, by omega⟩
  have hp : (Player.pulseWidth (2 * s + 34).toNat = d) ∨ (s = -6 ∧ Player.pulseWidth (2 * s + 34).toNat = 21) ∨ (s = 3 ∧ Player.pulseWidth (2 * s + 34).toNat = 39) := by
    rw [hd, Int.toNat_natCast]
    unfold Player.pulseWidth
    split
    · omega
    · exact .inl rfl
  have hdr : (d : Rat) = 2 * s + 34 := by exact_mod_cast hd.symm
  refine ⟨?_, ?_, ?_, ?_⟩
  · intro hy
    have hy' := abs_le.mp hy
    have b1 : z - 16 * y ≤ 1 / 2 ^ 16 ∧ -(1 / 2 ^ 16) ≤ z - 16 * y := by
      constructor <;> nlinarith
    -- the sample
    have key : (0 ≤ z → 16 * y - 1 - 1 / 2 ^ 16 ≤ s ∧ (s : Rat) ≤ 16 * y + 1 / 2 ^ 16) ∧ (z ≤ 0 → 16 * y - 1 / 2 ^ 16 ≤ s ∧ (s : Rat) ≤ 16 * y + 1 + 1 / 2 ^ 16) := by
      constructor
      · intro h
        obtain ⟨c1, c2⟩ := t1 h
        have c0 : 0 ≤ towardsZero z := by
          by_contra hh
          have : towardsZero z ≤ -1 := by omega
          have : (towardsZero z : Rat) ≤ -1 := by exact_mod_cast this
          linarith
        have hle : s ≤ towardsZero z := by omega
        have hle' : (s : Rat) ≤ towardsZero z := by exact_mod_cast hle
        refine ⟨?_, by linarith⟩
        by_cases h17 : towardsZero z ≤ 16
        · have : s = towardsZero z := by omega
          rw [this]; linarith
        · have : s = 16 := by omega
          rw [this]; push_cast; linarith
      · intro h
        obtain ⟨c1, c2⟩ := t2 h
        have c0 : towardsZero z ≤ 0 := by
          by_contra hh
          have : 1 ≤ towardsZero z := by omega
          have : (1 : Rat) ≤ towardsZero z := by exact_mod_cast this
          linarith
        have hle : towardsZero z ≤ s := by omega
        have hle' : (towardsZero z : Rat) ≤ s := by exact_mod_cast hle
        refine ⟨by linarith, ?_⟩
        by_cases h17 : -15 ≤ towardsZero z
        · have : s = towardsZero z := by omega
          rw [this]; linarith
        · have : s = -15 := by omega
          rw [this]; push_cast; linarith
    unfold idealPulse
    rcases hp with hp | ⟨h6, hp⟩ | ⟨h3, hp⟩
    · rw [hp, hdr]
      rcases le_total 0 z with h | h
      · obtain ⟨k1, k2⟩ := key.1 h
        constructor <;> linarith
      · obtain ⟨k1, k2⟩ := key.2 h
        constructor <;> linarith
    · rw [hp]
      have hs6 : (s : Rat) = -6 := by exact_mod_cast h6
      rw [hs6] at key
      push_cast
      rcases le_total 0 z with h | h
      · obtain ⟨k1, k2⟩ := key.1 h
        exfalso
        linarith
      · obtain ⟨k1, k2⟩ := key.2 h
        constructor <;> linarith
    · rw [hp]
      have hs3 : (s : Rat) = 3 := by exact_mod_cast h3
      rw [hs3] at key
      push_cast
      rcases le_total 0 z with h | h
      · obtain ⟨k1, k2⟩ := key.1 h
        constructor <;> linarith
      · obtain ⟨k1, k2⟩ := key.2 h
        exfalso
        linarith
  · intro hy
    have hy' := abs_le.mp hy
    have hz1 : -1 < z ∧ z < 1 := by constructor <;> nlinarith
    have h0 : towardsZero z = 0 := by
      rcases le_total 0 z with h | h
      · obtain ⟨c1, c2⟩ := t1 h
        have a1 : (-1 : Rat) < towardsZero z := by linarith
        have a2 : (towardsZero z : Rat) < 1 := by linarith
        have : -1 < towardsZero z := by exact_mod_cast a1
        have : towardsZero z < 1 := by exact_mod_cast a2
        omega
      · obtain ⟨c1, c2⟩ := t2 h
        have a1 : (-1 : Rat) < towardsZero z := by linarith
        have a2 : (towardsZero z : Rat) < 1 := by linarith
        have : -1 < towardsZero z := by exact_mod_cast a1
        have : towardsZero z < 1 := by exact_mod_cast a2
        omega
    have : s = 0 := by rw [hs, h0]; rfl
    rw [this]; rfl
  · intro hy
    have ha : |y| = y := abs_of_nonneg (by linarith)
    rw [ha] at hz'
    have hz1 : 16 ≤ z := by nlinarith
    obtain ⟨c1, c2⟩ := t1 (by linarith)
    have a1 : (15 : Rat) < towardsZero z := by linarith
    have : 15 < towardsZero z := by exact_mod_cast a1
    have : s = 16 := by omega
    rw [this]; rfl
  · intro hy
    have ha : |y| = -y := abs_of_nonpos (by linarith)
    rw [ha] at hz'
    have hz1 : z ≤ -15 := by nlinarith
    obtain ⟨c1, c2⟩ := t2 (by linarith)
    have hz2 : z < -15.9 := by nlinarith
    have a1 : (towardsZero z : Rat) < -14 := by linarith
    have : towardsZero z < -14 := by exact_mod_cast a1
    have : s = -15 := by omega
    rw [this]; rfl

theorem mean_range {f : List Int} (hf : ∀ v ∈ f, -32768 ≤ v ∧ v < 32768) : |meanOf f| ≤ 32768 := by
  have key : ∀ l : List Int, (∀ v ∈ l, -32768 ≤ v ∧ v < 32768) → -32768 * (l.length : Int) ≤ l.sum ∧ l.sum ≤ 32768 * (l.length : Int) := by
    intro l
    induction l with
    | nil => intro _; simp
    | cons v l ih =>
      intro h
      have h1 := h v (.head _)
      have h2 := ih fun w hw => h w (.tail _ hw)
      simp only [List.sum_cons, List.length_cons]
      push_cast
      omega
  obtain ⟨k1, k2⟩ := key f hf
  unfold meanOf
  by_cases h0 : f.length = 0
  · rw [h0]; norm_num
  · have hp : (0 : Rat) < (f.length : Rat) := by exact_mod_cast Nat.pos_of_ne_zero h0
    rw [abs_le]
    have k1' : (-32768 * (f.length : Rat)) ≤ (f.sum : Rat) := by exact_mod_cast k1
    have k2' : (f.sum : Rat) ≤ 32768 * (f.length : Rat) := by exact_mod_cast k2
    exact ⟨(le_div_iff₀ hp).2 k1', (div_le_iff₀ hp).2 k2'⟩

end IIVision
