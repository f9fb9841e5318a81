import Verif.Spec.Audio
import Mathlib.Tactic.Linarith
import Mathlib.Data.Rat.Cast.Order
import Mathlib.Data.Rat.Floor
import Mathlib.Algebra.Order.Floor.Semiring
import Mathlib.Tactic.NormNum
import Mathlib.Tactic.Ring
import Mathlib.Tactic.FieldSimp
import Mathlib.Data.List.Sort

/-! Properties C31, C32 and C52 of the audio encoder. -/

namespace IIVision
open Spec

theorem clip_range (i : Int) : -15 ≤ clipSample i ∧ clipSample i ≤ 16 := by
  unfold clipSample; split <;> try split
  all_goals omega

theorem clip_mono {i j : Int} (h : i ≤ j) : clipSample i ≤ clipSample j := by
  unfold clipSample
  split <;> split <;> (try split) <;> (try split) <;> omega

theorem tdiv_eq_towardsZero (q : Rat) : q.num.tdiv q.den = towardsZero q := by
  unfold towardsZero
  split
  · rename_i h
    rw [Rat.floor_def]
    exact Int.tdiv_eq_ediv_of_nonneg (Rat.num_nonneg.mpr h)
  · rename_i h
    have hn : q.num ≤ 0 := by
      have : ¬ 0 ≤ q.num := fun h' => h (Rat.num_nonneg.mp h')
      omega
    rw [Rat.ceil_eq_neg_floor_neg, Rat.floor_def, Rat.neg_num, Rat.neg_den]
    have h2 : q.num.tdiv q.den = -((-q.num).tdiv q.den) := by rw [Int.neg_tdiv, neg_neg]
    rw [h2, Int.tdiv_eq_ediv_of_nonneg (by omega)]

theorem floor_eq (q : Rat) : q.floor = ⌊q⌋ := rfl

theorem ceil_eq (q : Rat) : q.ceil = ⌈q⌉ := by
  rw [Rat.ceil_eq_neg_floor_neg, floor_eq, Int.floor_neg, neg_neg]

theorem towardsZero_mono {a b : Rat} (h : a ≤ b) : towardsZero a ≤ towardsZero b := by
  unfold towardsZero
  rw [floor_eq, floor_eq, ceil_eq, ceil_eq]
  split <;> split
  · exact Int.floor_mono h
  · rename_i h1 h2; exact absurd (le_trans h1 h) h2
  · rename_i h1 h2
    have : ⌈a⌉ ≤ 0 := Int.ceil_le.mpr (by push_cast; linarith)
    have : 0 ≤ ⌊b⌋ := Int.floor_nonneg.mpr h2
    omega
  · exact Int.ceil_mono h

theorem toInt_fits {bad : Flt → Int} {x : Flt} (h : Fits x) :
    ∃ q, x = .fin q ∧ x.toInt bad = towardsZero q := by
  cases x with
  | fin q =>
    refine ⟨q, rfl, ?_⟩
    obtain ⟨h1, h2⟩ := h
    simp only [Flt.toInt, tdiv_eq_towardsZero]
    rw [if_pos]
    unfold towardsZero
    rw [floor_eq, ceil_eq]
    split
    · rename_i h0
      refine ⟨?_, ?_⟩
      · have : 0 ≤ ⌊q⌋ := Int.floor_nonneg.mpr h0
        omega
      · rw [Int.floor_lt]; push_cast; exact h2
    · rename_i h0
      refine ⟨?_, ?_⟩
      · have : (-(2 ^ 63) : Int) < ⌈q⌉ := by rw [Int.lt_ceil]; push_cast; exact h1
        omega
      · have : ⌈q⌉ ≤ 0 := Int.ceil_le.mpr (by push_cast; linarith)
        omega
  | posInf => exact h.elim
  | negInf => exact h.elim
  | nan => exact h.elim

/-- C31: whatever the decoded samples (NaN and infinities included), the normalisation, the
rounding and the integer conversion of out-of-range values, every sample of the audio stream is
in -15..16, and with every page 32..63 it selects an existing tick opcode of duty 2*s+34. -/
theorem C31_range (rnd : Rat → Flt) (bad : Flt → Int) (given : Option Flt) (analysed : List Rat)
    (chunks : List (List Flt)) (out : List Int)
    (h : audioStream rnd bad given analysed chunks = .ok out) :
    out.length = (chunks.map List.length).sum ∧
    ∀ s ∈ out, -15 ≤ s ∧ s ≤ 16 ∧ ∀ page : Int, 32 ≤ page → page < 64 →
      ∃ t p : Fin 32, tickOpcodes (2 * s + 34) page = .ok (t, p) ∧
        (4 + 2 * t.val : Int) = 2 * s + 34 ∧ (32 + p.val : Int) = page := by
  unfold audioStream at h
  cases hn : chooseNormalization rnd given analysed with
  | error e => rw [hn] at h; cases h
  | ok n =>
    rw [hn] at h
    have h' : (chunks.flatMap fun a => a.map (quantise rnd bad n)) = out := by
      injection h
    subst h'
    refine ⟨by simp [List.length_flatMap], ?_⟩
    intro s hs
    obtain ⟨a, -, hs⟩ := List.mem_flatMap.mp hs
    obtain ⟨x, -, rfl⟩ := List.mem_map.mp hs
    have hr := clip_range (Flt.toInt bad (Flt.mul rnd (Flt.mul rnd (Flt.mul rnd x (.fin (1 / 16384))) n) (.fin 16)))
    have hr' : -15 ≤ quantise rnd bad n x ∧ quantise rnd bad n x ≤ 16 := hr
    generalize quantise rnd bad n x = s at hr'
    obtain ⟨h1, h2⟩ := hr'
    refine ⟨h1, h2, ?_⟩
    intro page p1 p2
    have ht : ((2 * s + 34 - 4) / 2).toNat < 32 := by omega
    have hp : (page - 32).toNat < 32 := by omega
    refine ⟨⟨_, ht⟩, ⟨_, hp⟩, ?_, ?_, ?_⟩
    · unfold tickOpcodes
      rw [if_pos (by omega)]
      simp only [Except.ok.injEq, Prod.mk.injEq]
      exact ⟨Fin.ext (Nat.mod_eq_of_lt ht), Fin.ext (Nat.mod_eq_of_lt hp)⟩
    · simp only; omega
    · simp only; omega

theorem fin_of_between {rnd : Rat → Flt} (hr : Rounding rnd) {a b : Rat} (h : a ≤ b) {p q : Rat}
    (ha : rnd a = .fin p) (hb : rnd b = .fin q) : p ≤ q := by
  have := hr.mono a b h
  rw [ha, hb] at this
  exact this

/-- The scaled sample that is converted to an integer. -/
theorem quantise_fits {rnd : Rat → Flt} {bad : Flt → Int} {N x : Rat} :
    quantise rnd bad (.fin N) (.fin x) = clipSample (Flt.toInt bad
      (Flt.mul rnd (Flt.mul rnd (rnd (x * (1 / 16384))) (.fin N)) (.fin 16))) := rfl

theorem mul_fits {rnd : Rat → Flt} {y : Flt} {c : Rat} (hy : ∀ q, y = .fin q → True)
    {z : Rat} (h : Flt.mul rnd y (.fin c) = .fin z) : ∃ q, y = .fin q ∧ rnd (q * c) = .fin z := by
  cases y with
  | fin q => exact ⟨q, rfl, h⟩
  | posInf =>
    exfalso
    simp only [Flt.mul, Flt.infOf] at h
    split at h <;> try split at h
    all_goals cases h
  | negInf =>
    exfalso
    simp only [Flt.mul, Flt.infOf] at h
    split at h <;> try split at h
    all_goals cases h
  | nan => cases h

/-- C31: quantisation is monotone in the sample (for a positive finite normalisation, any
monotone rounding, and as long as the scaled samples fit into 64 bits). -/
theorem C31_monotone (rnd : Rat → Flt) (hr : Rounding rnd) (bad : Flt → Int) (N : Rat) (hN : 0 < N)
    (x y : Rat) (hxy : x ≤ y)
    (hx : Fits (Flt.mul rnd (Flt.mul rnd (Flt.mul rnd (.fin x) (.fin (1 / 16384))) (.fin N)) (.fin 16)))
    (hy : Fits (Flt.mul rnd (Flt.mul rnd (Flt.mul rnd (.fin y) (.fin (1 / 16384))) (.fin N)) (.fin 16))) :
    quantise rnd bad (.fin N) (.fin x) ≤ quantise rnd bad (.fin N) (.fin y) := by
  obtain ⟨p, p1, p2⟩ := toInt_fits (bad := bad) hx
  obtain ⟨q, q1, q2⟩ := toInt_fits (bad := bad) hy
  unfold quantise
  simp only
  rw [p2, q2]
  apply clip_mono
  apply towardsZero_mono
  obtain ⟨x2, a1, a2⟩ := mul_fits (fun _ _ => trivial) p1
  obtain ⟨x1, a3, a4⟩ := mul_fits (fun _ _ => trivial) a1
  obtain ⟨y2, b1, b2⟩ := mul_fits (fun _ _ => trivial) q1
  obtain ⟨y1, b3, b4⟩ := mul_fits (fun _ _ => trivial) b1
  have h1 : x1 ≤ y1 := fin_of_between hr (by linarith) a3 b3
  have h2 : x2 ≤ y2 := fin_of_between hr (mul_le_mul_of_nonneg_right h1 (le_of_lt hN)) a4 b4
  exact fin_of_between hr (by linarith) a2 b2

/-- C31: in exact arithmetic the emitted sample is `16 * N * x / 16384` rounded towards zero and
clipped to -15..16. -/
theorem C31_exact (bad : Flt → Int) (N x : Rat) (h : |N * x / 1024| < 2 ^ 63) :
    quantise .fin bad (.fin N) (.fin x) = max (-15) (min 16 (towardsZero (N * x / 1024))) := by
  have e : Flt.mul .fin (Flt.mul .fin (Flt.mul .fin (.fin x) (.fin (1 / 16384))) (.fin N)) (.fin 16)
      = .fin (N * x / 1024) := by
    simp only [Flt.mul]
    congr 1
    ring
  have hf : Fits (.fin (N * x / 1024)) := abs_lt.mp h
  obtain ⟨q, q1, q2⟩ := toInt_fits (bad := bad) hf
  unfold quantise
  simp only
  rw [e, q2]
  cases q1
  generalize towardsZero (N * x / 1024) = i
  unfold clipSample
  split <;> try split
  all_goals omega

/-! ### C32 -/

/-- Sorted samples lie between the bounds of the samples, so do percentiles. -/
theorem sorted_perm (a : List Rat) :
    (a.mergeSort (fun x y => decide (x ≤ y))).Perm a := List.mergeSort_perm _ _

theorem percentile_zero {a : List Rat} {p : Rat} (h : ∀ x ∈ a, x = 0) {r : Rat}
    (hr : percentile a p = .ok r) : r = 0 := by
  unfold percentile at hr
  simp only at hr
  have h0 : ∀ (i : Nat) (lo : Rat), (a.mergeSort (fun x y => decide (x ≤ y)))[i]? = some lo → lo = 0 := by
    intro i lo hlo
    exact h lo ((sorted_perm a).subset (List.mem_of_getElem? hlo))
  split at hr
  · cases hr
  · rename_i lo hlo
    split at hr
    · cases hr; exact h0 _ _ hlo
    · rename_i hi hhi
      rw [h0 _ _ hlo, h0 _ _ hhi] at hr
      cases hr
      simp [lerp]

theorem mul_inf_ne (rnd : Rat → Flt) (y : Flt) (q : Rat) :
    Flt.mul rnd (Flt.mul rnd y .posInf) (.fin 16) ≠ .fin q := by
  have h : ∀ z : Flt, (∀ r, z ≠ .fin r) → Flt.mul rnd z (.fin 16) ≠ .fin q := by
    intro z hz
    cases z with
    | fin r => exact absurd rfl (hz r)
    | posInf => norm_num [Flt.mul, Flt.infOf, ratSign]; simp
    | negInf => norm_num [Flt.mul, Flt.infOf, ratSign]; simp
    | nan => simp [Flt.mul]
  apply h
  intro r
  cases y with
  | fin r => simp only [Flt.mul, Flt.infOf]; split <;> try split
             all_goals simp
  | posInf => simp [Flt.mul]
  | negInf => simp [Flt.mul]
  | nan => simp [Flt.mul]

/-- C32 (defect): if the analysed part is silent and no normalisation is given, then on x86-64
every sample, whatever it is, is emitted as -15, the shortest speaker duty; silence would be 0. -/
theorem C32_silence_distorts (rnd : Rat → Flt) (analysed : List Rat) (h : ∀ x ∈ analysed, x = 0)
    (given : Option Flt) (hg : given = none ∨ given = some (.fin 0)) (chunks : List (List Flt))
    (out : List Int) (ho : audioStream rnd x86Bad given analysed chunks = .ok out) :
    ∀ s ∈ out, s = -15 := by
  unfold audioStream at ho
  have hc : chooseNormalization rnd given analysed = normalizationOf rnd analysed := by
    rcases hg with rfl | rfl
    · rfl
    · simp [chooseNormalization]
  rw [hc] at ho
  unfold normalizationOf at ho
  cases h1 : percentile analysed (1 / 2) with
  | error e => rw [h1] at ho; cases ho
  | ok r1 =>
    cases h2 : percentile analysed (995 / 10) with
    | error e => rw [h1, h2] at ho; cases ho
    | ok r2 =>
      rw [h1, h2] at ho
      have e1 := percentile_zero h h1
      have e2 := percentile_zero h h2
      subst e1 e2
      have h' : (chunks.flatMap fun a => a.map (quantise rnd x86Bad .posInf)) = out := by
        have : Flt.divInto rnd 16384 (Flt.max (Flt.abs (.fin 0)) (Flt.abs (.fin 0))) = .posInf := by
          simp [Flt.divInto, Flt.max, Flt.abs]
        change Except.ok (chunks.flatMap fun a => a.map (quantise rnd x86Bad
          (Flt.divInto rnd 16384 (Flt.max (Flt.abs (.fin 0)) (Flt.abs (.fin 0)))))) = Except.ok out at ho
        rw [this] at ho
        injection ho
      subst h'
      intro s hs
      obtain ⟨a, -, hs⟩ := List.mem_flatMap.mp hs
      obtain ⟨x, -, rfl⟩ := List.mem_map.mp hs
      unfold quantise
      simp only
      generalize hz : Flt.mul rnd (Flt.mul rnd (Flt.mul rnd x (.fin (1 / 16384))) .posInf) (.fin 16) = z
      cases z with
      | fin q => exact absurd hz (mul_inf_ne _ _ _)
      | posInf => rfl
      | negInf => rfl
      | nan => rfl

/-- C32: whenever the normalisation is a finite number, zero samples are emitted as 0. -/
theorem C32_zero_is_silent (rnd : Rat → Flt) (hr : Rounding rnd) (bad : Flt → Int) (N : Rat) :
    quantise rnd bad (.fin N) (.fin 0) = 0 := by
  unfold quantise
  simp [Flt.mul, hr.zero, Flt.toInt, clipSample]

/-! ### C52 -/

theorem sorted_getElem_le (s : List Rat) (hs : s.Pairwise (· ≤ ·)) {i j : Nat} {x y : Rat}
    (hij : i ≤ j) (hx : s[i]? = some x) (hy : s[j]? = some y) : x ≤ y := by
  obtain ⟨h1, rfl⟩ := List.getElem?_eq_some_iff.mp hx
  obtain ⟨h2, rfl⟩ := List.getElem?_eq_some_iff.mp hy
  rcases Nat.lt_or_eq_of_le hij with h | rfl
  · exact List.pairwise_iff_getElem.mp hs i j h1 h2 h
  · exact le_refl _

theorem sorted_pairwise (a : List Rat) :
    (a.mergeSort (fun x y => decide (x ≤ y))).Pairwise (· ≤ ·) := by
  have := List.pairwise_mergeSort (le := fun x y : Rat => decide (x ≤ y))
    (by intro a b c h1 h2; simp only [decide_eq_true_eq] at *; exact le_trans h1 h2)
    (by intro a b; simp only [Bool.or_eq_true, decide_eq_true_eq]; exact le_total a b) a
  simpa using this

/-- At most `k` elements of a sorted list exceed `v` if all but the last `k` are at most `v`. -/
theorem count_above (s : List Rat) (v : Rat) (m : Nat) (h : ∀ i x, i < m → s[i]? = some x → x ≤ v) :
    s.countP (fun x => decide (v < x)) ≤ s.length - m := by
  conv_lhs => rw [← List.take_append_drop m s]
  rw [List.countP_append]
  have h1 : (s.take m).countP (fun x => decide (v < x)) = 0 := by
    rw [List.countP_eq_zero]
    intro x hx
    obtain ⟨i, hi⟩ := List.getElem?_of_mem hx
    rw [List.getElem?_take] at hi
    split at hi
    · simp only [decide_eq_true_eq, not_lt]
      exact h i x (by assumption) hi
    · cases hi
  have h2 := List.countP_le_length (p := fun x : Rat => decide (v < x)) (l := s.drop m)
  rw [List.length_drop] at h2
  omega

theorem count_below (s : List Rat) (v : Rat) (m : Nat) (h : ∀ i x, m ≤ i → s[i]? = some x → v ≤ x) :
    s.countP (fun x => decide (x < v)) ≤ m := by
  conv_lhs => rw [← List.take_append_drop m s]
  rw [List.countP_append]
  have h1 : (s.drop m).countP (fun x => decide (x < v)) = 0 := by
    rw [List.countP_eq_zero]
    intro x hx
    obtain ⟨i, hi⟩ := List.getElem?_of_mem hx
    rw [List.getElem?_drop] at hi
    simp only [decide_eq_true_eq, not_lt]
    exact h _ x (by omega) hi
  have h2 := List.countP_le_length (p := fun x : Rat => decide (x < v)) (l := s.take m)
  rw [List.length_take] at h2
  omega

/-- What is needed of a percentile `r`: few samples are on either side of it. -/
theorem percentile_counts {a : List Rat} {p r : Rat} (hp0 : 0 ≤ p) (hp : p ≤ 100)
    (h : percentile a p = .ok r) :
    ((a.countP (fun x => decide (r < x)) : Rat) ≤ ⌈((100 - p) / 100) * ((a.length : Rat) - 1)⌉) ∧
    ((a.countP (fun x => decide (x < r)) : Rat) ≤ ⌈(p / 100) * ((a.length : Rat) - 1)⌉) := by
  unfold percentile at h
  simp only at h
  have hperm := sorted_perm a
  have hs := sorted_pairwise a
  rw [hperm.length_eq] at h
  rw [← hperm.countP_eq, ← hperm.countP_eq]
  have hlen := hperm.length_eq
  generalize a.mergeSort (fun x y => decide (x ≤ y)) = s at *
  rw [← hlen] at h ⊢
  clear hlen hperm a
  set v : Rat := p / 100 * ((s.length : Rat) - 1) with hv
  have hw : (100 - p) / 100 * ((s.length : Rat) - 1) = (s.length : Rat) - 1 - v := by rw [hv]; ring
  rw [hw]
  rw [floor_eq] at h
  split at h
  · cases h
  · rename_i lo hlo
    have hl : 1 ≤ s.length := by
      have := (List.getElem?_eq_some_iff.mp hlo).1
      omega
    have hl' : (1 : Rat) ≤ s.length := by exact_mod_cast hl
    have hv0 : 0 ≤ v := by
      rw [hv]
      exact mul_nonneg (by linarith) (by linarith)
    have hv1 : v ≤ s.length - 1 := by
      rw [hv]
      have h1 : p / 100 ≤ 1 := by linarith
      nlinarith
    obtain ⟨i, hi⟩ : ∃ i : Nat, ⌊v⌋ = i := ⟨⌊v⌋.toNat, by
      have := Int.floor_nonneg.mpr hv0
      omega⟩
    rw [hi] at h hlo
    simp only [Int.toNat_natCast] at h hlo
    have hiv : (i : Rat) ≤ v := by
      have := Int.floor_le v
      rw [hi] at this
      exact_mod_cast this
    have hiv2 : v < i + 1 := by
      have := Int.lt_floor_add_one v
      rw [hi] at this
      exact_mod_cast this
    have hilt : i < s.length := (List.getElem?_eq_some_iff.mp hlo).1
    have hcu : ((s.length - (i + 1) : Nat) : Int) ≤ ⌈(s.length : Rat) - 1 - v⌉ := by
      have h1 : ⌈(s.length : Rat) - 1 - v⌉ = (s.length : Int) - 1 - ⌊v⌋ := by
        have : (s.length : Rat) - 1 - v = -(v - ((s.length - 1 : Int) : Rat)) := by push_cast; ring
        rw [this, Int.ceil_neg, Int.floor_sub_intCast]
        ring
      rw [h1, hi]
      omega
    -- the value is at least sample number i
    have hcase : lo ≤ r ∧ ((r = lo ∧ v = i) ∨ (v ≠ i ∧ ∀ hi', s[i + 1]? = some hi' → r ≤ hi')) := by
      split at h
      · rename_i hnone
        cases h
        have : s.length = i + 1 := by
          have := List.getElem?_eq_none_iff.mp hnone
          omega
        refine ⟨le_refl _, .inl ⟨rfl, ?_⟩⟩
        have h3 : (s.length : Rat) = i + 1 := by exact_mod_cast this
        linarith
      · rename_i hi' hhi
        have hle := sorted_getElem_le s hs (Nat.le_succ i) hlo hhi
        cases h
        have ht0 : 0 ≤ v - i := by linarith
        have ht1 : v - i ≤ 1 := by linarith
        have hd : 0 ≤ hi' - lo := by linarith
        refine ⟨?_, ?_⟩
        · unfold lerp
          nlinarith [mul_nonneg hd ht0]
        · by_cases he : v = i
          · left
            refine ⟨?_, he⟩
            unfold lerp
            rw [he]; ring
          · right
            refine ⟨he, ?_⟩
            intro h2 hh2
            have hh2' : s[i + 1]? = some h2 := hh2
            have hhi' : s[i + 1]? = some hi' := hhi
            rw [hhi'] at hh2'
            cases hh2'
            unfold lerp
            nlinarith [mul_le_mul_of_nonneg_left ht1 hd]
    constructor
    · have := count_above s r (i + 1) (by
        intro j x hj hx
        exact le_trans (sorted_getElem_le s hs (by omega) hx hlo) hcase.1)
      have h2 : (s.countP (fun x => decide (r < x)) : Int) ≤ ⌈(s.length : Rat) - 1 - v⌉ := by omega
      exact_mod_cast h2
    · rcases hcase.2 with ⟨e1, e2⟩ | ⟨e1, e2⟩
      · have := count_below s r i (by
          intro j x hj hx
          rw [e1]
          exact sorted_getElem_le s hs hj hlo hx)
        have h2 : (s.countP (fun x => decide (x < r)) : Int) ≤ ⌈v⌉ := by
          rw [e2, show ((i : Nat) : Rat) = ((i : Int) : Rat) from by push_cast; rfl, Int.ceil_intCast]
          exact_mod_cast this
        exact_mod_cast h2
      · have := count_below s r (i + 1) (by
          intro j x hj hx
          have hj2 : j < s.length := (List.getElem?_eq_some_iff.mp hx).1
          have hx2 : s[i + 1]? = some s[i + 1] := List.getElem?_eq_getElem (by omega)
          exact le_trans (e2 _ hx2) (sorted_getElem_le s hs hj hx2 hx))
        have h3 : ((i : Int) : Rat) < v := by
          rcases lt_or_eq_of_le hiv with h | h
          · exact_mod_cast h
          · exact absurd h.symm e1
        have h2 : (i : Int) < ⌈v⌉ := Int.lt_ceil.mpr h3
        have h4 : (s.countP (fun x => decide (x < r)) : Int) ≤ ⌈v⌉ := by omega
        exact_mod_cast h4

/-- C52: in exact arithmetic, if the normalisation is computed from the `n` samples `a`, at most
2 * ceil((n-1)/200) of them are scaled beyond +-16; every other sample is emitted as its scaled
value rounded towards zero, except that -16 is emitted as -15. -/
theorem C52_clipping (bad : Flt → Int) (a : List Rat) (N : Rat)
    (h : normalizationOf .fin a = .ok (.fin N)) :
    ((a.countP (fun x => decide (16 < |N * x / 1024|)) : Rat) ≤ 2 * ⌈((a.length : Rat) - 1) / 200⌉) ∧
    ∀ x, |N * x / 1024| ≤ 16 →
      quantise .fin bad (.fin N) (.fin x) = max (-15) (towardsZero (N * x / 1024)) := by
  constructor
  · unfold normalizationOf at h
    cases h1 : percentile a (1 / 2) with
    | error e => rw [h1] at h; cases h
    | ok r1 =>
      cases h2 : percentile a (995 / 10) with
      | error e => rw [h1, h2] at h; cases h
      | ok r2 =>
        rw [h1, h2] at h
        have h' : Flt.divInto .fin 16384 (Flt.max (Flt.abs (.fin r1)) (Flt.abs (.fin r2))) = .fin N := by
          injection h
        have habs : ∀ q : Rat, (if q < 0 then -q else q) = |q| := by
          intro q
          split
          · rename_i hq; rw [abs_of_neg hq]
          · rename_i hq; rw [abs_of_nonneg (not_lt.mp hq)]
        have hmax : Flt.max (Flt.abs (.fin r1)) (Flt.abs (.fin r2)) = .fin (max |r1| |r2|) := by
          simp only [Flt.abs, Flt.max, habs]
          split
          · rename_i hlt; rw [max_eq_right (le_of_lt hlt)]
          · rename_i hlt; rw [max_eq_left (not_lt.mp hlt)]
        rw [hmax] at h'
        set P := max |r1| |r2| with hP
        simp only [Flt.divInto] at h'
        split at h'
        · cases h'
        · rename_i hP0
          have hN : 16384 / P = N := by injection h'
          have hPpos : 0 < P := lt_of_le_of_ne (le_trans (abs_nonneg r1) (le_max_left _ _)) (Ne.symm hP0)
          have c1 := (percentile_counts (by norm_num) (by norm_num) h1).2
          have c2 := (percentile_counts (by norm_num) (by norm_num) h2).1
          have f1 : (1 / 2 / 100 : Rat) * ((a.length : Rat) - 1) = ((a.length : Rat) - 1) / 200 := by ring
          have f2 : ((100 - 995 / 10) / 100 : Rat) * ((a.length : Rat) - 1) = ((a.length : Rat) - 1) / 200 := by
            ring
          rw [f1] at c1
          rw [f2] at c2
          have hsplit : ∀ l : List Rat, l.countP (fun x => decide (16 < |N * x / 1024|)) ≤
              l.countP (fun x => decide (x < r1)) + l.countP (fun x => decide (r2 < x)) := by
            intro l
            induction l with
            | nil => simp
            | cons x l ih =>
              simp only [List.countP_cons]
              have key : 16 < |N * x / 1024| → x < r1 ∨ r2 < x := by
                intro hx
                have e : N * x / 1024 = 16 * (x / P) := by rw [← hN]; field_simp; ring
                rw [e, abs_mul, abs_div, abs_of_pos hPpos, abs_of_nonneg (by norm_num : (0 : Rat) ≤ 16)] at hx
                have h3 : P < |x| := by
                  have : 1 < |x| / P := by linarith
                  rwa [lt_div_iff₀ hPpos, one_mul] at this
                have m1 := le_max_left |r1| |r2|
                have m2 := le_max_right |r1| |r2|
                rw [← hP] at m1 m2
                rcases lt_abs.mp h3 with h4 | h4
                · right; linarith [le_abs_self r2]
                · left; linarith [neg_abs_le r1]
              by_cases hx : 16 < |N * x / 1024|
              · rcases key hx with h4 | h4
                · simp only [hx, h4, decide_true, if_true]; omega
                · simp only [hx, h4, decide_true, if_true]; omega
              · simp only [hx, decide_false, Bool.false_eq_true, if_false]; omega
          have := hsplit a
          have h5 : (a.countP (fun x => decide (16 < |N * x / 1024|)) : Rat) ≤
              a.countP (fun x => decide (x < r1)) + a.countP (fun x => decide (r2 < x)) := by
            exact_mod_cast this
          linarith
  · intro x hx
    rw [C31_exact bad N x (by linarith [hx, (by norm_num : (16 : Rat) < 2 ^ 63)])]
    have h1 : towardsZero (N * x / 1024) ≤ 16 := by
      unfold towardsZero
      rw [floor_eq, ceil_eq]
      have := (abs_le.mp hx).2
      split
      · have h2 : (⌊N * x / 1024⌋ : Rat) ≤ 16 := le_trans (Int.floor_le _) this
        exact_mod_cast h2
      · exact Int.ceil_le.mpr (by push_cast; exact this)
    rw [min_eq_right h1]

/-! ### The hypotheses are met -/

/-- Exact arithmetic is a rounding. -/
example : Rounding Flt.fin := ⟨fun _ _ h => h, rfl⟩

example : Fits (Flt.mul .fin (Flt.mul .fin (Flt.mul .fin (.fin 8000) (.fin (1 / 16384))) (.fin 3)) (.fin 16)) := by
  constructor <;> norm_num

theorem sort_example (l : List Rat) (h : l.Pairwise (· ≤ ·)) :
    l.mergeSort (fun x y => decide (x ≤ y)) = l :=
  List.mergeSort_of_pairwise (by simpa using h)

/-- A silent input is analysed without an exception. -/
example : audioStream .fin x86Bad none [0, 0, 0] [[.fin 0, .fin 5], [.nan, .negInf]]
    = .ok [-15, -15, -15, -15] := by
  unfold audioStream chooseNormalization normalizationOf percentile
  rw [sort_example [0, 0, 0] (by norm_num)]
  decide +kernel

example : normalizationOf .fin [-1, 0, 1] = .ok (.fin (16384 / (99 / 100))) := by
  unfold normalizationOf percentile
  rw [sort_example [-1, 0, 1] (by norm_num)]
  decide +kernel

end IIVision
