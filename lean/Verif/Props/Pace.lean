import Verif.Spec.Pace
import Verif.Proofs.Names
import Verif.Proofs.Symbols
import Verif.Props.Movie
import Verif.Props.Program
import Mathlib.Tactic.GCongr

/-! The pace of the frames, from the numbers the user gives. -/

namespace IIVision
open Spec

/-! ### The frame rate -/

theorem digitsFrom_ok (t : Text) (h : ∀ c ∈ t, 48 ≤ c ∧ c ≤ 57) :
    ∀ acc, digitsFrom acc t = some (t.foldl (fun a c => 10 * a + (c - 48)) acc) := by
  induction t with
  | nil => intro acc; rfl
  | cons c t ih =>
    intro acc
    rw [digitsFrom, if_pos (h c (by simp)), ih (fun x hx => h x (by simp [hx]))]
    rfl

theorem decText_ne (n : Nat) : decText n ≠ [] := by
  rw [decText]; split <;> simp

theorem floatOf_dec (rnd : Rat → Rat) (n : Nat) : floatOf rnd (decText n) = .ok (rnd n) := by
  unfold floatOf
  rw [if_neg (decText_ne n), digitsFrom_ok _ (fun c h => decText_digit h)]
  show Except.ok (rnd (decValue (decText n) : Nat)) = _
  rw [decValue_decText]

theorem slash_plain (n : Nat) : 47 ∉ decText n := by
  intro h
  have := decText_digit h
  omega

/-- C73: the frame rate is the quotient of the two numbers ffprobe reports, rounded; a rate without a
denominator is an IndexError, one with denominator 0 (ffprobe's "unknown") a ZeroDivisionError. -/
theorem C73_rate (rnd : Rat → Rat) (h0 : rnd 0 = 0) (n d : Nat) :
    (rnd d ≠ 0 → frameRate rnd (decText n ++ txt "/" ++ decText d) = .ok (rnd (rnd n / rnd d))) ∧
    frameRate rnd (decText n ++ txt "/0") = .error .zeroDivisionError ∧
    frameRate rnd (decText n) = .error .indexError := by
  have hs : ∀ t : Text, splitOn 47 (decText n ++ txt "/" ++ t) = decText n :: splitOn 47 t := by
    intro t
    rw [List.append_assoc]
    exact splitOn_append 47 (decText n) t (slash_plain n)
  refine ⟨fun hd => ?_, ?_, ?_⟩
  · unfold frameRate
    rw [hs, splitOn_plain 47 _ (slash_plain d)]
    simp only [List.headD_cons, floatOf_dec, List.getElem?_cons_succ, List.getElem?_cons_zero, bind, Except.bind]
    rw [if_neg hd]
  · have e : (decText n ++ txt "/0" : Text) = decText n ++ txt "/" ++ decText 0 := by
      rw [List.append_assoc, show decText 0 = [48] by simp [decText]]; rfl
    unfold frameRate
    rw [e, hs, splitOn_plain 47 _ (slash_plain 0)]
    simp only [List.headD_cons, floatOf_dec, List.getElem?_cons_succ, List.getElem?_cons_zero, bind, Except.bind]
    rw [if_pos (by simpa using h0)]
  · unfold frameRate
    rw [splitOn_plain 47 _ (slash_plain n)]
    simp only [List.headD_cons, floatOf_dec, bind, Except.bind]
    rfl

/-! ### Accumulated rounding errors -/

/-- One rounding. -/
def eps : Rat := 1 / 2 ^ 53

/-- Equal up to `m` roundings. -/
def Near (m : Nat) (x y : Rat) : Prop := 0 < x ∧ 0 < y ∧ y * (1 - eps) ^ m ≤ x ∧ x * (1 - eps) ^ m ≤ y

theorem one_eps : 0 < 1 - eps ∧ 1 - eps < 1 := by constructor <;> norm_num [eps]

theorem Near.trans {m k : Nat} {x y z : Rat} (h1 : Near m x y) (h2 : Near k y z) : Near (m + k) x z := by
  obtain ⟨a1, a2, a3, a4⟩ := h1
  obtain ⟨b1, b2, b3, b4⟩ := h2
  have pm : 0 < (1 - eps) ^ m := pow_pos one_eps.1 m
  have pk : 0 < (1 - eps) ^ k := pow_pos one_eps.1 k
  refine ⟨a1, b2, ?_, ?_⟩
  · calc z * (1 - eps) ^ (m + k) = z * (1 - eps) ^ k * (1 - eps) ^ m := by ring
      _ ≤ y * (1 - eps) ^ m := by gcongr
      _ ≤ x := a3
  · calc x * (1 - eps) ^ (m + k) = x * (1 - eps) ^ m * (1 - eps) ^ k := by ring
      _ ≤ y * (1 - eps) ^ k := by gcongr
      _ ≤ z := b4

theorem Near.mul {m k : Nat} {x y u v : Rat} (h1 : Near m x y) (h2 : Near k u v) : Near (m + k) (x * u) (y * v) := by
  obtain ⟨a1, a2, a3, a4⟩ := h1
  obtain ⟨b1, b2, b3, b4⟩ := h2
  have pm : 0 < (1 - eps) ^ m := pow_pos one_eps.1 m
  have pk : 0 < (1 - eps) ^ k := pow_pos one_eps.1 k
  refine ⟨mul_pos a1 b1, mul_pos a2 b2, ?_, ?_⟩
  · calc y * v * (1 - eps) ^ (m + k) = (y * (1 - eps) ^ m) * (v * (1 - eps) ^ k) := by ring
      _ ≤ x * u := by gcongr
  · calc x * u * (1 - eps) ^ (m + k) = (x * (1 - eps) ^ m) * (u * (1 - eps) ^ k) := by ring
      _ ≤ y * v := by gcongr

theorem Near.inv {m : Nat} {x y : Rat} (h : Near m x y) : Near m x⁻¹ y⁻¹ := by
  obtain ⟨a1, a2, a3, a4⟩ := h
  have pm : 0 < (1 - eps) ^ m := pow_pos one_eps.1 m
  refine ⟨inv_pos.mpr a1, inv_pos.mpr a2, ?_, ?_⟩
  · rw [inv_mul_le_iff₀ a2, ← div_eq_mul_inv, le_div_iff₀ a1]; linarith
  · rw [inv_mul_le_iff₀ a1, ← div_eq_mul_inv, le_div_iff₀ a2]; linarith

theorem Near.div {m k : Nat} {x y u v : Rat} (h1 : Near m x y) (h2 : Near k u v) : Near (m + k) (x / u) (y / v) := by
  rw [div_eq_mul_inv, div_eq_mul_inv]; exact h1.mul h2.inv

theorem double_near {rnd : Rat → Rat} (h : Double rnd) {x : Rat} (h1 : 1 / 2 ^ 200 ≤ x) (h2 : x ≤ 2 ^ 200) : Near 1 (rnd x) x := by
  obtain ⟨a, b⟩ := h.close x h1 h2
  have hx : 0 < x := lt_of_lt_of_le (by positivity) h1
  have he : x / 2 ^ 53 = x * eps := by simp [eps, div_eq_mul_inv]
  rw [he] at a b
  have h3 : 0 < rnd x := by
    have : 0 < x * (1 - eps) := mul_pos hx one_eps.1
    linarith
  refine ⟨h3, hx, by rw [pow_one]; linarith, ?_⟩
  rw [pow_one]
  have h4 := one_eps.1
  have h5 : (0 : Rat) < eps := by norm_num [eps]
  calc rnd x * (1 - eps) ≤ (x + x * eps) * (1 - eps) := by gcongr
    _ = x - x * (eps * eps) := by ring
    _ ≤ x := by have := mul_pos hx (mul_pos h5 h5); linarith

/-- Up to seven roundings, in absolute terms. -/
theorem Near.abs {x y : Rat} (h : Near 7 x y) : |x - y| ≤ y / 2 ^ 50 := by
  obtain ⟨a1, a2, a3, a4⟩ := h
  have h7 : 1 - 7 * eps ≤ (1 - eps) ^ 7 := by norm_num [eps]
  have b1 : y * (1 - 7 * eps) ≤ x := le_trans (by gcongr) a3
  have b2 : x * (1 - 7 * eps) ≤ y := le_trans (by gcongr) a4
  rw [abs_le]
  constructor
  · have : y * (1 - 7 * eps) = y - y / 2 ^ 50 + y / 2 ^ 53 := by norm_num [eps]; ring
    have h0 : 0 < y / 2 ^ 53 := by positivity
    linarith
  · have e1 : (1 : Rat) ≤ (1 + 1 / 2 ^ 50) * (1 - 7 * eps) := by norm_num [eps]
    have e2 : 0 < 1 - 7 * eps := by norm_num [eps]
    have : x ≤ y * (1 + 1 / 2 ^ 50) := by
      have : x * (1 - 7 * eps) ≤ y * (1 + 1 / 2 ^ 50) * (1 - 7 * eps) :=
        calc x * (1 - 7 * eps) ≤ y * 1 := by rw [mul_one]; exact b2
          _ ≤ y * ((1 + 1 / 2 ^ 50) * (1 - 7 * eps)) := by gcongr
          _ = _ := by ring
      exact le_of_mul_le_mul_right this e2
    have e3 : y * (1 + 1 / 2 ^ 50) = y + y / 2 ^ 50 := by ring
    linarith

theorem Near.range {m : Nat} {x y : Rat} (h : Near m x y) (hm : m ≤ 7) (h1 : 1 / 2 ^ 150 ≤ y) (h2 : y ≤ 2 ^ 150) :
    1 / 2 ^ 200 ≤ x ∧ x ≤ 2 ^ 200 := by
  obtain ⟨a1, a2, a3, a4⟩ := h
  have hp : (1 / 2 : Rat) ≤ (1 - eps) ^ m :=
    le_trans (by norm_num [eps]) (pow_le_pow_of_le_one one_eps.1.le one_eps.2.le hm)
  constructor
  · calc (1 : Rat) / 2 ^ 200 ≤ 1 / 2 ^ 150 * (1 / 2) := by norm_num
      _ ≤ y * (1 - eps) ^ m := by gcongr
      _ ≤ x := a3
  · have : x * (1 / 2) ≤ 2 ^ 150 := le_trans (le_trans (by gcongr) a4) h2
    calc x ≤ 2 ^ 150 * 2 := by linarith
      _ ≤ 2 ^ 200 := by norm_num

theorem Near.rnd {rnd : Rat → Rat} (hr : Double rnd) {m : Nat} {x y : Rat} (h : Near m x y) (hm : m ≤ 7) (h1 : 1 / 2 ^ 150 ≤ y)
    (h2 : y ≤ 2 ^ 150) : Near (1 + m) (rnd x) y :=
  (double_near hr (h.range hm h1 h2).1 (h.range hm h1 h2).2).trans h

theorem Near.nat {rnd : Rat → Rat} (hr : Double rnd) {n : Nat} (h1 : 1 ≤ n) (h2 : n ≤ 2 ^ 64) : Near 1 (rnd n) n := by
  have e1 : (1 : Rat) ≤ n := by exact_mod_cast h1
  have e2 : (n : Rat) ≤ 2 ^ 64 := by exact_mod_cast h2
  exact double_near hr (le_trans (by norm_num) e1) (le_trans e2 (by norm_num))

theorem threshold_near {rnd : Rat → Rat} (hr : Double rnd) {n d b : Nat} (hg : GoodRates n d b) {fr tpf : Rat}
    (h1 : frameRate rnd (decText n ++ txt "/" ++ decText d) = .ok fr) (h2 : ticksPerFrame rnd b fr = .ok tpf)
    {k : Nat} (hk1 : 1 ≤ k) (hk : k ≤ 2 ^ 48) : Near 7 (rnd (tpf * rnd k)) ((b * d / n : Rat) * k) := by
  obtain ⟨n1, n2, d1, d2, b1, b2, -⟩ := hg
  have qn1 : (1 : Rat) ≤ n := by exact_mod_cast n1
  have qn2 : (n : Rat) ≤ 2 ^ 32 := by exact_mod_cast n2.le
  have qd1 : (1 : Rat) ≤ d := by exact_mod_cast d1
  have qd2 : (d : Rat) ≤ 2 ^ 32 := by exact_mod_cast d2.le
  have qb1 : (1 : Rat) ≤ b := by exact_mod_cast b1
  have qb2 : (b : Rat) ≤ 2 ^ 32 := by exact_mod_cast b2.le
  have qk1 : (1 : Rat) ≤ k := by exact_mod_cast hk1
  have qk2 : (k : Rat) ≤ 2 ^ 48 := by exact_mod_cast hk
  have hn := Near.nat hr n1 (by omega)
  have hd := Near.nat hr d1 (by omega)
  have hb := Near.nat hr b1 (by omega)
  have hk' := Near.nat hr hk1 (by omega)
  have hfr := (C73_rate rnd hr.zero n d).1 hd.1.ne'
  rw [hfr] at h1
  have e1 : rnd (rnd n / rnd d) = fr := Except.ok.inj h1
  have f1 : Near 3 fr (n / d) := by
    rw [← e1]
    refine Near.rnd hr (hn.div hd) (by omega) ?_ ?_
    · rw [le_div_iff₀ (by linarith)]
      calc (1 : Rat) / 2 ^ 150 * d ≤ 1 / 2 ^ 150 * 2 ^ 32 := by gcongr
        _ ≤ 1 := by norm_num
        _ ≤ n := qn1
    · rw [div_le_iff₀ (by linarith)]
      calc (n : Rat) ≤ 2 ^ 32 := qn2
        _ ≤ 2 ^ 150 * 1 := by norm_num
        _ ≤ 2 ^ 150 * d := by gcongr
  unfold ticksPerFrame at h2
  rw [if_neg f1.1.ne'] at h2
  have e2 : rnd (rnd ((b : Int) : Rat) / fr) = tpf := Except.ok.inj h2
  rw [Int.cast_natCast] at e2
  have hq : (b : Rat) / (n / d) = b * d / n := by field_simp
  have q1 : (1 : Rat) / 2 ^ 32 ≤ b * d / n := by
    rw [le_div_iff₀ (by linarith)]
    calc (1 : Rat) / 2 ^ 32 * n ≤ 1 / 2 ^ 32 * 2 ^ 32 := by gcongr
      _ = 1 * 1 := by norm_num
      _ ≤ b * d := by gcongr
  have q2 : (b * d / n : Rat) ≤ 2 ^ 64 := by
    rw [div_le_iff₀ (by linarith)]
    calc (b * d : Rat) ≤ 2 ^ 32 * 2 ^ 32 := by gcongr
      _ = 2 ^ 64 * 1 := by norm_num
      _ ≤ 2 ^ 64 * n := by gcongr
  have f2 : Near 5 tpf (b * d / n) := by
    rw [← e2, ← hq]
    refine Near.rnd hr (hb.div f1) (by omega) ?_ ?_
    · rw [hq]; exact le_trans (by norm_num) q1
    · rw [hq]; exact le_trans q2 (by norm_num)
  refine Near.rnd hr (f2.mul hk') (by omega) ?_ ?_
  · calc (1 : Rat) / 2 ^ 150 ≤ 1 / 2 ^ 32 * 1 := by norm_num
      _ ≤ (b * d / n : Rat) * k := by gcongr
  · calc (b * d / n * k : Rat) ≤ 2 ^ 64 * 2 ^ 48 := by gcongr
      _ ≤ 2 ^ 150 := by norm_num

/-- Frames are fetched alike if the thresholds cannot be told apart. -/
theorem fetched_congr {thr thr' : Nat → Nat} {T : Nat} (h : ∀ k t, k ≤ T → t ≤ T → (thr k ≤ t ↔ thr' k ≤ t)) :
    ∀ t, t ≤ T → fetched thr t = fetched thr' t ∧ fetched thr t ≤ t := by
  intro t
  induction t with
  | zero => intro _; exact ⟨rfl, Nat.le_refl _⟩
  | succ t ih =>
    intro ht
    obtain ⟨i1, i2⟩ := ih (by omega)
    rw [fetched_succ, fetched_succ, ← i1]
    have := h (fetched thr t) (t + 1) (by omega) ht
    by_cases hc : thr (fetched thr t) ≤ t + 1
    · rw [if_pos hc, if_pos (this.mp hc)]; exact ⟨rfl, by omega⟩
    · rw [if_neg hc, if_neg (fun h' => hc (this.mpr h'))]; exact ⟨rfl, by omega⟩

theorem threshold_le {x : Rat} (t : Nat) : x.ceil.toNat ≤ t ↔ x ≤ t := by
  rw [Int.toNat_le]
  rw [show x.ceil = ⌈x⌉ from ceil_eq x, Int.ceil_le]
  norm_cast

/-- C73: with the frame rate `n / d` that ffprobe reports and `b` samples per second, at every sample
the last frame fetched is one whose time has come and the next is one whose time has not, up to one
part in 2^49 (a nanosecond in a week); the first frame is there from the first sample on. -/
theorem C73_pace {rnd : Rat → Rat} (hr : Double rnd) {n d b : Nat} (hg : GoodRates n d b) {fr tpf : Rat}
    (h1 : frameRate rnd (decText n ++ txt "/" ++ decText d) = .ok fr) (h2 : ticksPerFrame rnd b fr = .ok tpf)
    (t : Nat) (ht1 : 1 ≤ t) (ht : t ≤ 2 ^ 48) :
    let k := fetched (tickThreshold rnd tpf) t
    1 ≤ k ∧ frameTime n d (k - 1) ≤ soundTime b t * (1 + 1 / 2 ^ 49) ∧ soundTime b t * (1 - 1 / 2 ^ 49) < frameTime n d k := by
  intro f
  have hn : (0 : Rat) < n := by exact_mod_cast hg.n1
  have hb : (0 : Rat) < b := by exact_mod_cast hg.b1
  have hq : (2 : Rat) ≤ b * d / n := by
    rw [le_div_iff₀ hn]; exact_mod_cast hg.two
  obtain ⟨q, hqd⟩ : ∃ q : Rat, q = b * d / n := ⟨_, rfl⟩
  have near : ∀ k : Nat, 1 ≤ k → k ≤ 2 ^ 48 → |rnd (tpf * rnd k) - q * k| ≤ q * k / 2 ^ 50 := by
    intro k h3 h4
    rw [hqd]; exact (threshold_near hr hg h1 h2 h3 h4).abs
  rw [← hqd] at hq
  obtain ⟨x, hx⟩ : ∃ x : Nat → Rat, x = fun k : Nat => rnd (tpf * rnd (k : Rat)) := ⟨_, rfl⟩
  have hxk : ∀ k : Nat, rnd (tpf * rnd k) = x k := fun k => by rw [hx]
  simp only [hxk] at near
  have hx0 : x 0 = 0 := by rw [hx]; simp [hr.zero]
  obtain ⟨y, hy⟩ : ∃ y : Nat → Rat, y = fun k : Nat => if q * (k : Rat) ≤ 2 ^ 49 then x k else q * k := ⟨_, rfl⟩
  have small : ∀ k : Nat, q * k ≤ 2 ^ 49 → k ≤ 2 ^ 48 := by
    intro k h
    have hk0 : (0 : Rat) ≤ k := by positivity
    have : (2 : Rat) * k ≤ q * k := by gcongr
    have h3 : (2 : Rat) * k ≤ 2 ^ 49 := le_trans this h
    have h4 : 2 * k ≤ 2 ^ 49 := by exact_mod_cast h3
    omega
  have hy0 : y 0 = 0 := by rw [hy]; simp [hx0]
  have hyq : ∀ k : Nat, 1 ≤ k → |y k - q * k| ≤ q * k / 2 ^ 50 := by
    intro k hk
    have hk0 : (0 : Rat) ≤ k := by positivity
    rw [hy]
    by_cases hc : q * k ≤ 2 ^ 49
    · simp only [if_pos hc]; exact near k hk (small k hc)
    · simp only [if_neg hc, sub_self, abs_zero]; positivity
  have hyh : ∀ k : Nat, |y k - q * k| ≤ 1 / 2 := by
    intro k
    rcases Nat.eq_zero_or_pos k with rfl | hk
    · simp [hy0]
    · by_cases hc : q * k ≤ 2 ^ 49
      · refine le_trans (hyq k hk) ?_
        rw [div_le_iff₀ (by positivity)]
        refine le_trans hc (by norm_num)
      · rw [hy]; simp only [if_neg hc, sub_self, abs_zero]; norm_num
  obtain ⟨hp, hdue⟩ := C29_float_thresholds q hq y hy0 hyh
  have hcong := fetched_congr (thr := tickThreshold rnd tpf) (thr' := fun k => ⌈y k⌉₊) (T := 2 ^ 48) (by
    intro k t hk ht
    unfold tickThreshold
    rw [threshold_le, Nat.ceil_le, hxk]
    by_cases hc : q * k ≤ 2 ^ 49
    · rw [hy]; simp only [if_pos hc]
    · have hyk : y k = q * k := by rw [hy]; simp only [if_neg hc]
      have hk1 : 1 ≤ k := by
        rcases Nat.eq_zero_or_pos k with rfl | hk
        · exact absurd (by norm_num) hc
        · exact hk
      have ht' : (t : Rat) ≤ 2 ^ 48 := by exact_mod_cast ht
      have h3 := (abs_le.mp (near k hk1 hk)).1
      rw [hyk]
      constructor
      · intro h; exfalso
        have : q * k * (1 - 1 / 2 ^ 50) ≤ 2 ^ 48 := by
          have : q * k * (1 - 1 / 2 ^ 50) = q * k - q * k / 2 ^ 50 := by ring
          linarith
        have h4 : (2 : Rat) ^ 49 * (1 - 1 / 2 ^ 50) ≤ q * k * (1 - 1 / 2 ^ 50) := by
          have := (not_le.mp hc).le
          gcongr
        have h5 := le_trans h4 this
        norm_num at h5
      · intro h; exact absurd (le_trans h (le_trans ht' (by norm_num))) hc)
  have hf : f = fetched (fun k => ⌈y k⌉₊) t := (hcong t ht).1
  obtain ⟨-, g2, g3⟩ := fetched_due hp t
  rw [← hf] at g2 g3
  have hf1 : 1 ≤ f := by
    by_contra hc
    have : f = 0 := by omega
    rw [this] at g3
    simp [due, hy0] at g3
    omega
  have key : ∀ k : Nat, frameTime n d k = q * k / b := by
    intro k
    rw [hqd]; unfold frameTime; field_simp
  have t0 : (0 : Rat) ≤ t := by positivity
  refine ⟨hf1, ?_, ?_⟩
  · rw [key]
    unfold soundTime
    rw [div_mul_eq_mul_div, div_le_div_iff_of_pos_right hb]
    rcases Nat.eq_zero_or_pos (f - 1) with h0 | h0
    · rw [h0]; simp only [Nat.cast_zero, mul_zero]; positivity
    · have hle := (hdue (f - 1) h0 t).mp (g2 (f - 1) (by omega))
      have h3 := (abs_le.mp (hyq (f - 1) h0)).1
      have h4 : q * ((f - 1 : Nat) : Rat) * (1 - 1 / 2 ^ 50) ≤ t := by
        have : q * ((f - 1 : Nat) : Rat) * (1 - 1 / 2 ^ 50) = q * ((f - 1 : Nat) : Rat) - q * ((f - 1 : Nat) : Rat) / 2 ^ 50 := by ring
        linarith
      have h5 : (t : Rat) ≤ t * (1 + 1 / 2 ^ 49) * (1 - 1 / 2 ^ 50) := by
        have : (1 : Rat) ≤ (1 + 1 / 2 ^ 49) * (1 - 1 / 2 ^ 50) := by norm_num
        nlinarith
      exact le_of_mul_le_mul_right (le_trans h4 h5) (by norm_num)
  · rw [key]
    unfold soundTime
    rw [div_mul_eq_mul_div, div_lt_div_iff_of_pos_right hb]
    have hlt : (t : Rat) < y f := by
      by_contra hc
      have := (hdue f hf1 t).mpr (not_lt.mp hc)
      omega
    have h3 := (abs_le.mp (hyq f hf1)).2
    have h4 : (t : Rat) < q * f * (1 + 1 / 2 ^ 50) := by
      have : q * f * (1 + 1 / 2 ^ 50) = q * f + q * f / 2 ^ 50 := by ring
      linarith
    have tp : (0 : Rat) < t := by exact_mod_cast ht1
    have h5 : (t : Rat) * (1 - 1 / 2 ^ 49) * (1 + 1 / 2 ^ 50) < t := by
      have : (1 - 1 / 2 ^ 49 : Rat) * (1 + 1 / 2 ^ 50) < 1 := by norm_num
      nlinarith
    exact lt_of_mul_lt_mul_right (lt_trans h5 h4) (by norm_num)

/-- C73: every operation of a movie's stream is computed for the frame whose time is the time of its
sample (with a stride: for the last multiple of the stride up to it): `k - 1` is the last frame whose
time has come and `k` the next. -/
theorem C73_sync {rnd : Rat → Rat} (hr : Double rnd) {n d b : Nat} (hg : GoodRates n d b) {fr tpf : Rat}
    (h1 : frameRate rnd (decText n ++ txt "/" ++ decText d) = .ok fr) (h2 : ticksPerFrame rnd b fr = .ok tpf)
    (M : Movie) (hM : M.thr = tickThreshold rnd tpf) (A : List Int) (F : List Frame) (hin : MovieInput M A F) (tape : Nat → Nat)
    (ops : List Opcode) (bytes : List Nat) (h : M.stream tape A F = .ok (ops, bytes)) (hA : A.length ≤ 2 ^ 48) :
    ∃ calls e steps, Legal M.mode calls ∧ runNew M.mode M.table tape calls = .ok (e, steps) ∧
      (ticksOf false ops).length = steps.length ∧
      ∀ (i : Nat) (x : Played) (s : Step), (ticksOf false ops)[i]? = some x → steps[i]? = some s →
        x.bank = s.isAux ∧ x.page = s.op.page ∧ x.content = s.op.content ∧ x.offsets = s.op.offsets ∧
        ∃ (k : Nat) (f : Frame), 1 ≤ k ∧ frameTime n d (k - 1) ≤ soundTime b (i + 1) * (1 + 1 / 2 ^ 49) ∧
          soundTime b (i + 1) * (1 - 1 / 2 ^ 49) < frameTime n d k ∧
          F[shown M.everyN k]? = some f ∧ M.bitmapOf f = .ok s.target := by
  obtain ⟨body, bytes', calls, e, steps, g1, g2, g3, g4, g5, -, -, g8⟩ := movie_facts M A F hin tape
  rw [g1] at h
  simp only [Except.ok.injEq, Prod.mk.injEq] at h
  obtain ⟨rfl, rfl⟩ := h
  have htk : ticksOf false (.header M.mode :: body ++ [.terminate]) = ticksOf false body := ticksOf_terminate body false
  rw [htk]
  refine ⟨calls, e, steps, g2, g3, g4, ?_⟩
  intro i x s hx hs
  obtain ⟨-, -, ⟨f, f1, f2⟩, -, b1, b2, b3, b4, -⟩ := g8 i x s hx hs
  have hi : i < steps.length := (List.getElem?_eq_some_iff.mp hs).1
  obtain ⟨p1, p2, p3⟩ := C73_pace hr hg h1 h2 (i + 1) (by omega) (by omega)
  rw [← hM] at p1 p2 p3
  exact ⟨b1, b2, b3, b4, _, f, p1, p2, p3, f1, f2⟩

/-- Every operation rounds up as far as it can. -/
def roundsUp (x : Rat) : Rat := x + x / 2 ^ 53

/-- C73: an NTSC film at the default bit rate, with the exact numbers and with a bad rounding. -/
example : Double roundsUp ∧ GoodRates 30000 1001 14700 ∧
    (∃ fr tpf, frameRate roundsUp (txt "30000/1001") = .ok fr ∧ ticksPerFrame roundsUp (14700 : Nat) fr = .ok tpf ∧
      (List.range 4).map (tickThreshold roundsUp tpf) = [0, 491, 981, 1472]) := by
  refine ⟨⟨by simp [roundsUp], fun x h1 _ => ⟨?_, le_refl _⟩⟩, by constructor <;> norm_num, ?_⟩
  · have : (0 : Rat) ≤ x / 2 ^ 53 := div_nonneg (le_trans (by positivity) h1) (by positivity)
    unfold roundsUp; linarith
  · refine ⟨roundsUp (roundsUp 30000 / roundsUp 1001), roundsUp (roundsUp 14700 / roundsUp (roundsUp 30000 / roundsUp 1001)), ?_, ?_, ?_⟩
    all_goals decide +kernel

end IIVision
