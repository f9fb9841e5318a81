import Verif.Model.Tables
import Verif.Spec.EditDist

/-! `dam_lev` with insertions and deletions priced out of reach computes the cheapest
recolouring/swapping. -/

namespace IIVision
open Spec

theorem Rewrite.append {α : Type} {cost : α → α → Int} {s t s' t' : List α} {c c' : Int}
    (h : Rewrite cost s t c) (h' : Rewrite cost s' t' c') :
    Rewrite cost (s ++ s') (t ++ t') (c + c') := by
  induction h with
  | nil => simpa using h'
  | keep x _ ih => exact .keep x ih
  | recolour x y hxy _ ih => rw [Int.add_assoc]; exact .recolour x y hxy ih
  | swap x y _ ih => rw [Int.add_assoc]; exact .swap x y ih

theorem Rewrite.length_eq {α : Type} {cost : α → α → Int} {s t : List α} {c : Int}
    (h : Rewrite cost s t c) : s.length = t.length := by
  induction h with
  | nil => rfl
  | keep x _ ih => simp [ih]
  | recolour x y _ _ ih => simp [ih]
  | swap x y _ ih => simp [ih]

theorem Rewrite.nonneg {α : Type} {cost : α → α → Int} (hc : ∀ x y, 0 ≤ cost x y) {s t : List α}
    {c : Int} (h : Rewrite cost s t c) : 0 ≤ c := by
  induction h with
  | nil => exact Int.le_refl _
  | keep x _ ih => exact ih
  | recolour x y _ _ ih => have := hc x y; omega
  | swap x y _ ih => omega

/-- Recolouring every pixel. -/
theorem Rewrite.exists {α : Type} [DecidableEq α] {cost : α → α → Int} {B : Int}
    (h0 : 0 ≤ B) (hB : ∀ x y, cost x y ≤ B) : ∀ (s t : List α), s.length = t.length →
    ∃ c, Rewrite cost s t c ∧ c ≤ B * s.length
  | [], [], _ => ⟨0, .nil, by simp⟩
  | x :: s, y :: t, h => by
    obtain ⟨c, hc, hb⟩ := Rewrite.exists h0 hB s t (by simpa using h)
    have e : B * ((x :: s).length : Int) = B * s.length + B := by
      rw [List.length_cons, Int.natCast_add, Int.mul_add]; simp
    rw [e]
    by_cases hxy : x = y
    · subst hxy
      exact ⟨c, .keep x hc, by omega⟩
    · exact ⟨_, .recolour x y hxy hc, by have := hB x y; omega⟩

theorem Rewrite.map {α β : Type} (f : α → β) (hf : ∀ x y, f x = f y → x = y) {cost : β → β → Int}
    {s t : List α} {c : Int} :
    Rewrite cost (s.map f) (t.map f) c ↔ Rewrite (fun x y => cost (f x) (f y)) s t c := by
  constructor
  · intro h
    generalize hs : s.map f = s' at h
    generalize ht : t.map f = t' at h
    induction h generalizing s t with
    | nil =>
      rw [List.map_eq_nil_iff] at hs ht
      subst hs ht
      exact .nil
    | keep x _ ih =>
      obtain ⟨a, s1, rfl, ha, hs1⟩ := List.map_eq_cons_iff.mp hs
      obtain ⟨b, t1, rfl, hb, ht1⟩ := List.map_eq_cons_iff.mp ht
      obtain rfl := hf a b (ha.trans hb.symm)
      exact .keep _ (ih hs1 ht1)
    | recolour x y hxy _ ih =>
      obtain ⟨a, s1, rfl, rfl, hs1⟩ := List.map_eq_cons_iff.mp hs
      obtain ⟨b, t1, rfl, rfl, ht1⟩ := List.map_eq_cons_iff.mp ht
      exact .recolour a b (fun h => hxy (congrArg f h)) (ih hs1 ht1)
    | swap x y _ ih =>
      obtain ⟨a, s1, rfl, rfl, hs1⟩ := List.map_eq_cons_iff.mp hs
      obtain ⟨b, t1, rfl, rfl, ht1⟩ := List.map_eq_cons_iff.mp ht
      obtain ⟨b', s2, rfl, hb, hs2⟩ := List.map_eq_cons_iff.mp hs1
      obtain ⟨a', t2, rfl, ha, ht2⟩ := List.map_eq_cons_iff.mp ht1
      obtain rfl := hf _ _ ha
      obtain rfl := hf _ _ hb
      exact .swap _ _ (ih hs2 ht2)
  · intro h
    induction h with
    | nil => exact .nil
    | keep x _ ih => exact .keep _ ih
    | recolour x y hxy _ ih => exact .recolour _ _ (fun h => hxy (hf _ _ h)) ih
    | swap x y _ ih => exact .swap _ _ ih

theorem Rewrite.symm {α : Type} {cost : α → α → Int} (hc : ∀ x y, cost x y = cost y x)
    {s t : List α} {c : Int} (h : Rewrite cost s t c) : Rewrite cost t s c := by
  induction h with
  | nil => exact .nil
  | keep x _ ih => exact .keep x ih
  | recolour x y hxy _ ih => rw [hc]; exact .recolour y x (Ne.symm hxy) ih
  | swap x y _ ih => exact .swap y x ih

theorem Cheapest.symm {α : Type} {cost : α → α → Int} (hc : ∀ x y, cost x y = cost y x)
    {s t : List α} {d : Int} (h : Cheapest cost s t d) : Cheapest cost t s d :=
  ⟨Rewrite.symm hc h.1, fun c h' => h.2 c (Rewrite.symm hc h')⟩

theorem Cheapest.unique {α : Type} {cost : α → α → Int} {s t : List α} {d d' : Int}
    (h : Cheapest cost s t d) (h' : Cheapest cost s t d') : d = d' :=
  Int.le_antisymm (h.2 _ h'.1) (h'.2 _ h.1)

theorem Rewrite.refl {α : Type} {cost : α → α → Int} : ∀ s : List α, Rewrite cost s s 0
  | [] => .nil
  | x :: s => .keep x (Rewrite.refl s)

/-- A free rewriting recolours at price zero only. -/
theorem Rewrite.zero {α : Type} {cost : α → α → Int} (hc : ∀ x y, 0 ≤ cost x y)
    (hd : ∀ x, cost x x = 0) {s t : List α} {c : Int} (h : Rewrite cost s t c) (h0 : c = 0) :
    ∀ n (hn : n < s.length) (hn' : n < t.length), cost s[n] t[n] = 0 := by
  induction h with
  | nil => intro n hn; simp at hn
  | keep x h ih =>
    intro n hn hn'
    cases n with
    | zero => exact hd x
    | succ n => simpa using ih h0 n (by simpa using hn) (by simpa using hn')
  | recolour x y _ h ih =>
    have h1 := hc x y
    have h2 := Rewrite.nonneg hc h
    intro n hn hn'
    cases n with
    | zero => show cost x y = 0; omega
    | succ n => simpa using ih (by omega) n (by simpa using hn) (by simpa using hn')
  | swap x y h ih =>
    have h2 := Rewrite.nonneg hc h
    omega

theorem Rewrite.of_zero {α : Type} [DecidableEq α] {cost : α → α → Int} : ∀ (s t : List α),
    s.length = t.length → (∀ n (hn : n < s.length) (hn' : n < t.length), cost s[n] t[n] = 0) →
    Rewrite cost s t 0
  | [], [], _, _ => .nil
  | x :: s, y :: t, hl, h => by
    have := Rewrite.of_zero s t (by simpa using hl)
      (fun n hn hn' => h (n + 1) (by simpa using hn) (by simpa using hn'))
    by_cases hxy : x = y
    · subst hxy; exact .keep x this
    · have h0 : cost x y = 0 := h 0 (by simp) (by simp)
      have := Rewrite.recolour x y hxy this
      rwa [h0, Int.zero_add] at this

/-! ### the dynamic program -/

/-- The distance with the repository's costs. -/
def dl (sub : Nat → Nat → Int) (a b : List Char) (i j : Nat) : Int :=
  damLevAt (fun _ => 100000) (fun _ => 100000) sub (fun _ _ => 1) a b i j

/-- Price of replacing character `x` by `y`. -/
def charCost (sub : Nat → Nat → Int) (x y : Char) : Int := sub x.toNat y.toNat

theorem rangeCost_const (w : Int) (s : List Char) (lo hi : Nat) (h1 : lo ≤ hi)
    (h2 : hi ≤ s.length) : rangeCost (fun _ => w) s lo hi = w * ((hi - lo : Nat) : Int) := by
  unfold rangeCost
  have hlen : ((s.take hi).drop lo).length = hi - lo := by
    rw [List.length_drop, List.length_take]; omega
  rw [← hlen]
  generalize (s.take hi).drop lo = l
  have : ∀ (l : List Char) (z : Int), l.foldl (fun acc _ => acc + w) z = z + w * (l.length : Int) := by
    intro l
    induction l with
    | nil => intro z; simp
    | cons x l ih =>
      intro z
      rw [List.foldl_cons, ih, List.length_cons, Int.natCast_add, Int.mul_add]
      simp; omega
  rw [this, Int.zero_add]

theorem char_toNat_inj {x y : Char} (h : x.toNat = y.toNat) : x = y :=
  Char.ext (UInt32.toNat_inj.mp h)

theorem dl_zero_zero (sub) (a b : List Char) : dl sub a b 0 0 = 0 := by
  unfold dl; rw [damLevAt]
theorem dl_succ_zero (sub) (a b : List Char) (i : Nat) :
    dl sub a b (i + 1) 0 = dl sub a b i 0 + 100000 := by
  unfold dl; rw [damLevAt]
theorem dl_zero_succ (sub) (a b : List Char) (j : Nat) :
    dl sub a b 0 (j + 1) = dl sub a b 0 j + 100000 := by
  unfold dl; rw [damLevAt]

/-- The recurrence, with characters instead of their codes. -/
theorem dl_succ_succ (sub) (a b : List Char) (i j : Nat) (hi : i < a.length) (hj : j < b.length) :
    dl sub a b (i + 1) (j + 1) =
      (let best := min (dl sub a b i j + if a[i] = b[j] then 0 else charCost sub a[i] b[j])
        (min (dl sub a b (i + 1) j + 100000) (dl sub a b i (j + 1) + 100000))
       if lastPos a b[j] i = 0 ∨ lastPos b a[i] j = 0 then best
       else min best (dl sub a b (lastPos a b[j] i - 1) (lastPos b a[i] j - 1)
          + 100000 * ((i - lastPos a b[j] i : Nat) : Int) + 1
          + 100000 * ((j - lastPos b a[i] j : Nat) : Int))) := by
  unfold dl
  rw [damLevAt]
  have ea : a.getD i '\x00' = a[i] := by simp [hi]
  have eb : b.getD j '\x00' = b[j] := by simp [hj]
  simp only [ordAt, ea, eb]
  have hc : (if a[i].toNat = b[j].toNat then (0 : Int) else sub a[i].toNat b[j].toNat)
      = if a[i] = b[j] then 0 else charCost sub a[i] b[j] := by
    by_cases h : a[i] = b[j]
    · rw [if_pos (congrArg _ h), if_pos h]
    · rw [if_neg (fun h' => h (char_toNat_inj h')), if_neg h]; rfl
  rw [hc, rangeCost_const _ _ _ _ (lastPos_le _ _ _) (by omega),
    rangeCost_const _ _ _ _ (lastPos_le _ _ _) (by omega)]
  by_cases h : lastPos a b[j] i = 0 ∨ lastPos b a[i] j = 0
  · rw [dif_pos h, if_pos h]
  · rw [dif_neg h, if_neg h]

theorem dl_lower {sub} (h0 : ∀ x y, 0 ≤ sub x y) (a b : List Char) : ∀ (n i j : Nat), i + j ≤ n →
    i ≤ a.length → j ≤ b.length →
    0 ≤ dl sub a b i j ∧ 100000 * ((i : Int) - j) ≤ dl sub a b i j ∧
      100000 * ((j : Int) - i) ≤ dl sub a b i j := by
  intro n
  induction n with
  | zero =>
    intro i j h _ _
    obtain rfl : i = 0 := by omega
    obtain rfl : j = 0 := by omega
    rw [dl_zero_zero]; omega
  | succ n ih =>
    intro i j h hi hj
    cases i with
    | zero =>
      cases j with
      | zero => rw [dl_zero_zero]; omega
      | succ j => rw [dl_zero_succ]; have := ih 0 j (by omega) (by omega) (by omega); omega
    | succ i =>
      cases j with
      | zero => rw [dl_succ_zero]; have := ih i 0 (by omega) (by omega) (by omega); omega
      | succ j =>
        rw [dl_succ_succ sub a b i j (by omega) (by omega)]
        have h1 := ih i j (by omega) (by omega) (by omega)
        have h2 := ih (i + 1) j (by omega) (by omega) (by omega)
        have h3 := ih i (j + 1) (by omega) (by omega) (by omega)
        have hk := lastPos_le a (b[j]'(by omega)) i
        have hl := lastPos_le b (a[i]'(by omega)) j
        have h4 := ih (lastPos a (b[j]'(by omega)) i - 1) (lastPos b (a[i]'(by omega)) j - 1)
          (by omega) (by omega) (by omega)
        have hcost : 0 ≤ (if a[i]'(by omega) = b[j]'(by omega) then (0 : Int)
            else charCost sub (a[i]'(by omega)) (b[j]'(by omega))) := by
          split
          · exact Int.le_refl _
          · exact h0 _ _
        generalize (if a[i]'(by omega) = b[j]'(by omega) then (0 : Int)
            else charCost sub (a[i]'(by omega)) (b[j]'(by omega))) = cost at *
        generalize lastPos a (b[j]'(by omega)) i = k at *
        generalize lastPos b (a[i]'(by omega)) j = l at *
        generalize dl sub a b i j = d1 at *
        generalize dl sub a b (i + 1) j = d2 at *
        generalize dl sub a b i (j + 1) = d3 at *
        generalize dl sub a b (k - 1) (l - 1) = d4 at *
        dsimp only
        split <;> omega

theorem lastPos_spec (s : List Char) (c : Char) : ∀ n, n ≤ s.length → lastPos s c n ≠ 0 →
    s[lastPos s c n - 1]? = some c := by
  intro n
  induction n with
  | zero => intro _ h; exact absurd rfl h
  | succ n ih =>
    intro hn h
    unfold lastPos at h ⊢
    by_cases hc : s[n]? = some c
    · rw [if_pos hc]; exact hc
    · rw [if_neg hc] at h ⊢; exact ih (by omega) h

/-- On the diagonal a value below the price of an insertion is the price of a rewriting of
the prefixes. -/
theorem dl_sound {sub} (h0 : ∀ x y, 0 ≤ sub x y) (a b : List Char) : ∀ (n i : Nat), i ≤ n →
    i ≤ a.length → i ≤ b.length → dl sub a b i i < 100000 →
    Rewrite (charCost sub) (a.take i) (b.take i) (dl sub a b i i) := by
  intro n
  induction n with
  | zero =>
    intro i h _ _ _
    obtain rfl : i = 0 := by omega
    rw [dl_zero_zero]; exact .nil
  | succ n ih =>
    intro i h hi hj hlt
    cases i with
    | zero => rw [dl_zero_zero]; exact .nil
    | succ i =>
      have hia : i < a.length := by omega
      have hib : i < b.length := by omega
      have hk := lastPos_le a b[i] i
      have hl := lastPos_le b a[i] i
      have l1 := dl_lower h0 a b (i + i) i i (by omega) (by omega) (by omega)
      have l2 := dl_lower h0 a b (i + 1 + i) (i + 1) i (by omega) (by omega) (by omega)
      have l3 := dl_lower h0 a b (i + (i + 1)) i (i + 1) (by omega) (by omega) (by omega)
      have l4 := dl_lower h0 a b (i + i) (lastPos a b[i] i - 1) (lastPos b a[i] i - 1)
          (by omega) (by omega) (by omega)
      have hrec := dl_succ_succ sub a b i i hia hib
      have ta : a.take (i + 1) = a.take i ++ [a[i]] := (List.take_append_getElem hia).symm
      have tb : b.take (i + 1) = b.take i ++ [b[i]] := (List.take_append_getElem hib).symm
      have hcost : 0 ≤ (if a[i] = b[i] then (0 : Int) else charCost sub a[i] b[i]) := by
        split
        · exact Int.le_refl _
        · exact h0 _ _
      -- either the diagonal step or an adjacent transposition realises the minimum
      have hcases : dl sub a b (i + 1) (i + 1) = dl sub a b i i
            + (if a[i] = b[i] then 0 else charCost sub a[i] b[i]) ∨
          (lastPos a b[i] i = i ∧ lastPos b a[i] i = i ∧ i ≠ 0 ∧
            dl sub a b (i + 1) (i + 1) = dl sub a b (i - 1) (i - 1) + 1) := by
        generalize hcc : (if a[i] = b[i] then (0 : Int) else charCost sub a[i] b[i]) = cost at *
        generalize hkk : lastPos a b[i] i = k at *
        generalize hll : lastPos b a[i] i = l at *
        dsimp only at hrec
        by_cases hz : k = 0 ∨ l = 0
        · rw [if_pos hz] at hrec
          left; omega
        · rw [if_neg hz] at hrec
          by_cases hki : k = i ∧ l = i
          · rw [hki.1, hki.2] at hrec
            by_cases hm : dl sub a b i i + cost ≤ dl sub a b (i - 1) (i - 1) + 1
            · left; omega
            · right; refine ⟨hki.1, hki.2, by omega, ?_⟩; omega
          · left; omega
      rcases hcases with he | ⟨ek, el, hi0, he⟩
      · have hr := ih i (by omega) (by omega) (by omega) (by omega)
        rw [he, ta, tb]
        refine Rewrite.append hr ?_
        by_cases hab : a[i] = b[i]
        · rw [if_pos hab, hab]; exact .keep _ .nil
        · rw [if_neg hab]
          have := Rewrite.recolour (cost := charCost sub) a[i] b[i] hab .nil
          rwa [Int.add_zero] at this
      · have hr := ih (i - 1) (by omega) (by omega) (by omega) (by omega)
        have sa := lastPos_spec a b[i] i (by omega) (by omega)
        have sb := lastPos_spec b a[i] i (by omega) (by omega)
        rw [ek] at sa
        rw [el] at sb
        obtain ⟨m, rfl⟩ : ∃ m, i = m + 1 := ⟨i - 1, by omega⟩
        simp only [Nat.add_sub_cancel] at sa sb hr he
        have sa' : a[m] = b[m + 1] := by
          rw [List.getElem?_eq_getElem (by omega)] at sa; exact Option.some.inj sa
        have sb' : b[m] = a[m + 1] := by
          rw [List.getElem?_eq_getElem (by omega)] at sb; exact Option.some.inj sb
        have ta' : a.take (m + 1) = a.take m ++ [a[m]] := (List.take_append_getElem (by omega)).symm
        have tb' : b.take (m + 1) = b.take m ++ [b[m]] := (List.take_append_getElem (by omega)).symm
        rw [he, ta, tb, ta', tb', List.append_assoc, List.append_assoc]
        refine Rewrite.append hr ?_
        rw [sa', sb']
        have := Rewrite.swap (cost := charCost sub) b[m + 1] a[m + 1] .nil
        rwa [Int.add_zero] at this

theorem dl_diag_le (sub) (a b : List Char) (i : Nat) (hi : i < a.length) (hj : i < b.length) :
    dl sub a b (i + 1) (i + 1) ≤ dl sub a b i i + if a[i] = b[i] then 0 else charCost sub a[i] b[i] := by
  rw [dl_succ_succ sub a b i i hi hj]
  dsimp only
  split <;> omega

theorem dl_swap_le (sub) (a b : List Char) (i : Nat) (hi : i + 1 < a.length) (hj : i + 1 < b.length)
    (h1 : a[i] = b[i + 1]) (h2 : b[i] = a[i + 1]) :
    dl sub a b (i + 2) (i + 2) ≤ dl sub a b i i + 1 := by
  rw [dl_succ_succ sub a b (i + 1) (i + 1) hi hj]
  have ek : lastPos a b[i + 1] (i + 1) = i + 1 := by
    unfold lastPos
    rw [if_pos]
    rw [List.getElem?_eq_getElem (by omega), h1]
  have el : lastPos b a[i + 1] (i + 1) = i + 1 := by
    unfold lastPos
    rw [if_pos]
    rw [List.getElem?_eq_getElem (by omega), h2]
  rw [ek, el]
  dsimp only
  rw [if_neg (by omega)]
  simp only [Nat.add_sub_cancel, Nat.sub_self]
  omega

theorem take_cons_split {l s : List Char} {x : Char} {i n : Nat} (hi : i < l.length)
    (h : (l.drop i).take (n + 1) = x :: s) : l[i] = x ∧ (l.drop (i + 1)).take n = s := by
  rw [List.drop_eq_getElem_cons hi, List.take_succ_cons] at h
  exact ⟨(List.cons.inj h).1, (List.cons.inj h).2⟩

theorem dl_complete {sub} (a b : List Char) {s t : List Char} {c : Int}
    (h : Rewrite (charCost sub) s t c) : ∀ i, i + s.length ≤ a.length → i + t.length ≤ b.length →
    (a.drop i).take s.length = s → (b.drop i).take t.length = t →
    dl sub a b (i + s.length) (i + s.length) ≤ dl sub a b i i + c := by
  induction h with
  | nil => intro i _ _ _ _; simp
  | @keep s t c x h ih =>
    intro i ha hb hsa hsb
    simp only [List.length_cons] at ha hb hsa hsb ⊢
    obtain ⟨ga, hsa⟩ := take_cons_split (by omega) hsa
    obtain ⟨gb, hsb⟩ := take_cons_split (by omega) hsb
    have h1 := dl_diag_le sub a b i (by omega) (by omega)
    rw [if_pos (ga.trans gb.symm)] at h1
    have h2 := ih (i + 1) (by omega) (by omega) hsa hsb
    rw [show i + 1 + s.length = i + (s.length + 1) by omega] at h2
    omega
  | @recolour s t c x y hxy h ih =>
    intro i ha hb hsa hsb
    simp only [List.length_cons] at ha hb hsa hsb ⊢
    obtain ⟨ga, hsa⟩ := take_cons_split (by omega) hsa
    obtain ⟨gb, hsb⟩ := take_cons_split (by omega) hsb
    have h1 := dl_diag_le sub a b i (by omega) (by omega)
    rw [ga, gb, if_neg hxy] at h1
    have h2 := ih (i + 1) (by omega) (by omega) hsa hsb
    rw [show i + 1 + s.length = i + (s.length + 1) by omega] at h2
    omega
  | @swap s t c x y h ih =>
    intro i ha hb hsa hsb
    simp only [List.length_cons] at ha hb hsa hsb ⊢
    obtain ⟨ga, hsa⟩ := take_cons_split (by omega) hsa
    obtain ⟨gb, hsb⟩ := take_cons_split (by omega) hsb
    obtain ⟨ga', hsa⟩ := take_cons_split (by omega) hsa
    obtain ⟨gb', hsb⟩ := take_cons_split (by omega) hsb
    have h1 := dl_swap_le sub a b i (by omega) (by omega) (ga.trans gb'.symm) (gb.trans ga'.symm)
    have h2 := ih (i + 2) (by omega) (by omega) hsa hsb
    rw [show i + 2 + s.length = i + (s.length + 1 + 1) by omega] at h2
    omega

/-- `dam_lev` with the repository's costs is the cheapest rewriting. -/
theorem damLev_cheapest {sub} (h0 : ∀ x y, 0 ≤ sub x y) {B : Int} (hB : ∀ x y, sub x y ≤ B)
    (a b : List Char) (hl : a.length = b.length) (hsmall : B * a.length < 100000) :
    Cheapest (charCost sub) a b (damLev (fun _ => 100000) (fun _ => 100000) sub a b) ∧
    0 ≤ damLev (fun _ => 100000) (fun _ => 100000) sub a b ∧
    damLev (fun _ => 100000) (fun _ => 100000) sub a b ≤ B * a.length := by
  have e : damLev (fun _ => 100000) (fun _ => 100000) sub a b = dl sub a b a.length a.length := by
    unfold damLev dl; rw [← hl]
  rw [e]
  have hle : ∀ c, Rewrite (charCost sub) a b c → dl sub a b a.length a.length ≤ c := by
    intro c hc
    have := dl_complete (sub := sub) a b hc 0 (by omega) (by omega) (by simp) (by simp)
    rw [dl_zero_zero, Nat.zero_add] at this
    omega
  obtain ⟨c, hc, hcB⟩ := Rewrite.exists (cost := charCost sub) (Int.le_trans (h0 0 0) (hB 0 0))
    (fun x y => hB _ _) a b hl
  have hub := hle c hc
  have hs := dl_sound h0 a b a.length a.length (by omega) (by omega) (by omega) (by omega)
  rw [List.take_of_length_le (by omega), List.take_of_length_le (by omega)] at hs
  exact ⟨⟨hs, hle⟩, (dl_lower h0 a b (a.length + a.length) _ _ (by omega) (by omega) (by omega)).1,
    by omega⟩

end IIVision
