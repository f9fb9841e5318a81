import Verif.Proofs.Video
import Mathlib.Algebra.BigOperators.Group.Finset.Basic
import Mathlib.Algebra.Order.BigOperators.Group.Finset
import Mathlib.Algebra.BigOperators.Ring.Finset
import Mathlib.Data.Fintype.Card
import Mathlib.Data.Fintype.Prod
import Mathlib.Tactic.Linarith
import Mathlib.Tactic.Ring

/-! Why the accumulated priorities never overflow, for histories of any length: every frame
start adds at most 65535 to a cell and is followed by emptying a largest cell, so the sum
over any `k` cells stays below `k * (2 * 8192 - k) * 65535`. -/

namespace IIVision

abbrev CellIx := Fin 32 × Fin 256

theorem card_le (K : Finset CellIx) : K.card ≤ 8192 := by
  have := Finset.card_le_univ K
  rwa [Fintype.card_prod, Fintype.card_fin, Fintype.card_fin] at this

def gsum (g : Grid Int) (K : Finset CellIx) : Int := K.sum fun c => g c.1 c.2

/-- The invariant. -/
structure Bounded (g : Grid Int) : Prop where
  nonneg : ∀ p o, 0 ≤ g p o
  sum : ∀ K : Finset CellIx, gsum g K ≤ K.card * (16384 - K.card) * 65535

theorem Bounded.le {g : Grid Int} (h : Bounded g) (p : Fin 32) (o : Fin 256) :
    g p o ≤ 16383 * 65535 := by
  have := h.sum {(p, o)}
  unfold gsum at this
  rw [Finset.sum_singleton, Finset.card_singleton] at this
  simpa using this

theorem Bounded.zero {g : Grid Int} (h : ∀ p o, g p o = 0) : Bounded g := by
  refine ⟨fun p o => by rw [h], fun K => ?_⟩
  have : gsum g K = 0 := Finset.sum_eq_zero fun c _ => h _ _
  rw [this]
  have := card_le K
  have h1 : (0 : Int) ≤ K.card := by omega
  have h2 : (0 : Int) ≤ 16384 - K.card := by omega
  positivity

theorem gsum_congr {g g' : Grid Int} {K : Finset CellIx} (h : ∀ c ∈ K, g c.1 c.2 = g' c.1 c.2) :
    gsum g K = gsum g' K := Finset.sum_congr rfl h

theorem gsum_mem {g : Grid Int} {K : Finset CellIx} {c : CellIx} (h : c ∈ K) :
    gsum g K = g c.1 c.2 + gsum g (K.erase c) := (Finset.add_sum_erase K _ h).symm

theorem gsum_insert {g : Grid Int} {K : Finset CellIx} {c : CellIx} (h : c ∉ K) :
    gsum g (insert c K) = g c.1 c.2 + gsum g K := Finset.sum_insert h

theorem set_same {α : Type} (g : Grid α) (c : CellIx) (x : α) :
    Grid.set g c.1 c.2 x c.1 c.2 = x := by simp [Grid.set]

theorem set_other {α : Type} (g : Grid α) (c c' : CellIx) (x : α) (h : c' ≠ c) :
    Grid.set g c.1 c.2 x c'.1 c'.2 = g c'.1 c'.2 := by
  unfold Grid.set
  rw [if_neg]
  rintro ⟨h1, h2⟩
  exact h (Prod.ext h1 h2)

/-- Removing one cell from the bound leaves room for 65535. -/
theorem room (k : Int) (hk : k ≤ 8192) :
    (k - 1) * (16384 - (k - 1)) * 65535 + 65535 ≤ k * (16384 - k) * 65535 := by nlinarith

/-- Giving a cell any value up to 65535 keeps the invariant. -/
theorem Bounded.set {g : Grid Int} (h : Bounded g) (c : CellIx) {x : Int} (h0 : 0 ≤ x)
    (h1 : x ≤ 65535) : Bounded (Grid.set g c.1 c.2 x) := by
  constructor
  · intro p o
    unfold Grid.set
    split
    · exact h0
    · exact h.nonneg p o
  · intro K
    by_cases hc : c ∈ K
    · rw [gsum_mem hc, set_same]
      have e : gsum (Grid.set g c.1 c.2 x) (K.erase c) = gsum g (K.erase c) :=
        gsum_congr fun c' h' => set_other _ _ _ _ (Finset.ne_of_mem_erase h')
      rw [e]
      have h2 := h.sum (K.erase c)
      have h3 : ((K.erase c).card : Int) = K.card - 1 := by
        rw [Finset.card_erase_of_mem hc]
        have := Finset.card_pos.mpr ⟨c, hc⟩
        omega
      rw [h3] at h2
      have := room K.card (by have := card_le K; omega)
      linarith
    · rw [gsum_congr fun c' h' => set_other g c c' x (by rintro rfl; exact hc h')]
      exact h.sum K

/-- A frame start followed by emptying a largest cell keeps the invariant. -/
theorem Bounded.start {g g' : Grid Int} (h : Bounded g) (h0 : ∀ p o, 0 ≤ g' p o)
    (h1 : ∀ p o, g' p o ≤ g p o + 65535) (c : CellIx) (hmax : ∀ p o, g' p o ≤ g' c.1 c.2) :
    Bounded (Grid.set g' c.1 c.2 0) := by
  have hsum : ∀ K, gsum g' K ≤ K.card * (16384 - K.card + 1) * 65535 := by
    intro K
    have h2 : gsum g' K ≤ K.sum fun c => g c.1 c.2 + 65535 :=
      Finset.sum_le_sum fun c _ => h1 c.1 c.2
    rw [Finset.sum_add_distrib, Finset.sum_const] at h2
    have h3 := h.sum K
    unfold gsum at h3
    rw [nsmul_eq_mul] at h2
    linarith
  have hout : ∀ K, c ∉ K → gsum g' K ≤ K.card * (16384 - K.card) * 65535 := by
    intro K hc
    have h2 := hsum (insert c K)
    rw [gsum_insert hc, Finset.card_insert_of_notMem hc] at h2
    have h3 : gsum g' K ≤ K.card * g' c.1 c.2 := by
      have := Finset.sum_le_card_nsmul K (fun c => g' c.1 c.2) (g' c.1 c.2) (fun c' _ => hmax c'.1 c'.2)
      rwa [nsmul_eq_mul] at this
    push_cast at h2
    generalize hk : (K.card : Int) = k at *
    have hk0 : 0 ≤ k := by omega
    have h4 : (k + 1) * gsum g' K ≤ k * (g' c.1 c.2 + gsum g' K) := by linarith
    have h5 : k * (g' c.1 c.2 + gsum g' K) ≤ k * ((k + 1) * (16384 - (k + 1) + 1) * 65535) :=
      Int.mul_le_mul_of_nonneg_left h2 hk0
    have h6 : (k + 1) * gsum g' K ≤ (k + 1) * (k * (16384 - k) * 65535) := by
      have : k * ((k + 1) * (16384 - (k + 1) + 1) * 65535) = (k + 1) * (k * (16384 - k) * 65535) := by ring
      linarith
    exact Int.le_of_mul_le_mul_left h6 (by omega)
  constructor
  · intro p o
    unfold Grid.set
    split
    · omega
    · exact h0 p o
  · intro K
    by_cases hc : c ∈ K
    · rw [gsum_mem hc, set_same]
      have e : gsum (Grid.set g' c.1 c.2 0) (K.erase c) = gsum g' (K.erase c) :=
        gsum_congr fun c' h' => set_other _ _ _ _ (Finset.ne_of_mem_erase h')
      rw [e]
      have h2 := hout (K.erase c) (Finset.notMem_erase c K)
      have h3 : ((K.erase c).card : Int) = K.card - 1 := by
        rw [Finset.card_erase_of_mem hc]
        have := Finset.card_pos.mpr ⟨c, hc⟩
        omega
      rw [h3] at h2
      have := room K.card (by have := card_le K; omega)
      linarith
    · rw [gsum_congr fun c' h' => set_other g' c c' 0 (by rintro rfl; exact hc h')]
      exact hout K hc

/-- Several stores of errors up to 65535. -/
theorem Bounded.storeAll {page : Fin 32} {f : Fin 256 → Int} (hf : ∀ o, 0 ≤ f o ∧ f o ≤ 65535)
    (os : List (Fin 256)) : ∀ {g : Grid Int}, Bounded g → Bounded (storeAll g page os f) := by
  induction os with
  | nil => intro g h; rw [storeAll_nil]; exact h
  | cons o os ih =>
    intro g h
    rw [← storeAll_cons]
    exact ih (h.set (page, o) (hf o).1 (hf o).2)

end IIVision
