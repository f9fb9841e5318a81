import Verif.Spec.Dots

namespace IIVision
open Spec

/-- The two colour tables of the repository. -/
def IsTable (value : Colour → Nat) : Prop := value = hgrValue ∨ value = dhgrValue

theorem isTable_mode (m : VideoMode) : IsTable m.colourValue := by
  cases m
  · exact .inl rfl
  · exact .inr rfl

theorem value_lt {value : Colour → Nat} (ht : IsTable value) (c : Colour) : value c < 16 := by
  rcases ht with rfl | rfl <;> cases c <;> decide

theorem value_inj {value : Colour → Nat} (ht : IsTable value) {c d : Colour}
    (h : value c = value d) : c = d := by
  rcases ht with rfl | rfl <;> cases c <;> cases d <;> first | rfl | (exact absurd h (by decide))

theorem Colour.mem_all (c : Colour) : c ∈ Colour.all := by cases c <;> decide

theorem colourOf_value {value : Colour → Nat} (ht : IsTable value) (c : Colour) :
    colourOf value (value c) = .ok c := by
  unfold colourOf
  have : ∃ d, Colour.all.find? (fun c' => value c' == value c) = some d := by
    rw [← Option.isSome_iff_exists, List.find?_isSome]
    exact ⟨c, Colour.mem_all c, by simp⟩
  obtain ⟨d, hd⟩ := this
  rw [hd]
  have := List.find?_some hd
  rw [value_inj ht (beq_iff_eq.mp this)]

theorem value_surj {value : Colour → Nat} (ht : IsTable value) : ∀ v, v < 16 →
    ∃ c, value c = v := by
  have : ∀ v : Fin 16, ∃ c ∈ Colour.all, value c = v.val := by
    rcases ht with rfl | rfl <;> decide
  intro v hv
  obtain ⟨c, -, h⟩ := this ⟨v, hv⟩
  exact ⟨c, h⟩

theorem ror1_lt (x : Nat) (h : x < 16) : ror1 x < 16 := by
  have : ∀ x : Fin 16, ror1 x.val < 16 := by decide
  exact this ⟨x, h⟩
theorem rol1_lt (x : Nat) (h : x < 16) : rol1 x < 16 := by
  have : ∀ x : Fin 16, rol1 x.val < 16 := by decide
  exact this ⟨x, h⟩

theorem rol1_bit (x : Nat) (h : x < 16) (j : Nat) (hj : j < 4) :
    (rol1 x).testBit ((j + 1) % 4) = x.testBit j := by
  have : ∀ (x : Fin 16) (j : Fin 4), (rol1 x.val).testBit ((j.val + 1) % 4) = x.val.testBit j.val := by
    decide
  exact this ⟨x, h⟩ ⟨j, hj⟩

theorem rol_bit (n : Nat) : ∀ (x : Nat), x < 16 → ∀ j, j < 4 →
    rol x n < 16 ∧ (rol x n).testBit ((j + n) % 4) = x.testBit j := by
  induction n with
  | zero => intro x hx j hj; exact ⟨hx, by rw [Nat.add_zero, Nat.mod_eq_of_lt hj]; rfl⟩
  | succ n ih =>
    intro x hx j hj
    obtain ⟨h1, h2⟩ := ih (rol1 x) (rol1_lt x hx) ((j + 1) % 4) (by omega)
    refine ⟨h1, ?_⟩
    rw [rol1_bit x hx j hj] at h2
    rw [← h2]
    show (rol (rol1 x) n).testBit _ = _
    congr 1
    omega

theorem dotsLoop_spec {value : Colour → Nat} (ht : IsTable value) (dots ph0 : Nat) (n : Nat) :
    ∀ (i phase : Nat), phase % 4 = (ph0 + i) % 4 → ∃ l, dotsLoop value n (dots >>> i) phase = .ok l ∧
      l.length = n ∧ ∀ (j : Nat) (h : j < l.length),
        ShowsColour value dots.testBit ph0 (i + j) l[j] := by
  induction n with
  | zero => intro i phase _; exact ⟨[], rfl, rfl, fun j h => absurd h (by simp)⟩
  | succ n ih =>
    intro i phase hp
    have hx : (dots >>> i) &&& 0b1111 < 16 := by
      have := Nat.and_le_right (n := dots >>> i) (m := 0b1111); omega
    have hr := fun j hj => rol_bit phase ((dots >>> i) &&& 0b1111) hx j hj
    obtain ⟨c, hc⟩ := value_surj ht _ (hr 0 (by omega)).1
    obtain ⟨l, hl, hlen, hs⟩ := ih (i + 1) (if phase + 1 = 4 then 0 else phase + 1) (by split <;> omega)
    have hsh : (dots >>> i) >>> 1 = dots >>> (i + 1) := by rw [← Nat.shiftRight_add]
    refine ⟨c :: l, ?_, by simp [hlen], ?_⟩
    · unfold dotsLoop
      rw [← hc, colourOf_value ht, hsh, hl]
      rfl
    · intro j hj
      cases j with
      | zero =>
        intro q h1 h2
        show (value c).testBit _ = _
        have := (hr (q - i) (by omega)).2
        rw [← hc] at this
        rw [show (q + ph0) % 4 = (q - i + phase) % 4 by omega, this]
        have h4 : (0b1111 : Nat).testBit (q - i) = true := by
          have : q - i < 4 := by omega
          have hh : ∀ j : Fin 4, (0b1111 : Nat).testBit j.val = true := by decide
          exact hh ⟨_, this⟩
        rw [Nat.testBit_and, h4, Nat.testBit_shiftRight, Bool.and_true]
        congr 1
        omega
      | succ j =>
        have := hs j (by simpa using hj)
        rw [show i + (j + 1) = i + 1 + j by omega]
        exact this

theorem showsColour_unique {value : Colour → Nat} (ht : IsTable value) {dot dot' : Nat → Bool}
    {ph e : Nat} {c c' : Colour} (h : ShowsColour value dot ph e c)
    (h' : ShowsColour value dot' ph e c') (hd : ∀ q, e ≤ q → q < e + 4 → dot q = dot' q) :
    c = c' := by
  apply value_inj ht
  apply Nat.eq_of_testBit_eq
  intro m
  by_cases hm : m < 4
  · obtain ⟨q, h1, h2, h3⟩ : ∃ q, e ≤ q ∧ q < e + 4 ∧ (q + ph) % 4 = m :=
      ⟨e + (m + 4 - (e + ph) % 4) % 4, by omega, by omega, by omega⟩
    rw [← h3, h q h1 h2, h' q h1 h2, hd q h1 h2]
  · have l1 := value_lt ht c
    have l2 := value_lt ht c'
    have : 2 ^ 4 ≤ 2 ^ m := Nat.pow_le_pow_right (by omega) (by omega)
    rw [Nat.testBit_lt_two_pow (by omega), Nat.testBit_lt_two_pow (by omega)]

end IIVision
