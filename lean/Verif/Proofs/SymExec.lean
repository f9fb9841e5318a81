import Verif.Spec.Player
import Verif.Proofs.PlayerImage

/-! A symbolic executor for straight pieces of the player's code, to be evaluated by the kernel,
and its soundness. -/

namespace IIVision.Player

/-! ### Image -/

/-- Offsets within the code of a page of the bytes that are changed. -/
def patchOffset (k : Nat) : Bool :=
  bif Nat.blt k 852 then
    Nat.beq k 50 || Nat.beq k 51 || Nat.beq k 101 || Nat.beq k 102 || Nat.beq k 236 || Nat.beq k 237 ||
    Nat.beq k 500 || Nat.beq k 501
  else (Nat.beq ((k - 853) % 52) 0 || Nat.beq ((k - 853) % 52) 1) && Nat.ble 853 k

/-- Decides `Patched`. -/
def isPatch (q : Nat) : Bool :=
  bif Nat.blt q 0x803 then false
  else bif Nat.blt q 0x1ece then patchOffset ((q - 0x803) % 1167)
  else bif Nat.blt q 0x1ffe then patchOffset (q - 0x1ece)
  else bif Nat.blt q 0x407d then false
  else bif Nat.blt q 0x407f then true
  else bif Nat.blt q 0xb705 then patchOffset ((q - 0x407f) % 1167)
  else bif Nat.blt q 0xba64 then patchOffset (q - 0xb705 + 304)
  else Nat.beq q 0xba7c

/-- A byte of the code that is not changed; `h` tells whether the startup code is still there. -/
def codeByte (h : Bool) (q : Nat) : Option Nat :=
  bif Nat.blt q 0x1ffe then (bif Nat.blt q 0x800 || isPatch q then none else some (byteOf lowcodeImage (q - 0x800)))
  else bif Nat.blt q 0x4000 then
    (bif h && Nat.ble 0x2000 q && Nat.blt q 0x217a then some (byteOf hgrImage (q - 0x2000)) else none)
  else bif Nat.blt q 0xbacb && !isPatch q then some (byteOf codeImage (q - 0x4000))
  else none

theorem patches_in : ∀ t ∈ ownJump, ∀ p, p < 64 → 32 ≤ p →
    isPatch (sym (.jmp t p) + 1) = true ∧ isPatch (sym (.jmp t p) + 2) = true := by
  decide +kernel

theorem patchOffset_lt : ∀ k, k < 1168 → patchOffset k = true → ∃ t ∈ ownJump,
    (k = tickOffset ((t - 4) / 2 + 1) - 2 ∨ k = tickOffset ((t - 4) / 2 + 1) - 1) ∧
    (k < 304 → (t - 4) / 2 < 11) ∧ (304 ≤ k → 11 ≤ (t - 4) / 2) := by
  intro k hk h
  unfold patchOffset at h
  simp only [cond_eq_ite, Nat.blt_eq] at h
  split at h
  · simp only [Bool.or_eq_true, Nat.beq_eq] at h
    rcases h with ((((((h | h) | h) | h) | h) | h) | h) | h <;> subst h
    · exact ⟨4, by decide⟩
    · exact ⟨4, by decide⟩
    · exact ⟨6, by decide⟩
    · exact ⟨6, by decide⟩
    · exact ⟨18, by decide⟩
    · exact ⟨18, by decide⟩
    · exact ⟨36, by decide⟩
    · exact ⟨36, by decide⟩
  · simp only [Bool.and_eq_true, Bool.or_eq_true, Nat.beq_eq] at h
    have hle := Nat.le_of_ble_eq_true h.2
    have hj : (k - 853) / 52 < 7 := by omega
    have he : k = 853 + 52 * ((k - 853) / 52) + (k - 853) % 52 := by omega
    generalize (k - 853) / 52 = j at he hj
    generalize (k - 853) % 52 = r at he h
    subst he
    have hr : r = 0 ∨ r = 1 := h.1
    have : ∀ j, j < 7 → ∀ r, (r = 0 ∨ r = 1) → ∃ t ∈ ownJump,
      (853 + 52 * j + r = tickOffset ((t - 4) / 2 + 1) - 2 ∨ 853 + 52 * j + r = tickOffset ((t - 4) / 2 + 1) - 1) ∧
      (853 + 52 * j + r < 304 → (t - 4) / 2 < 11) ∧ (304 ≤ 853 + 52 * j + r → 11 ≤ (t - 4) / 2) := by
      intro j hj r hr
      refine ⟨54 + 2 * j, ?_⟩
      rcases hr with rfl | rfl
      · have : ∀ j, j < 7 → 54 + 2 * j ∈ ownJump ∧
          (853 + 52 * j + 0 = tickOffset ((54 + 2 * j - 4) / 2 + 1) - 2 ∨
            853 + 52 * j + 0 = tickOffset ((54 + 2 * j - 4) / 2 + 1) - 1) ∧
          (853 + 52 * j + 0 < 304 → (54 + 2 * j - 4) / 2 < 11) ∧
          (304 ≤ 853 + 52 * j + 0 → 11 ≤ (54 + 2 * j - 4) / 2) := by decide +kernel
        exact this j hj
      · have : ∀ j, j < 7 → 54 + 2 * j ∈ ownJump ∧
          (853 + 52 * j + 1 = tickOffset ((54 + 2 * j - 4) / 2 + 1) - 2 ∨
            853 + 52 * j + 1 = tickOffset ((54 + 2 * j - 4) / 2 + 1) - 1) ∧
          (853 + 52 * j + 1 < 304 → (54 + 2 * j - 4) / 2 < 11) ∧
          (304 ≤ 853 + 52 * j + 1 → 11 ≤ (54 + 2 * j - 4) / 2) := by decide +kernel
        exact this j hj
    exact this j hj r hr

theorem tick_end : ∀ t ∈ ownJump, 3 ≤ tickOffset ((t - 4) / 2 + 1) := by decide

theorem patched_page {p b k : Nat} (hp : 32 ≤ p) (hp' : p < 64) (hk : k < 1168) (h : patchOffset k = true)
    (hb : ∀ i, ((k < 304 → i < 11) ∧ (304 ≤ k → 11 ≤ i)) → pageBase p i = b) : Patched (b + k) := by
  obtain ⟨t, ht, hk', h1, h2⟩ := patchOffset_lt k hk h
  have h3 := tick_end t ht
  have hs : sym (.jmp t p) = b + tickOffset ((t - 4) / 2 + 1) - 3 := by
    show pageBase p ((t - 4) / 2) + tickOffset ((t - 4) / 2 + 1) - 3 = _
    rw [hb _ ⟨h1, h2⟩]
  refine .inl ⟨t, ht, p, hp, hp', ?_⟩
  rw [hs]
  omega

theorem isPatch_iff (q : Nat) : isPatch q = true ↔ Patched q := by
  constructor
  · intro h
    unfold isPatch at h
    simp only [cond_eq_ite, Nat.blt_eq] at h
    split at h
    · cases h
    split at h
    · have e : q = (0x803 + 1167 * ((q - 0x803) / 1167)) + (q - 0x803) % 1167 := by omega
      rw [e]
      apply patched_page (p := 32 + (q - 0x803) / 1167) (by omega) (by omega) (by omega) h
      intro i _
      unfold pageBase
      have : Nat.blt (32 + (q - 0x803) / 1167) 37 = true := by rw [Nat.blt_eq]; omega
      rw [this, Nat.add_sub_cancel_left, cond_true]
    split at h
    · have e : q = 0x1ece + (q - 0x1ece) := by omega
      rw [e]
      apply patched_page (p := 63) (by omega) (by omega) (by omega) h
      intro i hi
      have := hi.1 (by omega)
      unfold pageBase
      have : Nat.blt i 11 = true := by rw [Nat.blt_eq]; omega
      rw [this, show Nat.blt 63 37 = false from rfl, show Nat.blt 63 63 = false from rfl, cond_false, cond_false,
        cond_true]
    split at h
    · cases h
    split at h
    · right
      have : sym .nopD = 0x407c := rfl
      rw [this]
      omega
    split at h
    · have e : q = (0x407f + 1167 * ((q - 0x407f) / 1167)) + (q - 0x407f) % 1167 := by omega
      rw [e]
      apply patched_page (p := 37 + (q - 0x407f) / 1167) (by omega) (by omega) (by omega) h
      intro i _
      unfold pageBase
      have h1 : Nat.blt (37 + (q - 0x407f) / 1167) 37 = false := by
        rw [Bool.eq_false_iff, ne_eq, Nat.blt_eq]; omega
      have h2 : Nat.blt (37 + (q - 0x407f) / 1167) 63 = true := by rw [Nat.blt_eq]; omega
      rw [h1, h2, Nat.add_sub_cancel_left, cond_false, cond_true]
    split at h
    · have e : q = (0x1ece + 38663) + (q - 0xb705 + 304) := by omega
      rw [e]
      apply patched_page (p := 63) (by omega) (by omega) (by omega) h
      intro i hi
      have := hi.2 (by omega)
      unfold pageBase
      have : Nat.blt i 11 = false := by rw [Bool.eq_false_iff, ne_eq, Nat.blt_eq]; omega
      rw [this, show Nat.blt 63 37 = false from rfl, show Nat.blt 63 63 = false from rfl, cond_false, cond_false,
        cond_false]
    · have := Nat.eq_of_beq_eq_true h
      have e : sym .ackD = 0xba7b := rfl
      refine .inr (.inr (.inr ?_))
      rw [e, this]
  · rintro (⟨t, ht, p, h1, h2, h | h⟩ | h | h | h)
    · rw [h]; exact (patches_in t ht p h2 h1).1
    · rw [h]; exact (patches_in t ht p h2 h1).2
    all_goals rw [h]; decide +kernel

theorem isPatch_range {q : Nat} (h : isPatch q = true) :
    (0x803 ≤ q ∧ q < 0x1ffe) ∨ (0x4000 ≤ q ∧ q < 0xbacb) := by
  unfold isPatch at h
  simp only [cond_eq_ite, Nat.blt_eq] at h
  split at h
  · exact absurd h (by decide)
  split at h
  · omega
  split at h
  · omega
  split at h
  · exact absurd h (by decide)
  split at h
  · omega
  split at h
  · omega
  split at h
  · omega
  · have := Nat.eq_of_beq_eq_true h
    omega

/-- The byte at an address is the one of the code. -/
def CodeOk (h : Bool) (m : Nat → U8) : Prop := ∀ q b, codeByte h q = some b → m q = BitVec.ofNat 8 b

theorem segment_get {img base fin : Nat} {ls : List Src} (h : Good img base base ls)
    (hf : base + sizeOf ls = fin) {q : Nat} (h1 : base ≤ q) (h2 : q < fin) :
    (assemble base ls)[q - base]? = some (byteOf img (q - base)) := by
  have hl : q - base < (assemble base ls).length := by rw [h.1.1]; omega
  rw [List.getElem?_eq_getElem hl]
  have := h.1.2 (q - base) _ (List.getElem?_eq_getElem hl)
  rw [Nat.sub_self, Nat.zero_add] at this
  rw [this]

attribute [local irreducible] lowcodeImage hgrImage codeImage byteOf assemble

theorem codeByte_cases {h : Bool} {q b : Nat} (hc : codeByte h q = some b) :
    (0x800 ≤ q ∧ q < 0x1ffe ∧ isPatch q = false ∧ b = byteOf lowcodeImage (q - 0x800)) ∨
    (h = true ∧ 0x2000 ≤ q ∧ q < 0x217a ∧ b = byteOf hgrImage (q - 0x2000)) ∨
    (0x4000 ≤ q ∧ q < 0xbacb ∧ isPatch q = false ∧ b = byteOf codeImage (q - 0x4000)) := by
  unfold codeByte at hc
  simp only [cond_eq_ite, Nat.blt_eq, Bool.or_eq_true, Bool.and_eq_true, Bool.not_eq_true'] at hc
  split at hc
  · split at hc
    · exact absurd hc (by simp)
    · rename_i h1 h2
      have hc := Option.some.inj hc
      refine .inl ⟨by omega, h1, ?_, hc.symm⟩
      cases hp : isPatch q with
      | true => exact absurd (.inr hp) h2
      | false => rfl
  split at hc
  · split at hc
    · rename_i h1 h2 h3
      have hc := Option.some.inj hc
      exact .inr (.inl ⟨h3.1.1, Nat.le_of_ble_eq_true h3.1.2, h3.2, hc.symm⟩)
    · exact absurd hc (by simp)
  split at hc
  · rename_i h1 h2 h3
    have hc := Option.some.inj hc
    exact .inr (.inr ⟨by omega, h3.1, h3.2, hc.symm⟩)
  · exact absurd hc (by simp)

theorem mem_low : (0x800, assemble 0x800 lowcode.flatten) ∈ program := by
  unfold program; exact List.mem_cons_self
theorem mem_hgr : (0x2000, assemble 0x2000 hgrcode.flatten) ∈ program := by
  unfold program; exact List.mem_cons_of_mem _ List.mem_cons_self
theorem mem_code : (0x4000, assemble 0x4000 code.flatten) ∈ program := by
  unfold program; exact List.mem_cons_of_mem _ (List.mem_cons_of_mem _ List.mem_cons_self)

theorem codeOk_of_loaded {m : Nat → U8} (h : Loaded m) : CodeOk true m := by
  intro q b hc
  have low := segment_get lowcode_good.1 lowcode_good.2 (q := q)
  have hgr := segment_get hgrcode_good.1 hgrcode_good.2 (q := q)
  have cod := segment_get code_good.1 code_good.2 (q := q)
  rcases codeByte_cases hc with ⟨h1, h2, -, he⟩ | ⟨-, h1, h2, he⟩ | ⟨h1, h2, -, he⟩
  · have := h _ mem_low _ _ (low h1 h2)
    rw [show ((0x800, assemble 0x800 lowcode.flatten) : Nat × List Nat).1 = 0x800 from rfl,
      Nat.add_sub_cancel' h1] at this
    rw [this, he]
  · have := h _ mem_hgr _ _ (hgr h1 h2)
    rw [show ((0x2000, assemble 0x2000 hgrcode.flatten) : Nat × List Nat).1 = 0x2000 from rfl,
      Nat.add_sub_cancel' h1] at this
    rw [this, he]
  · have := h _ mem_code _ _ (cod h1 h2)
    rw [show ((0x4000, assemble 0x4000 code.flatten) : Nat × List Nat).1 = 0x4000 from rfl,
      Nat.add_sub_cancel' h1] at this
    rw [this, he]

theorem not_patched {q : Nat} (h1 : isPatch q = false) : ¬ Patched q := by
  intro h2
  rw [(isPatch_iff q).mpr h2] at h1
  exact absurd h1 (by decide)

theorem codeOk_of_intact {m : Nat → U8} (h : Intact m) : CodeOk false m := by
  intro q b hc
  have low := segment_get lowcode_good.1 lowcode_good.2 (q := q)
  have cod := segment_get code_good.1 code_good.2 (q := q)
  rcases codeByte_cases hc with ⟨h1, h2, h3, he⟩ | ⟨h0, -⟩ | ⟨h1, h2, h3, he⟩
  · have := h _ mem_low (by decide) _ _ (low h1 h2)
    rw [show ((0x800, assemble 0x800 lowcode.flatten) : Nat × List Nat).1 = 0x800 from rfl,
      Nat.add_sub_cancel' h1] at this
    rw [this (not_patched h3), he]
  · exact absurd h0 (by decide)
  · have := h _ mem_code (by decide) _ _ (cod h1 h2)
    rw [show ((0x4000, assemble 0x4000 code.flatten) : Nat × List Nat).1 = 0x4000 from rfl,
      Nat.add_sub_cancel' h1] at this
    rw [this (not_patched h3), he]

theorem codeByte_low {q : Nat} (h1 : 0x800 ≤ q) (h2 : q < 0x1ffe) (hp : isPatch q = false) :
    codeByte false q = some (byteOf lowcodeImage (q - 0x800)) := by
  unfold codeByte
  have e1 : Nat.blt q 0x1ffe = true := by rw [Nat.blt_eq]; exact h2
  have e2 : Nat.blt q 0x800 = false := by rw [Bool.eq_false_iff, ne_eq, Nat.blt_eq]; omega
  rw [e1, e2, hp]
  simp only [cond_true, Bool.or_false, cond_false]

theorem codeByte_code {q : Nat} (h1 : 0x4000 ≤ q) (h2 : q < 0xbacb) (hp : isPatch q = false) :
    codeByte false q = some (byteOf codeImage (q - 0x4000)) := by
  unfold codeByte
  have e1 : Nat.blt q 0x1ffe = false := by rw [Bool.eq_false_iff, ne_eq, Nat.blt_eq]; omega
  have e2 : Nat.blt q 0x4000 = false := by rw [Bool.eq_false_iff, ne_eq, Nat.blt_eq]; omega
  have e3 : Nat.blt q 0xbacb = true := by rw [Nat.blt_eq]; exact h2
  rw [e1, e2, e3, hp]
  simp only [cond_true, cond_false, Bool.not_false, Bool.and_true]

theorem intact_of_codeOk {m : Nat → U8} (h : CodeOk false m) : Intact m := by
  intro seg hs hne i b hb hp
  have hp' : isPatch (seg.1 + i) = false := by
    cases hc : isPatch (seg.1 + i) with
    | false => rfl
    | true => exact absurd ((isPatch_iff _).mp hc) hp
  have key : ∀ {img base fin : Nat} {ls : List Src}, Good img base base ls → base + sizeOf ls = fin →
      (assemble base ls)[i]? = some b → b = byteOf img i ∧ base + i < fin := by
    intro img base fin ls hg hf hi
    have := hg.1.2 i b hi
    rw [Nat.sub_self, Nat.zero_add] at this
    have hl := (List.getElem?_eq_some_iff.mp hi).1
    rw [hg.1.1] at hl
    exact ⟨this, by omega⟩
  simp only [program, List.mem_cons, List.not_mem_nil, or_false] at hs
  rcases hs with rfl | rfl | rfl
  · obtain ⟨e, hl⟩ := key lowcode_good.1 lowcode_good.2 hb
    apply h
    rw [codeByte_low (by omega) hl hp', Nat.add_sub_cancel_left, ← e]
  · exact absurd rfl hne
  · obtain ⟨e, hl⟩ := key code_good.1 code_good.2 hb
    apply h
    rw [codeByte_code (by omega) hl hp', Nat.add_sub_cancel_left, ← e]

end IIVision.Player
