import Verif.Model.Video

/-! Facts about the priority-queue contract, random draws and cell lists. -/

namespace IIVision

set_option linter.unusedSectionVars false
section
variable {α : Type} [DecidableEq α] {lt : α → α → Bool}

theorem leastOf_mem (x : α) (l : List α) : leastOf lt x l ∈ x :: l := by
  induction l generalizing x with
  | nil => simp [leastOf]
  | cons y l ih =>
    unfold leastOf
    by_cases h : lt y x = true
    · rw [if_pos h]
      exact List.mem_cons_of_mem _ (ih y)
    · rw [if_neg h]
      rcases List.mem_cons.mp (ih x) with h | h
      · rw [h]; exact List.mem_cons_self ..
      · exact List.mem_cons_of_mem _ (List.mem_cons_of_mem _ h)

/-- If `key` refines the order, the least element has a least key. -/
theorem leastOf_key (key : α → Int) (h1 : ∀ a b, lt a b = true → key a ≤ key b)
    (h2 : ∀ a b, lt a b = false → key b ≤ key a) (x : α) (l : List α) :
    ∀ y ∈ x :: l, key (leastOf lt x l) ≤ key y := by
  induction l generalizing x with
  | nil => intro y hy; simp at hy; subst hy; simp [leastOf]
  | cons z l ih =>
    intro y hy
    unfold leastOf
    have hm := ih (if lt z x then z else x)
    have h0 := hm _ (List.mem_cons_self ..)
    rcases Bool.eq_false_or_eq_true (lt z x) with hz | hz
    · have := h1 z x hz
      rw [hz] at hm h0 ⊢
      simp only [if_true] at hm h0 ⊢
      simp only [List.mem_cons] at hy
      rcases hy with rfl | rfl | hy
      · omega
      · exact h0
      · exact hm y (by simp [hy])
    · have := h2 z x hz
      rw [hz] at hm h0 ⊢
      simp only [Bool.false_eq_true, if_false] at hm h0 ⊢
      simp only [List.mem_cons] at hy
      rcases hy with rfl | rfl | hy
      · exact h0
      · omega
      · exact hm y (by simp [hy])

theorem heapPop_nil : heapPop lt ([] : List α) = none := rfl

theorem heapPop_some {h : List α} (hne : h ≠ []) : ∃ x, heapPop lt h = some (x, h.erase x) ∧ x ∈ h := by
  cases h with
  | nil => exact absurd rfl hne
  | cons y l => exact ⟨_, rfl, leastOf_mem y l⟩

theorem heapPop_spec {h h' : List α} {x : α} (hp : heapPop lt h = some (x, h')) :
    x ∈ h ∧ h' = h.erase x := by
  cases h with
  | nil => cases hp
  | cons y l =>
    simp only [heapPop, Option.some.injEq, Prod.mk.injEq] at hp
    obtain ⟨rfl, rfl⟩ := hp
    exact ⟨leastOf_mem y l, rfl⟩

theorem heapPop_key (key : α → Int) (h1 : ∀ a b, lt a b = true → key a ≤ key b)
    (h2 : ∀ a b, lt a b = false → key b ≤ key a) {h h' : List α} {x : α}
    (hp : heapPop lt h = some (x, h')) : ∀ y ∈ h, key x ≤ key y := by
  cases h with
  | nil => cases hp
  | cons y l =>
    simp only [heapPop, Option.some.injEq, Prod.mk.injEq] at hp
    obtain ⟨rfl, rfl⟩ := hp
    exact leastOf_key key h1 h2 y l

theorem heapDrain_perm (n : Nat) : ∀ h : List α, h.length ≤ n → (heapDrain lt n h).Perm h := by
  induction n with
  | zero =>
    intro h hn
    have : h = [] := List.length_eq_zero_iff.mp (by omega)
    subst this
    exact List.Perm.refl _
  | succ n ih =>
    intro h hn
    cases h with
    | nil => exact List.Perm.refl _
    | cons y l =>
      obtain ⟨x, hx, hm⟩ := heapPop_some (lt := lt) (h := y :: l) (by simp)
      unfold heapDrain
      rw [hx]
      have hl : ((y :: l).erase x).length ≤ n := by
        rw [List.length_erase_of_mem hm]; simp at hn ⊢; omega
      exact ((ih _ hl).cons x).trans (List.perm_cons_erase hm).symm

theorem heapDrain_sorted (key : α → Int) (h1 : ∀ a b, lt a b = true → key a ≤ key b)
    (h2 : ∀ a b, lt a b = false → key b ≤ key a) (n : Nat) : ∀ h : List α, h.length ≤ n →
    (heapDrain lt n h).Pairwise fun a b => key a ≤ key b := by
  induction n with
  | zero => intro h _; exact List.Pairwise.nil
  | succ n ih =>
    intro h hn
    unfold heapDrain
    cases hp : heapPop lt h with
    | none => exact List.Pairwise.nil
    | some q =>
      obtain ⟨x, h'⟩ := q
      obtain ⟨hm, rfl⟩ := heapPop_spec hp
      have hl : (h.erase x).length ≤ n := by
        rw [List.length_erase_of_mem hm]; have := List.length_pos_of_mem hm; omega
      refine List.Pairwise.cons ?_ (ih _ hl)
      intro y hy
      exact heapPop_key key h1 h2 hp y (List.mem_of_mem_erase ((heapDrain_perm n _ hl).mem_iff.mp hy))
end

theorem Entry.lt_key (a b : Entry) : (a.lt b = true → a.key ≤ b.key) ∧
    (a.lt b = false → b.key ≤ a.key) := by
  unfold Entry.lt
  constructor
  · intro h
    simp only [Bool.or_eq_true, Bool.and_eq_true, decide_eq_true_eq, beq_iff_eq] at h
    rcases h with h | ⟨h, -⟩ <;> omega
  · intro h
    simp only [Bool.or_eq_false_iff, decide_eq_false_iff_not] at h
    omega

theorem Cand.lt_key (a b : Cand) : (a.lt b = true → a.delta ≤ b.delta) ∧
    (a.lt b = false → b.delta ≤ a.delta) := by
  unfold Cand.lt
  constructor
  · intro h
    simp only [Bool.or_eq_true, Bool.and_eq_true, decide_eq_true_eq, beq_iff_eq] at h
    rcases h with h | ⟨h, -⟩ <;> omega
  · intro h
    simp only [Bool.or_eq_false_iff, decide_eq_false_iff_not] at h
    omega

/-- What matters of a list of draws: element by element, with some nonce. -/
theorem mapDraw_spec {α β : Type} (f : α → Nat → β) (l : List α) : ∀ r : Rng,
    ∃ ns : List Nat, ns.length = l.length ∧ (Rng.mapDraw f l r).1 = List.zipWith f l ns := by
  induction l with
  | nil => intro r; exact ⟨[], rfl, rfl⟩
  | cons x l ih =>
    intro r
    obtain ⟨ns, h1, h2⟩ := ih r.draw.2
    refine ⟨r.draw.1 :: ns, by simp [h1], ?_⟩
    simp only [Rng.mapDraw, List.zipWith_cons_cons]
    rw [h2]

theorem mapDraw_mem {α β : Type} {f : α → Nat → β} {l : List α} {r : Rng} {y : β}
    (h : y ∈ (Rng.mapDraw f l r).1) : ∃ x ∈ l, ∃ n, y = f x n := by
  induction l generalizing r with
  | nil => simp [Rng.mapDraw] at h
  | cons x l ih =>
    simp only [Rng.mapDraw, List.mem_cons] at h
    rcases h with rfl | h
    · exact ⟨x, by simp, _, rfl⟩
    · obtain ⟨x', h1, n, h2⟩ := ih h
      exact ⟨x', by simp [h1], n, h2⟩

theorem mapDraw_mem' {α β : Type} (f : α → Nat → β) {l : List α} (r : Rng) {x : α}
    (h : x ∈ l) : ∃ n, f x n ∈ (Rng.mapDraw f l r).1 := by
  induction l generalizing r with
  | nil => simp at h
  | cons y l ih =>
    simp only [List.mem_cons] at h
    simp only [Rng.mapDraw, List.mem_cons]
    rcases h with rfl | h
    · exact ⟨_, .inl rfl⟩
    · obtain ⟨n, hn⟩ := ih r.draw.2 h
      exact ⟨n, .inr hn⟩

theorem mapDraw_map {α β γ : Type} (f : α → Nat → β) (g : β → γ) (g' : α → γ)
    (h : ∀ a n, g (f a n) = g' a) (l : List α) (r : Rng) :
    ((Rng.mapDraw f l r).1).map g = l.map g' := by
  induction l generalizing r with
  | nil => rfl
  | cons x l ih => simp only [Rng.mapDraw, List.map_cons, h]; rw [ih]

theorem mem_allCells (c : Fin 32 × Fin 256) : c ∈ allCells := by
  unfold allCells
  rw [List.mem_flatMap]
  exact ⟨c.1, List.mem_finRange _, List.mem_map.mpr ⟨c.2, List.mem_finRange _, rfl⟩⟩

theorem countP_lt {α : Type} {p q : α → Bool} {l : List α} (h : ∀ x ∈ l, p x = true → q x = true)
    {x : α} (hx : x ∈ l) (hp : p x = false) (hq : q x = true) : l.countP p < l.countP q := by
  induction l with
  | nil => simp at hx
  | cons y l ih =>
    have hle : l.countP p ≤ l.countP q :=
      List.countP_mono_left fun z hz => h z (by simp [hz])
    simp only [List.countP_cons]
    simp only [List.mem_cons] at hx
    rcases hx with rfl | hx
    · simp only [hp, hq]
      simp; omega
    · have := ih (fun z hz => h z (by simp [hz])) hx
      have := h y (by simp)
      cases hpy : p y <;> cases hqy : q y <;> simp_all; omega

theorem heapify_mem {prio : Grid Int} {r : Rng} {e : Entry} (h : e ∈ (heapifyPriorities prio r).1) :
    e.key = -prio e.page e.offset ∧ prio e.page e.offset ≠ 0 := by
  unfold heapifyPriorities at h
  obtain ⟨c, hc, n, rfl⟩ := mapDraw_mem h
  simp only [List.mem_filter, decide_eq_true_eq] at hc
  exact ⟨rfl, hc.2⟩

theorem heapify_mem' {prio : Grid Int} (r : Rng) {p : Fin 32} {o : Fin 256} (h : prio p o ≠ 0) :
    ∃ e ∈ (heapifyPriorities prio r).1, e.page = p ∧ e.offset = o ∧ e.key = - prio p o := by
  unfold heapifyPriorities
  obtain ⟨n, hn⟩ := mapDraw_mem' (fun (c : Fin 32 × Fin 256) n =>
      (⟨-prio c.1 c.2, n, c.1, c.2⟩ : Entry)) (l := allCells.filter fun c => prio c.1 c.2 ≠ 0) r
    (x := (p, o)) (List.mem_filter.mpr ⟨mem_allCells _, by simpa using h⟩)
  exact ⟨_, hn, rfl, rfl, rfl⟩

end IIVision
