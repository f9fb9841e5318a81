import Verif.Model.Heapq
import Verif.Proofs.Heap

/-! The array algorithms of `heapq` implement a bag with pop-min. -/

namespace IIVision.Heapq

set_option linter.unusedSectionVars false
set_option linter.unusedSimpArgs false

/-- `lt` is the strict part of a linear order. -/
structure Linear {α : Type} (lt : α → α → Bool) : Prop where
  asymm : ∀ a b, lt a b = true → lt b a = false
  trans : ∀ a b c, lt b a = false → lt c b = false → lt c a = false
  antisymm : ∀ a b, lt a b = false → lt b a = false → a = b

variable {α : Type} {lt : α → α → Bool}

theorem getD_set (l : List α) (i j : Nat) (a d : α) (hj : i < l.length) :
    (l.set i a).getD j d = if j = i then a else l.getD j d := by
  rw [List.getD_eq_getElem?_getD, List.getD_eq_getElem?_getD, List.getElem?_set]
  by_cases h : i = j
  · subst h; simp [hj]
  · rw [if_neg h, if_neg (fun h' => h h'.symm)]

/-- In range the default does not matter. -/
theorem getD_any (l : List α) (i : Nat) (d d' : α) (h : i < l.length) :
    l.getD i d = l.getD i d' := by
  rw [List.getD_eq_getElem?_getD, List.getD_eq_getElem?_getD, List.getElem?_eq_getElem h]
  rfl

theorem getD_append (l l' : List α) (i : Nat) (d : α) (h : i < l.length) :
    (l ++ l').getD i d = l.getD i d := by
  rw [List.getD_eq_getElem?_getD, List.getD_eq_getElem?_getD, List.getElem?_append_left h]

/-- Filling the hole after moving an element into it: a swap. -/
theorem move_perm (l : List α) (i j : Nat) (a d : α) (hi : i < l.length) (hj : j < l.length) :
    ((l.set i (l.getD j d)).set j a).Perm (l.set i a) := by
  by_cases hij : i = j
  · subst hij; rw [List.set_set]
  · have h := List.set_set_perm (as := l.set i a) (i := i) (j := j) (by simpa using hi)
      (by simpa using hj)
    rw [List.set_set] at h
    have h1 : (l.set i a)[j]'(by simpa using hj) = l.getD j d := by
      rw [List.getElem_set_ne hij, List.getD_eq_getElem?_getD, List.getElem?_eq_getElem hj]; rfl
    have h2 : (l.set i a)[i]'(by simpa using hi) = a := by simp
    rw [h1, h2] at h
    exact h

/-! ### `_siftdown` -/

theorem siftdownLoop_length (s : Nat) (item : α) (n : Nat) : ∀ pos (h : List α),
    (siftdownLoop lt s item n pos h).1.length = h.length := by
  induction n with
  | zero => intro pos h; rfl
  | succ n ih =>
    intro pos h
    unfold siftdownLoop
    split
    · dsimp only
      split
      · rw [ih]; simp
      · rfl
    · rfl

theorem siftdownLoop_perm (s : Nat) (item : α) (n : Nat) : ∀ pos (h : List α),
    pos < h.length →
    ((siftdownLoop lt s item n pos h).1.set (siftdownLoop lt s item n pos h).2 item).Perm
      (h.set pos item) := by
  induction n with
  | zero => intro pos h _; exact List.Perm.refl _
  | succ n ih =>
    intro pos h hp
    unfold siftdownLoop
    split
    · dsimp only
      split
      · refine (ih _ _ (by simp; omega)).trans ?_
        exact move_perm _ _ _ _ _ hp (by omega)
      · exact List.Perm.refl _
    · exact List.Perm.refl _

theorem siftdown_perm (h : List α) (s pos : Nat) (item : α) (hp : pos < h.length) :
    (siftdown lt h s pos item).Perm (h.set pos item) :=
  siftdownLoop_perm s item pos pos h hp

/-- `pos` is `s` or lies below it in the tree. -/
inductive Below (s : Nat) : Nat → Prop where
  | here : Below s s
  | left {p : Nat} (h : Below s p) : Below s (2 * p + 1)
  | right {p : Nat} (h : Below s p) : Below s (2 * p + 2)

theorem Below.ge {s p : Nat} (h : Below s p) : s ≤ p := by induction h <;> omega

theorem Below.parent {s p : Nat} (h : Below s p) (hp : s < p) : Below s ((p - 1) / 2) := by
  cases h with
  | here => omega
  | left h => rw [show ∀ q : Nat, (2 * q + 1 - 1) / 2 = q from by intro q; omega]; exact h
  | right h => rw [show ∀ q : Nat, (2 * q + 2 - 1) / 2 = q from by intro q; omega]; exact h

/-- Every element is at least its parent, for parents from index `s` on. -/
def Ordered (lt : α → α → Bool) (d : α) (s : Nat) (h : List α) : Prop :=
  ∀ i, 0 < i → i < h.length → s ≤ (i - 1) / 2 → lt (h.getD i d) (h.getD ((i - 1) / 2) d) = false

/-- The order holds except around the hole at `pos`, and around it across the hole. -/
structure Holed (lt : α → α → Bool) (d : α) (s pos : Nat) (h : List α) : Prop where
  away : ∀ i, 0 < i → i < h.length → s ≤ (i - 1) / 2 → i ≠ pos → (i - 1) / 2 ≠ pos →
    lt (h.getD i d) (h.getD ((i - 1) / 2) d) = false
  across : s < pos → ∀ i, 0 < i → i < h.length → (i - 1) / 2 = pos →
    lt (h.getD i d) (h.getD ((pos - 1) / 2) d) = false

theorem siftdownLoop_ordered (L : Linear lt) (d : α) (s : Nat) (item : α) (n : Nat) :
    ∀ pos (h : List α), pos ≤ n → pos < h.length → Below s pos → Holed lt d s pos h →
    (∀ i, 0 < i → i < h.length → (i - 1) / 2 = pos → lt (h.getD i d) item = false) →
    Ordered lt d s
      ((siftdownLoop lt s item n pos h).1.set (siftdownLoop lt s item n pos h).2 item) := by
  induction n with
  | zero =>
    intro pos h hn hp hb H hc i hi0 hi hs
    have : pos = 0 := by omega
    subst this
    have hs0 := hb.ge
    unfold siftdownLoop
    rw [getD_set _ _ _ _ _ hp, getD_set _ _ _ _ _ hp, if_neg (by omega)]
    simp only [siftdownLoop, List.length_set] at hi
    split
    · exact hc i hi0 hi ‹_›
    · exact H.away i hi0 hi hs (by omega) ‹_›
  | succ n ih =>
    intro pos h hn hp hb H hc
    unfold siftdownLoop
    by_cases hsp : s < pos
    · rw [if_pos hsp]
      dsimp only
      have hpar : (pos - 1) / 2 < h.length := by omega
      have hbp := hb.parent hsp
      rw [getD_any h _ item d hpar]
      by_cases hlt : lt item (h.getD ((pos - 1) / 2) d) = true
      · rw [if_pos hlt]
        refine ih _ _ (by omega) (by simp; omega) hbp ⟨?_, ?_⟩ ?_
        · intro i hi0 hi hs h1 h2
          rw [List.length_set] at hi
          rw [getD_set _ _ _ _ _ hp, getD_set _ _ _ _ _ hp]
          by_cases hip : i = pos
          · subst hip; exact absurd rfl h2
          · rw [if_neg hip]
            by_cases hpp : (i - 1) / 2 = pos
            · rw [if_pos hpp]
              exact H.across hsp i hi0 hi hpp
            · rw [if_neg hpp]
              exact H.away i hi0 hi hs hip hpp
        · intro hsp' i hi0 hi hpi
          rw [List.length_set] at hi
          have hup := H.away ((pos - 1) / 2) (by omega) hpar (hbp.parent hsp').ge (by omega) (by omega)
          rw [getD_set _ _ _ _ _ hp, getD_set _ _ _ _ _ hp,
            if_neg (show ((pos - 1) / 2 - 1) / 2 ≠ pos by omega)]
          by_cases hip : i = pos
          · rw [if_pos hip]; exact hup
          · rw [if_neg hip]
            have := H.away i hi0 hi (by have := hbp.ge; omega) hip (by omega)
            rw [hpi] at this
            exact L.trans _ _ _ hup this
        · intro i hi0 hi hpi
          rw [List.length_set] at hi
          rw [getD_set _ _ _ _ _ hp]
          by_cases hip : i = pos
          · rw [if_pos hip]; exact L.asymm _ _ hlt
          · rw [if_neg hip]
            have := H.away i hi0 hi (by have := hbp.ge; omega) hip (by omega)
            rw [hpi] at this
            exact L.trans _ _ _ (L.asymm _ _ hlt) this
      · rw [if_neg hlt]
        rw [Bool.not_eq_true] at hlt
        intro i hi0 hi hs
        rw [List.length_set] at hi
        rw [getD_set _ _ _ _ _ hp, getD_set _ _ _ _ _ hp]
        by_cases hip : i = pos
        · subst hip
          rw [if_pos rfl, if_neg (by omega)]
          exact hlt
        · rw [if_neg hip]
          split
          · exact hc i hi0 hi ‹_›
          · exact H.away i hi0 hi hs hip ‹_›
    · rw [if_neg hsp]
      have : pos = s := by have := hb.ge; omega
      intro i hi0 hi hs
      rw [List.length_set] at hi
      rw [getD_set _ _ _ _ _ hp, getD_set _ _ _ _ _ hp, if_neg (by omega)]
      split
      · exact hc i hi0 hi ‹_›
      · exact H.away i hi0 hi hs (by omega) ‹_›

/-! ### `_siftup` -/

theorem siftupLoop_length (item : α) (n : Nat) : ∀ pos (h : List α),
    (siftupLoop lt item n pos h).1.length = h.length := by
  induction n with
  | zero => intro pos h; rfl
  | succ n ih =>
    intro pos h
    unfold siftupLoop
    dsimp only
    split
    · rw [ih]; simp
    · rfl

/-- The child that moves up. -/
theorem child_cases (item : α) (pos : Nat) (h : List α) (hc : 2 * pos + 1 < h.length) :
    ∃ c, (if 2 * pos + 1 + 1 < h.length ∧
        lt (h.getD (2 * pos + 1) item) (h.getD (2 * pos + 1 + 1) item) = false
      then 2 * pos + 1 + 1 else 2 * pos + 1) = c ∧ c < h.length ∧
      (c = 2 * pos + 1 ∨ c = 2 * pos + 2) ∧
      (Linear lt → ∀ i, 0 < i → i < h.length → (i - 1) / 2 = pos →
        lt (h.getD i item) (h.getD c item) = false) := by
  refine ⟨_, rfl, ?_⟩
  split
  · next hh =>
    refine ⟨hh.1, by omega, fun L i hi0 hi hp => ?_⟩
    have : i = 2 * pos + 1 ∨ i = 2 * pos + 1 + 1 := by omega
    rcases this with rfl | rfl
    · exact hh.2
    · cases hx : lt (h.getD (2 * pos + 1 + 1) item) (h.getD (2 * pos + 1 + 1) item) with
      | false => rfl
      | true => exact (L.asymm _ _ hx).symm.trans hx |>.symm
  · next hh =>
    refine ⟨hc, by omega, fun L i hi0 hi hp => ?_⟩
    have : i = 2 * pos + 1 ∨ i = 2 * pos + 1 + 1 := by omega
    rcases this with rfl | rfl
    · cases hx : lt (h.getD (2 * pos + 1) item) (h.getD (2 * pos + 1) item) with
      | false => rfl
      | true => exact (L.asymm _ _ hx).symm.trans hx |>.symm
    · refine L.asymm _ _ ?_
      cases hx : lt (h.getD (2 * pos + 1) item) (h.getD (2 * pos + 1 + 1) item) with
      | false => exact absurd ⟨hi, hx⟩ hh
      | true => rfl

theorem siftupLoop_spec (item : α) (s : Nat) (n : Nat) : ∀ pos (h : List α),
    h.length ≤ n + pos → pos < h.length → Below s pos →
    let r := siftupLoop lt item n pos h
    r.2 < h.length ∧ h.length ≤ 2 * r.2 + 1 ∧ Below s r.2 ∧
    (r.1.set r.2 item).Perm (h.set pos item) ∧
    (Linear lt → Holed lt item s pos h → Holed lt item s r.2 r.1) := by
  induction n with
  | zero => intro pos h hn hp; omega
  | succ n ih =>
    intro pos h hn hp hb
    unfold siftupLoop
    dsimp only
    by_cases hc : 2 * pos + 1 < h.length
    · rw [if_pos hc]
      obtain ⟨c, hceq, hcl, hcc, hmin⟩ := child_cases (lt := lt) item pos h hc
      rw [hceq]
      have hbc : Below s c := by
        rcases hcc with rfl | rfl
        · exact hb.left
        · exact hb.right
      obtain ⟨h1, h2, h3, h4, h5⟩ := ih c (h.set pos (h.getD c item)) (by simp; omega)
        (by simpa using hcl) hbc
      rw [List.length_set] at h1 h2
      refine ⟨h1, h2, h3, h4.trans (move_perm _ _ _ _ _ hp hcl), fun L H => h5 L ⟨?_, ?_⟩⟩
      · intro i hi0 hi hs hic hpc
        rw [List.length_set] at hi
        rw [getD_set _ _ _ _ _ hp, getD_set _ _ _ _ _ hp]
        by_cases hip : i = pos
        · rw [if_pos hip, if_neg (by omega)]
          have := H.across (by subst hip; omega) c (by omega) hcl (by omega)
          rw [← hip] at this
          exact this
        · rw [if_neg hip]
          split
          · exact hmin L i hi0 hi ‹_›
          · exact H.away i hi0 hi hs hip ‹_›
      · intro hsc i hi0 hi hpi
        rw [List.length_set] at hi
        have hcp : (c - 1) / 2 = pos := by omega
        rw [hcp, getD_set _ _ _ _ _ hp, getD_set _ _ _ _ _ hp, if_neg (by omega), if_pos rfl]
        have := H.away i hi0 hi (by have := hb.ge; omega) (by omega) (by omega)
        rw [hpi] at this
        exact this
    · rw [if_neg hc]
      exact ⟨hp, by dsimp only; omega, hb, List.Perm.refl _, fun _ H => H⟩

theorem siftup_perm (h : List α) (pos : Nat) (item : α) (hp : pos < h.length) :
    (siftup lt h pos item).Perm (h.set pos item) := by
  obtain ⟨h1, -, -, h4, -⟩ := siftupLoop_spec (lt := lt) item pos h.length pos h (by omega) hp .here
  unfold siftup
  dsimp only
  refine (siftdown_perm _ _ _ _ (by simpa [siftupLoop_length] using h1)).trans ?_
  rw [List.set_set]
  exact h4

/-- Changing the element in the hole. -/
theorem Holed.fill {d item : α} {s pos : Nat} {h : List α} (H : Holed lt d s pos h)
    (hp : pos < h.length) (hleaf : h.length ≤ 2 * pos + 1) : Holed lt d s pos (h.set pos item) := by
  refine ⟨?_, ?_⟩
  · intro i hi0 hi hs h1 h2
    rw [List.length_set] at hi
    rw [getD_set _ _ _ _ _ hp, getD_set _ _ _ _ _ hp, if_neg h1, if_neg h2]
    exact H.away i hi0 hi hs h1 h2
  · intro hs i hi0 hi hpi
    rw [List.length_set] at hi
    omega

theorem Ordered.any {d d' : α} {s : Nat} {h : List α} (H : Ordered lt d s h) :
    Ordered lt d' s h := by
  intro i hi0 hi hs
  rw [getD_any h i d' d hi, getD_any h _ d' d (by omega)]
  exact H i hi0 hi hs

/-- Sifting up the element at `pos` extends the order to `pos`. -/
theorem siftup_ordered (L : Linear lt) (d : α) (h : List α) (pos : Nat) (item : α)
    (hp : pos < h.length) (H : Ordered lt d (pos + 1) h) :
    Ordered lt d pos (siftup lt h pos item) := by
  obtain ⟨h1, h2, h3, -, h5⟩ := siftupLoop_spec (lt := lt) item pos h.length pos h (by omega) hp .here
  have H' := h5 L ⟨fun i hi0 hi hs _ hpp => H.any i hi0 hi (by omega), fun hs => absurd hs (by omega)⟩
  have hl := siftupLoop_length (lt := lt) item h.length pos h
  unfold siftup
  dsimp only
  generalize siftupLoop lt item h.length pos h = r at *
  refine (siftdownLoop_ordered L item pos item _ _ _ (Nat.le_refl _) (by simp; omega) h3
    (H'.fill (by omega) (by omega)) ?_).any
  intro i hi0 hi hpi
  rw [List.length_set] at hi
  omega

/-! ### The operations -/

/-- The heap invariant. -/
def IsHeap (lt : α → α → Bool) (h : List α) : Prop := ∀ d, Ordered lt d 0 h

theorem heapify_spec (L : Linear lt) (x : List α) :
    (heapify lt x).Perm x ∧ IsHeap lt (heapify lt x) := by
  unfold heapify
  have key : ∀ n (h : List α), n ≤ h.length → (∀ d, Ordered lt d n h) →
      (heapifyLoop lt n h).Perm h ∧ IsHeap lt (heapifyLoop lt n h) := by
    intro n
    induction n with
    | zero => intro h _ H; exact ⟨List.Perm.refl _, H⟩
    | succ n ih =>
      intro h hn H
      unfold heapifyLoop
      rw [List.getElem?_eq_getElem (by omega)]
      dsimp only
      have hp := siftup_perm (lt := lt) h n h[n] (by omega)
      rw [List.set_getElem_self] at hp
      obtain ⟨h1, h2⟩ := ih (siftup lt h n h[n]) (by rw [hp.length_eq]; omega)
        (fun d => siftup_ordered L d h n _ (by omega) (H d))
      exact ⟨h1.trans hp, h2⟩
  exact key _ _ (by omega) (fun d i hi0 hi hs => by omega)

/-- The first element of a heap is least. -/
theorem IsHeap.head_least (L : Linear lt) {x : α} {l : List α} (H : IsHeap lt (x :: l)) :
    ∀ y ∈ x :: l, lt y x = false := by
  have key : ∀ n i, i ≤ n → i < (x :: l).length → lt ((x :: l).getD i x) x = false := by
    have hself : lt x x = false := by
      cases hx : lt x x with
      | false => rfl
      | true => exact (L.asymm _ _ hx).symm.trans hx |>.symm
    intro n
    induction n with
    | zero => intro i hi _; rw [show i = 0 by omega]; exact hself
    | succ n ih =>
      intro i hi hl
      by_cases h0 : i = 0
      · subst h0; exact hself
      · exact L.trans _ _ _ (ih ((i - 1) / 2) (by omega) (by omega)) (H x i (by omega) hl (Nat.zero_le _))
  intro y hy
  obtain ⟨i, hi, rfl⟩ := List.mem_iff_getElem.mp hy
  have := key i i (Nat.le_refl _) hi
  rwa [List.getD_eq_getElem?_getD, List.getElem?_eq_getElem hi] at this

theorem heappush_spec (L : Linear lt) (h : List α) (item : α) (H : IsHeap lt h) :
    (heappush lt h item).Perm (item :: h) ∧ IsHeap lt (heappush lt h item) := by
  have hl : h.length < (h ++ [item]).length := by simp
  constructor
  · refine (siftdown_perm _ _ _ _ hl).trans ?_
    rw [List.set_append_right _ _ (Nat.le_refl _)]
    simp only [Nat.sub_self, List.set_cons_zero]
    exact List.perm_append_comm
  · intro d
    have hb : ∀ n, Below 0 n := by
      intro n
      induction n using Nat.strongRecOn with
      | _ n ih =>
        by_cases h0 : n = 0
        · subst h0; exact .here
        · have := ih ((n - 1) / 2) (by omega)
          by_cases hodd : n % 2 = 1
          · have e : n = 2 * ((n - 1) / 2) + 1 := by omega
            rw [e]; exact this.left
          · have e : n = 2 * ((n - 1) / 2) + 2 := by omega
            rw [e]; exact this.right
    refine siftdownLoop_ordered L d 0 item _ _ _ (Nat.le_refl _) hl (hb _) ⟨?_, ?_⟩ ?_
    · intro i hi0 hi _ h1 _
      simp only [List.length_append, List.length_singleton] at hi
      have := H d i hi0 (by omega) (Nat.zero_le _)
      rw [getD_append _ _ _ _ (by omega), getD_append _ _ _ _ (by omega)]
      exact this
    · intro _ i hi0 hi hpi
      simp only [List.length_append, List.length_singleton] at hi
      omega
    · intro i hi0 hi hpi
      simp only [List.length_append, List.length_singleton] at hi
      omega

theorem heappop_nil : heappop lt ([] : List α) = none := rfl

theorem leastOf_least [DecidableEq α] (L : Linear lt) (x : α) (l : List α) :
    ∀ y ∈ x :: l, lt y (leastOf lt x l) = false := by
  have hself : ∀ x, lt x x = false := by
    intro x
    cases hx : lt x x with
    | false => rfl
    | true => exact (L.asymm _ _ hx).symm.trans hx |>.symm
  induction l generalizing x with
  | nil => intro y hy; rw [List.mem_singleton] at hy; subst hy; exact hself _
  | cons z l ih =>
    intro y hy
    unfold leastOf
    have hm := ih (if lt z x then z else x)
    have h0 := hm _ (List.mem_cons_self ..)
    cases hz : lt z x with
    | true =>
      rw [hz, if_pos rfl] at hm h0
      rw [if_pos rfl]
      simp only [List.mem_cons] at hy
      rcases hy with rfl | rfl | hy
      · exact L.trans _ _ _ h0 (L.asymm _ _ hz)
      · exact h0
      · exact hm y (by simp [hy])
    | false =>
      rw [hz, if_neg (by decide)] at hm h0
      rw [if_neg (by decide)]
      simp only [List.mem_cons] at hy
      rcases hy with rfl | rfl | hy
      · exact h0
      · exact L.trans _ _ _ h0 hz
      · exact hm y (by simp [hy])

/-- The array pop returns the first element and leaves a heap of the others. -/
theorem heappop_heap (L : Linear lt) {x : α} {l : List α} (H : IsHeap lt (x :: l)) :
    ∃ h', heappop lt (x :: l) = some (x, h') ∧ h'.Perm l ∧ IsHeap lt h' := by
  rcases List.eq_nil_or_concat l with rfl | ⟨m, last, rfl⟩
  · exact ⟨[], rfl, List.Perm.refl _, fun d i hi0 hi => absurd hi (by simp)⟩
  · rw [List.concat_eq_append] at *
    have e : heappop lt (x :: (m ++ [last])) = some (x, siftup lt (last :: m) 0 last) := by
      unfold heappop
      rw [← List.cons_append, List.getLast?_concat, List.dropLast_concat]
    refine ⟨_, e, ?_, ?_⟩
    · refine (siftup_perm _ _ _ (by simp)).trans ?_
      rw [List.set_cons_zero]
      exact (List.perm_append_comm (l₁ := m) (l₂ := [last])).symm
    · intro d
      refine siftup_ordered L d _ 0 last (by simp) ?_
      intro i hi0 hi hs
      simp only [List.length_cons] at hi
      have := H d i hi0 (by simp; omega) (Nat.zero_le _)
      rw [← List.cons_append, getD_append _ _ _ _ (by simp; omega),
        getD_append _ _ _ _ (by simp; omega)] at this
      obtain ⟨j, hj⟩ : ∃ j, i = j + 1 := ⟨i - 1, by omega⟩
      obtain ⟨k, hk⟩ : ∃ k, (i - 1) / 2 = k + 1 := ⟨(i - 1) / 2 - 1, by omega⟩
      rw [hk, hj] at this ⊢
      exact this

/-- The array pop and the bag pop agree. -/
theorem heappop_spec [DecidableEq α] (L : Linear lt) {h g : List α} (H : IsHeap lt h)
    (hg : h.Perm g) :
    (h = [] ∧ heapPop lt g = none ∧ heappop lt h = none) ∨
    ∃ x h' g', heapPop lt g = some (x, g') ∧ heappop lt h = some (x, h') ∧ h'.Perm g' ∧
      IsHeap lt h' := by
  cases h with
  | nil =>
    left
    rw [List.nil_perm] at hg
    subst hg
    exact ⟨rfl, rfl, rfl⟩
  | cons x l =>
    right
    obtain ⟨h', e, hp, hh⟩ := heappop_heap L H
    cases g with
    | nil => exact absurd hg.symm (by simp)
    | cons y g =>
      have hx : leastOf lt y g = x := by
        have hm : leastOf lt y g ∈ x :: l := hg.mem_iff.mpr (leastOf_mem y g)
        have hm' : x ∈ y :: g := hg.mem_iff.mp (List.mem_cons_self ..)
        exact L.antisymm _ _ (H.head_least L _ hm) (leastOf_least L y g x hm')
      refine ⟨x, h', (y :: g).erase x, ?_, e, ?_, hh⟩
      · unfold heapPop
        dsimp only
        rw [hx]
      · have := hg.erase x
        rw [List.erase_cons_head] at this
        exact hp.trans this

/-- Draining a heap array and draining the bag agree. -/
theorem drain_eq [DecidableEq α] (L : Linear lt) (n : Nat) : ∀ {h g : List α}, IsHeap lt h →
    h.Perm g → drain lt n h = heapDrain lt n g := by
  induction n with
  | zero => intro h g _ _; rfl
  | succ n ih =>
    intro h g H hg
    unfold drain heapDrain
    rcases heappop_spec L H hg with ⟨-, e1, e2⟩ | ⟨x, h', g', e1, e2, hp, hh⟩
    · rw [e1, e2]
    · rw [e1, e2]
      dsimp only
      rw [ih hh hp]

theorem Entry.linear : Linear Entry.lt := by
  refine ⟨?_, ?_, ?_⟩
  · rintro ⟨k, n, p, o⟩ ⟨k', n', p', o'⟩ h
    simp only [Entry.lt, Bool.or_eq_true, Bool.and_eq_true, decide_eq_true_eq, beq_iff_eq,
      Bool.or_eq_false_iff, Bool.and_eq_false_iff, decide_eq_false_iff_not, beq_eq_false_iff_ne,
      Fin.lt_def, Fin.ext_iff, ne_eq] at h ⊢
    omega
  · rintro ⟨k, n, p, o⟩ ⟨k', n', p', o'⟩ ⟨k'', n'', p'', o''⟩ h h'
    simp only [Entry.lt, Bool.or_eq_true, Bool.and_eq_true, decide_eq_true_eq, beq_iff_eq,
      Bool.or_eq_false_iff, Bool.and_eq_false_iff, decide_eq_false_iff_not, beq_eq_false_iff_ne,
      Fin.lt_def, Fin.ext_iff, ne_eq] at h h' ⊢
    omega
  · rintro ⟨k, n, p, o⟩ ⟨k', n', p', o'⟩ h h'
    simp only [Entry.lt, Bool.or_eq_false_iff, Bool.and_eq_false_iff, decide_eq_false_iff_not,
      beq_eq_false_iff_ne, Fin.lt_def, Fin.ext_iff, ne_eq] at h h'
    simp only [Entry.mk.injEq, Fin.ext_iff]
    omega

theorem Cand.linear : Linear Cand.lt := by
  refine ⟨?_, ?_, ?_⟩
  · rintro ⟨k, n, o⟩ ⟨k', n', o'⟩ h
    simp only [Cand.lt, Bool.or_eq_true, Bool.and_eq_true, decide_eq_true_eq, beq_iff_eq,
      Bool.or_eq_false_iff, Bool.and_eq_false_iff, decide_eq_false_iff_not, beq_eq_false_iff_ne,
      Fin.lt_def, ne_eq] at h ⊢
    omega
  · rintro ⟨k, n, o⟩ ⟨k', n', o'⟩ ⟨k'', n'', o''⟩ h h'
    simp only [Cand.lt, Bool.or_eq_false_iff, Bool.and_eq_false_iff, decide_eq_false_iff_not,
      beq_eq_false_iff_ne, Fin.lt_def, ne_eq] at h h' ⊢
    omega
  · rintro ⟨k, n, o⟩ ⟨k', n', o'⟩ h h'
    simp only [Cand.lt, Bool.or_eq_false_iff, Bool.and_eq_false_iff, decide_eq_false_iff_not,
      beq_eq_false_iff_ne, Fin.lt_def, ne_eq] at h h'
    simp only [Cand.mk.injEq, Fin.ext_iff]
    omega

end IIVision.Heapq
