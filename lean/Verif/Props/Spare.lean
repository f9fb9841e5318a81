import Verif.Props.Picture

/-! C65: what the encoder does with the additional stores of an operation; C21 refuted in its stronger form. -/

namespace IIVision
open Spec

/-- How much better than at the start of the frame the byte at offset `o` of the operation's page would be against the target,
if the operation stored its content there too. -/
def Spec.Step.gain (s : Step) (mode : VideoMode) (t : EditTable) (o : Fin 256) : Int :=
  (weight mode t (banks s.startV.pixelmap) (banks s.target) s.isAux s.op.pageIx o : Int)
    - storeError mode t (banks s.target) s.isAux s.op.pageIx o s.op.content

/-- C65: with a symmetric table, the additional stores of an operation are the best ones there are.  Call an offset of the page (other
than the first one) useful if it is pending and storing the content there too would be a gain.  Every additional offset is useful, there are at most two, and if
a useful offset is left out, then there are two, neither with a smaller gain.  The fourth store always repeats the first. -/
theorem C65_best_use (mode : VideoMode) (t : EditTable)
    (hsym : Symmetric mode.cls.maskedBits t) (tape : Nat → Nat) (calls : List Call)
    (h : Legal mode calls) (e : Enc) (tr : List Step) (hr : runNew mode t tape calls = .ok (e, tr))
    (s : Step) (hs : s ∈ tr) (hp : s.padding = false) :
    ∃ first x y, s.op.offsets = [first, x, y, first] ∧ (x = first → y = first) ∧ (x = y → x = first) ∧
      (∀ o, (o = x ∨ o = y) → o ≠ first → s.pending t s.op.pageIx o ≠ 0 ∧ 0 < s.gain mode t o) ∧
      ∀ o, o ≠ first → s.pending t s.op.pageIx o ≠ 0 → 0 < s.gain mode t o →
        o = x ∨ o = y ∨ (x ≠ first ∧ y ≠ first ∧ s.gain mode t o ≤ s.gain mode t x ∧ s.gain mode t o ≤ s.gain mode t y) := by
  obtain ⟨e0, e', tr', -, h2, -, h4, -, -⟩ := runNew_ok (t := t) h tape
  rw [h2] at hr; cases hr
  have hk := h4 s hs
  obtain ⟨page, offset, extra, hE, -, -⟩ := hk.emit hp
  have hgain : ∀ o, s.gain mode t o = (snapOf t s.startV s.target s.isAux).dw0 page o
      - (errNew (s.mid t).mode t s.target s.isAux page s.op.content o : Int) := by
    intro o
    unfold Step.gain
    rw [hk.midMode, errNew_eq hk.legal.valid hk.legal.aux hsym, snap_dw hk.start, hk.startMode, hE.pageIx]
  have hpend : ∀ o, s.pending t s.op.pageIx o = (s.mid t).priority s.isAux page o := by
    intro o; rw [hE.pageIx, mid_priority hk]
  have hnd := hE.nodup
  have hof := hE.opOffsets
  have hfew := hE.few
  have hpe := hE.pending
  have hbt := hE.better
  have hbest := hE.best
  have huse : ∀ o ∈ extra, s.pending t s.op.pageIx o ≠ 0 ∧ 0 < s.gain mode t o := by
    intro o ho
    refine ⟨by rw [hpend]; exact hpe o (List.mem_cons_of_mem _ ho), ?_⟩
    have := hbt o ho
    rw [hgain]; omega
  have hall : ∀ o, o ≠ offset → s.pending t s.op.pageIx o ≠ 0 → 0 < s.gain mode t o → o ∉ extra →
      extra.length = 2 ∧ ∀ x ∈ extra, s.gain mode t o ≤ s.gain mode t x := by
    intro o h1 h2 h3 h4
    rw [hpend] at h2
    rw [hgain] at h3
    obtain ⟨b1, b2⟩ := hbest o h1 h2 (by omega) h4
    refine ⟨b1, fun x hx => ?_⟩
    have := b2 x hx
    rw [hgain, hgain]; omega
  clear hbest hbt hpe hgain hpend hE hk h4
  match extra, hfew with
  | [], _ =>
    refine ⟨offset, offset, offset, by rw [hof]; rfl, fun _ => rfl, fun _ => rfl, ?_, ?_⟩
    · rintro o (rfl | rfl) hne <;> exact absurd rfl hne
    · intro o h1 h2 h3
      have := (hall o h1 h2 h3 (by simp)).1
      simp at this
  | [x], _ =>
    simp only [List.nodup_cons, List.mem_singleton, List.not_mem_nil, not_false_eq_true, List.nodup_nil, and_true] at hnd
    refine ⟨offset, x, offset, by rw [hof]; rfl, fun _ => rfl, fun h => h, ?_, ?_⟩
    · rintro o (rfl | rfl) hne
      · exact huse _ (by simp)
      · exact absurd rfl hne
    · intro o h1 h2 h3
      by_cases hx : o = x
      · exact .inl hx
      · have := (hall o h1 h2 h3 (by simpa using hx)).1
        simp at this
  | [x, y], _ =>
    simp only [List.nodup_cons, List.mem_cons, List.not_mem_nil, or_false, not_or, not_false_eq_true, List.nodup_nil, and_true] at hnd
    obtain ⟨⟨n1, n2⟩, n3⟩ := hnd
    refine ⟨offset, x, y, by rw [hof]; rfl, fun h => absurd h.symm n1, fun h => absurd h n3, ?_, ?_⟩
    · rintro o (rfl | rfl) -
      · exact huse _ (by simp)
      · exact huse _ (by simp)
    · intro o h1 h2 h3
      by_cases hx : o = x
      · exact .inl hx
      by_cases hy : o = y
      · exact .inr (.inl hy)
      have := (hall o h1 h2 h3 (by simp [hx, hy])).2
      exact .inr (.inr ⟨Ne.symm n1, Ne.symm n2, this x (by simp), this y (by simp)⟩)

/-! ### A secondary store can make a byte worse -/

/-- The price of the cheapest rewriting, computed. -/
def best {α : Type} [DecidableEq α] (cost : α → α → Int) : List α → List α → Int
  | x :: x' :: s, y :: y' :: t =>
    let a := (if x = y then 0 else cost x y) + best cost (x' :: s) (y' :: t)
    if x = y' ∧ x' = y then min a (1 + best cost s t) else a
  | x :: _, y :: _ => if x = y then 0 else cost x y
  | _, _ => 0

theorem best_cheapest {α : Type} [DecidableEq α] (cost : α → α → Int) : ∀ (n : Nat) (s t : List α), s.length ≤ n → s.length = t.length →
    Cheapest cost s t (best cost s t) := by
  intro n
  induction n with
  | zero =>
    intro s t h1 h2
    match s, t, h1, h2 with
    | [], [], _, _ => exact ⟨.nil, fun c hc => by cases hc; exact Int.le_refl _⟩
  | succ n ih =>
    intro s t h1 h2
    match s, t, h1, h2 with
    | [], [], _, _ => exact ⟨.nil, fun c hc => by cases hc; exact Int.le_refl _⟩
    | [x], [y], _, _ =>
      unfold best
      constructor
      · split
        · rename_i h; subst h; exact .keep _ .nil
        · rename_i h; have := Rewrite.recolour (cost := cost) x y h .nil; simpa using this
      · intro c hc
        cases hc with
        | keep _ h => cases h; simp
        | recolour _ _ hne h => cases h; simp [hne]
    | x :: x' :: s, y :: y' :: t, h1, h2 =>
      have i1 := ih (x' :: s) (y' :: t) (by simp at h1 ⊢; omega) (by simpa using h2)
      have i2 := ih s t (by simp at h1; omega) (by simpa using h2)
      unfold best
      have hA : Rewrite cost (x :: x' :: s) (y :: y' :: t) ((if x = y then 0 else cost x y) + best cost (x' :: s) (y' :: t)) := by
        split
        · rename_i h; subst h; rw [Int.zero_add]; exact .keep _ i1.1
        · rename_i h; exact .recolour _ _ h i1.1
      constructor
      · dsimp only
        split
        · rename_i h
          obtain ⟨rfl, rfl⟩ := h
          rcases Int.le_total ((if x = x' then 0 else cost x x') + best cost (x' :: s) (x :: t)) (1 + best cost s t) with h | h
          · rw [Int.min_eq_left h]; exact hA
          · rw [Int.min_eq_right h]; exact .swap _ _ i2.1
        · exact hA
      · intro c hc
        dsimp only
        cases hc with
        | keep _ h =>
          have := i1.2 _ h
          rw [if_pos rfl]
          split <;> omega
        | recolour _ _ hne h =>
          have := i1.2 _ h
          rw [if_neg hne]
          split <;> omega
        | swap _ _ h =>
          have := i2.2 _ h
          rw [if_pos ⟨rfl, rfl⟩]
          omega

/-- Colours of the pixels around a byte. -/
def rowOf (mode : VideoMode) (k ph x : Nat) : List Colour :=
  match mode.toDots (BitVec.ofNat 64 x) k with
  | .ok d => match dotsToNominalColourPixels mode.cls.maskedDots d.toNat mode.colourValue ph with
    | .ok l => l
    | .error _ => []
  | .error _ => []

/-- Loaded distances can be computed. -/
theorem loaded_dist {deltaE : RGB → RGB → Int} (hd : ColourDifference deltaE) {dm0 : Nat → Nat → Int} {mode : VideoMode}
    {pal : Palette} {rgb : Colour → RGB} (hp : (pal, rgb) ∈ palettes) {t : EditTable} (ht : Loaded deltaE dm0 mode pal t)
    {k ph : Nat} (hk : mode.cls.phases[k]? = some ph) {x y : Nat} (hx : x < 2 ^ mode.cls.maskedBits) (hy : y < 2 ^ mode.cls.maskedBits) :
    ((t k (x * 2 ^ mode.cls.maskedBits + y)).toNat : Int)
      = best (fun c c' => deltaE (rgb (priced mode c)) (rgb (priced mode c'))) (rowOf mode k ph x) (rowOf mode k ph y) := by
  obtain ⟨files, t', f1, f2, h⟩ := C57_cheapest_rewriting deltaE hd dm0 mode pal rgb hp
  obtain ⟨files', g1, g2⟩ := ht
  rw [f1] at g1
  cases g1
  rw [f2] at g2
  cases g2
  obtain ⟨dx, dy, lx, ly, a1, a2, a3, a4, a5⟩ := h k ph hk x y hx hy
  have e1 : rowOf mode k ph x = lx := by unfold rowOf; rw [a1]; dsimp only; rw [a3]
  have e2 : rowOf mode k ph y = ly := by unfold rowOf; rw [a2]; dsimp only; rw [a4]
  rw [e1, e2]
  exact Cheapest.unique a5 (best_cheapest _ _ _ _ (Nat.le_refl _) (Rewrite.length_eq a5.1))

def cost0 (c c' : Colour) : Int := plainDifference (iigsRGB (priced .DHGR c)) (iigsRGB (priced .DHGR c'))

theorem worse_numbers :
    best cost0 (rowOf .DHGR 1 0 0) (rowOf .DHGR 1 0 168) = 160 ∧ best cost0 (rowOf .DHGR 1 0 0) (rowOf .DHGR 1 0 72) = 140 ∧
    best cost0 (rowOf .DHGR 1 0 0) (rowOf .DHGR 1 0 40) = 120 ∧ best cost0 (rowOf .DHGR 1 0 40) (rowOf .DHGR 1 0 168) = 80 ∧
    best cost0 (rowOf .DHGR 1 0 40) (rowOf .DHGR 1 0 72) = 100 ∧ best cost0 (rowOf .DHGR 1 0 72) (rowOf .DHGR 1 0 168) ≠ 0 := by decide +kernel

/-- A double hi-res picture with three bytes that are not black: 21, 9 and 5 at offsets 0, 2 and 4 of the first page of main memory. -/
def threeRow : Mem := fun p o => if p = 0 then (if o = 0 then 21 else if o = 2 then 9 else if o = 4 then 5 else 0) else 0

def threeFrame : Bitmap :=
  { main := ⟨1, threeRow⟩, aux := some ⟨1, fun _ _ => 0⟩,
    packed := match DHGRBitmap.new ⟨1, threeRow⟩ ⟨1, fun _ _ => 0⟩ with
      | .ok b => b.packed
      | .error _ => fun _ _ => 0 }

theorem threeFrame_new : DHGRBitmap.new ⟨1, threeRow⟩ ⟨1, fun _ _ => 0⟩ = .ok threeFrame := rfl

theorem threeRow_cases (p : Fin 32) (o : Fin 256) :
    (p = 0 ∧ (o = 0 ∨ o = 2 ∨ o = 4)) ∨ threeRow p o = 0 := by
  unfold threeRow
  split
  · split
    · exact .inl ⟨‹_›, .inl ‹_›⟩
    · split
      · exact .inl ⟨‹_›, .inr (.inl ‹_›)⟩
      · split
        · exact .inl ⟨‹_›, .inr (.inr ‹_›)⟩
        · exact .inr rfl
  · exact .inr rfl

theorem threeRow_clean (p : Fin 32) (o : Fin 256) : (threeRow p o).toNat < 0x80 := by
  rcases threeRow_cases p o with ⟨rfl, rfl | rfl | rfl⟩ | h
  · decide
  · decide
  · decide
  · rw [h]; decide

theorem threeFrame_legal : LegalFrame .DHGR threeFrame false :=
  ⟨(dhgr_new_valid rfl rfl threeFrame_new).1, fun _ => rfl, fun _ p o => threeRow_clean p o⟩

/-- The window of a byte of main memory between black bytes. -/
theorem window_alone (m : Mem × Mem) (h : m.2 = fun _ _ => 0) (p : Fin 32) (o : Fin 256) :
    winVal .DHGR m.1 m.2 false p o = bitsVal (dhgrWindow 0 (m.1 p o) 0) := by
  have : after (m.2 p) o = 0 := by unfold after; rw [h]; split <;> rfl
  unfold winVal window
  dsimp only
  rw [this, h]

/-- The first two `next()` of the first frame. -/
theorem two_pulls {t : EditTable} {mode : VideoMode} {tgt : Bitmap} {a : Bool}
    (h : LegalFrame mode tgt a) (tape : Nat → Nat) :
    ∃ e0 e s1 s2, runNew mode t tape [.start tgt a, .pull, .pull] = .ok (e, [s1, s2]) ∧ e0.mode = mode ∧
      s1.target = tgt ∧ s1.isAux = a ∧ s1.first = true ∧ s1.startV = e0 ∧ s1.before = e0 ∧
      s2.target = tgt ∧ s2.isAux = a ∧ s2.first = false ∧ s2.startV = e0 ∧ s2.before = s1.after ∧
      banks e0.pixelmap = blank ∧ ∀ b p o, e0.priority b p o = 0 := by
  obtain ⟨e0, i1, i2, i3, i4⟩ := init_ok t mode tape
  obtain ⟨e1, trs, s1, s2, -, -, -⟩ := call_ok (t := t) i2 (.start tgt a) h (.inl rfl)
  have hs : Enc.call t e0 (.start tgt a) = .ok ({ e0 with gen := some (.notStarted tgt a) }, []) := rfl
  rw [hs] at s1
  cases s1
  obtain ⟨e2, s, g1, a1, a2, a3, a4, a5, a6, a7, a8, a9, a10, a11, a12, a13, a14, a15, a16, a17⟩ :=
    pull_ok (t := t) s2 (g := .notStarted tgt a) rfl
  obtain ⟨e3, s', g2, b1, b2, b3, b4, b5, b6, b7, b8, b9, b10, b11, b12, b13, b14, b15, b16, b17⟩ :=
    pull_ok (t := t) a2 a4
  refine ⟨e0.v, e3, s, s', ?_, i2.vmode, a8, a9, a10, a14.trans a15, a12, b8.trans a5, b9.trans a6, b10.trans a7, ?_, b12.trans a13.symm, ?_, i4⟩
  · unfold runNew
    rw [i1]
    exact run_cons (s := []) hs (run_cons a1 (run_cons b1 rfl))
  · rw [b14, b15, a7]
    exact a15
  · apply bankOf_ext
    intro b
    funext p o
    rw [bankOf_banks, i3]
    cases b <;> rfl

theorem legal_two_pulls {mode : VideoMode} {tgt : Bitmap} {a : Bool} (h : LegalFrame mode tgt a) :
    Legal mode [.start tgt a, .pull, .pull] := by
  refine ⟨?_, ?_⟩
  · intro c hc
    simp only [List.mem_cons, List.not_mem_nil, or_false] at hc
    rcases hc with rfl | rfl | rfl
    · exact h
    · trivial
    · trivial
  · intro c hc
    simp at hc
    subst hc; rfl

/-- The distances that matter for `threeFrame`. -/
theorem three_numbers {t : EditTable} (ht : Loaded plainDifference (fun _ _ => 0) .DHGR .IIGS t) :
    (∀ p o, weight .DHGR t blank (banks threeFrame) false p o =
      if p = 0 then (if o = 0 then 160 else if o = 2 then 140 else if o = 4 then 120 else 0) else 0) ∧
    storeError .DHGR t (banks threeFrame) false 0 4 21 = 80 ∧ storeError .DHGR t (banks threeFrame) false 0 4 9 = 100 ∧
    storeError .DHGR t (banks threeFrame) false 0 2 21 ≠ 0 := by
  have hp : (Palette.IIGS, iigsRGB) ∈ palettes := by simp [palettes]
  have key : ∀ x y : Nat, x < 2 ^ 13 → y < 2 ^ 13 →
      ((t 1 (x * 2 ^ 13 + y)).toNat : Int) = best cost0 (rowOf .DHGR 1 0 x) (rowOf .DHGR 1 0 y) := fun x y hx hy =>
    loaded_dist plainDifference_ok.1 hp ht (k := 1) (ph := 0) rfl hx hy
  obtain ⟨n1, n2, n3, n4, n5, n6⟩ := worse_numbers
  have k1 := key 0 168 (by decide) (by decide)
  have k2 := key 0 72 (by decide) (by decide)
  have k3 := key 0 40 (by decide) (by decide)
  have k4 := key 40 168 (by decide) (by decide)
  have k5 := key 40 72 (by decide) (by decide)
  have k6 := key 72 168 (by decide) (by decide)
  rw [n1] at k1; rw [n2] at k2; rw [n3] at k3; rw [n4] at k4; rw [n5] at k5
  rw [← k6] at n6
  have hz := loaded_zeroDiag plainDifference_ok.1 hp ht
  have hbl : ∀ p o, winVal .DHGR blank.1 blank.2 false p o = 0 := by
    intro p o; exact (window_alone blank rfl p o).trans (by show bitsVal (dhgrWindow 0 0 0) = 0; decide)
  have hth : ∀ p o, winVal .DHGR (banks threeFrame).1 (banks threeFrame).2 false p o = bitsVal (dhgrWindow 0 (threeRow p o) 0) := by
    intro p o; exact window_alone (banks threeFrame) rfl p o
  have hst : ∀ o c, winVal .DHGR (storeBank (banks threeFrame) false 0 o c).1 (storeBank (banks threeFrame) false 0 o c).2 false 0 o
      = bitsVal (dhgrWindow 0 c 0) := by
    intro o c
    refine (window_alone (storeBank (banks threeFrame) false 0 o c) rfl 0 o).trans ?_
    show bitsVal (dhgrWindow 0 (Grid.set threeRow 0 o c 0 o) 0) = _
    rw [show Grid.set threeRow 0 o c 0 o = c by simp [Grid.set]]
  have v0 : bitsVal (dhgrWindow 0 0 0) = 0 := by decide
  have vA : bitsVal (dhgrWindow 0 21 0) = 168 := by decide
  have vB : bitsVal (dhgrWindow 0 9 0) = 72 := by decide
  have vO : bitsVal (dhgrWindow 0 5 0) = 40 := by decide
  have r0 : threeRow 0 0 = 21 := by decide
  have r2 : threeRow 0 2 = 9 := by decide
  have r4 : threeRow 0 4 = 5 := by decide
  have hN : VideoMode.DHGR.cls.maskedBits = 13 := rfl
  refine ⟨?_, ?_, ?_, ?_⟩
  · intro p o
    unfold weight
    by_cases hc : p = 0 ∧ (o = 0 ∨ o = 2 ∨ o = 4)
    · obtain ⟨rfl, rfl | rfl | rfl⟩ := hc
      · rw [if_pos (by decide), if_pos rfl, if_pos rfl]
        unfold windowDist
        rw [hbl, hth, r0, vA, hN]
        exact_mod_cast k1
      · rw [if_pos (by decide), if_pos rfl, if_neg (by decide), if_pos rfl]
        unfold windowDist
        rw [hbl, hth, r2, vB, hN]
        exact_mod_cast k2
      · rw [if_pos (by decide), if_pos rfl, if_neg (by decide), if_neg (by decide), if_pos rfl]
        unfold windowDist
        rw [hbl, hth, r4, vO, hN]
        exact_mod_cast k3
    · have h0 := (threeRow_cases p o).resolve_left hc
      have : windowDist .DHGR t blank (banks threeFrame) false p o = 0 := by
        unfold windowDist
        rw [hbl, hth, h0, v0]
        exact congrArg BitVec.toNat (hz _ 0 (by decide))
      rw [this, ite_self]
      by_cases hp : p = 0
      · rw [if_pos hp, if_neg, if_neg, if_neg]
        · exact fun h => hc ⟨hp, .inr (.inr h)⟩
        · exact fun h => hc ⟨hp, .inr (.inl h)⟩
        · exact fun h => hc ⟨hp, .inl h⟩
      · rw [if_neg hp]
  · unfold storeError windowDist
    rw [hth, hst, r4, vO, vA, hN]
    exact_mod_cast k4
  · unfold storeError windowDist
    rw [hth, hst, r4, vO, vB, hN]
    exact_mod_cast k5
  · unfold storeError windowDist
    rw [hth, hst, r2, vB, vA, hN]
    intro h
    apply n6
    exact_mod_cast h

/-- C21 is FALSE in its stronger form: with a table as generated and loaded, an additional store may make a byte worse than it is just
before.  The picture `threeFrame` on a blank screen: the first operation also stores 21 at offset 4, the second one stores 9
there, which is further from the target. -/
theorem C21_refuted (t : EditTable) (ht : Loaded plainDifference (fun _ _ => 0) .DHGR .IIGS t) (tape : Nat → Nat) :
    ∃ e s1 s2, runNew .DHGR t tape [.start threeFrame false, .pull, .pull] = .ok (e, [s1, s2]) ∧ s2.padding = false ∧
      s2.op.pageIx = 0 ∧ 4 ∈ s2.op.offsets ∧ s2.op.offsets.head? ≠ some 4 ∧
      storeError .DHGR t (banks threeFrame) false 0 4 (s2.before.pixelmap.bank false 0 4) = 80 ∧
      storeError .DHGR t (banks threeFrame) false 0 4 s2.op.content = 100 := by
  have hsym : Symmetric VideoMode.DHGR.cls.maskedBits t := by
    obtain ⟨-, edp, -, -, -, hu⟩ := loaded_form plainDifference_ok.1 (fun _ _ => 0) .DHGR (p := .IIGS) (rgb := iigsRGB) (by simp [palettes])
    rw [hu t ht]
    exact (C12_symmetric_spec _ _).1
  obtain ⟨hw, q4, q5, q6⟩ := three_numbers ht
  obtain ⟨e0, e, s1, s2, hr, hm, a1, a2, a3, a4, a5, b1, b2, b3, b4, b5, hb, hpr⟩ := two_pulls (t := t) threeFrame_legal tape
  have hl := legal_two_pulls threeFrame_legal
  -- priorities at the start of the frame
  have hsp : ∀ s : Step, s.startV = e0 → s.target = threeFrame → s.isAux = false → ∀ p o, s.startPriority t p o =
      if p = 0 then (if o = 0 then 160 else if o = 2 then 140 else if o = 4 then 120 else 0) else 0 := by
    intro s h1 h2 h3 p o
    unfold Step.startPriority
    rw [h1, h2, h3, hb, hm, hw, hpr]
    by_cases h : p = 0
    · simp only [if_pos h]
      by_cases h0 : o = 0
      · simp only [if_pos h0]; rfl
      by_cases h2 : o = 2
      · simp only [if_neg h0, if_pos h2]; rfl
      by_cases h4 : o = 4
      · simp only [if_neg h0, if_neg h2, if_pos h4]; rfl
      · simp only [if_neg h0, if_neg h2, if_neg h4]; rfl
    · simp only [if_neg h]; rfl
  have hsp1 := hsp s1 a4 a1 a2
  have hsp2 := hsp s2 b4 b1 b2
  have hpend1 : ∀ p o, s1.pending t p o = s1.startPriority t p o := by
    intro p o; unfold Step.pending; rw [if_pos a3]
  have hpend2 : ∀ p o, s2.pending t p o = s1.after.priority false p o := by
    intro p o; unfold Step.pending; rw [b3, b5, b2]; rfl
  have few : ∀ s : Step, (∀ p o, s.startPriority t p o =
      if p = 0 then (if o = 0 then 160 else if o = 2 then 140 else if o = 4 then 120 else 0) else 0) →
      ∀ p o, s.startPriority t p o ≠ 0 → p = 0 ∧ (o = 0 ∨ o = 2 ∨ o = 4) := by
    intro s h p o hne
    rw [h] at hne
    by_cases hp : p = 0
    · refine ⟨hp, ?_⟩
      rw [if_pos hp] at hne
      by_cases h0 : o = 0
      · exact .inl h0
      by_cases h2 : o = 2
      · exact .inr (.inl h2)
      by_cases h4 : o = 4
      · exact .inr (.inr h4)
      rw [if_neg h0, if_neg h2, if_neg h4] at hne
      exact absurd rfl hne
    · rw [if_neg hp] at hne
      exact absurd rfl hne
  have tb0 : threeFrame.bank false 0 0 = 21 := by decide
  have tb2 : threeFrame.bank false 0 2 = 9 := by decide
  -- the first operation
  obtain ⟨g1, g2⟩ := C19_greedy .DHGR t tape _ hl e [s1, s2] hr s1 (by simp)
  have hn1 : s1.padding = false := by
    cases hp : s1.padding with
    | false => rfl
    | true =>
      have := g1.mp hp 0 0
      rw [hpend1, hsp1] at this
      simp at this
  obtain ⟨f1, hf1, hf2, hf3⟩ := g2 hn1
  have h00 := hf3 0 0 (by rw [hpend1, hsp1]; decide)
  have hcell1 : s1.op.pageIx = 0 ∧ f1 = 0 := by
    have e00 : s1.startPriority t 0 0 = 160 := by rw [hsp1]; rfl
    rw [e00] at h00
    obtain ⟨hp, ho⟩ := few s1 hsp1 s1.op.pageIx f1 (by omega)
    refine ⟨hp, ?_⟩
    rw [hp, hsp1] at h00
    rcases ho with rfl | rfl | rfl
    · rfl
    · exact absurd h00 (by decide)
    · exact absurd h00 (by decide)
  obtain ⟨hpg1, rfl⟩ := hcell1
  have hcon1 : s1.op.content = 21 := by
    obtain ⟨f, ex, -, -, -, c1, -, -, -, c2⟩ := C16_operation_shape .DHGR t tape _ hl e [s1, s2] hr s1 (by simp)
    rw [c1] at hf1
    simp only [List.cons_append, List.head?_cons, Option.some.injEq] at hf1
    rw [c2, hf1, a1, a2, hpg1, tb0]
  have hgain1 : s1.gain .DHGR t 4 = 40 := by
    unfold Step.gain
    rw [a4, a1, a2, hpg1, hcon1, hb, q4, hw]; rfl
  obtain ⟨x0, x2, x3, u1, u2, u3⟩ : s1.after.priority false 0 0 = 0 ∧ s1.after.priority false 0 4 = 80 ∧ s1.after.pixelmap.bank false 0 4 = 21 ∧
      s1.after.priority false 0 2 ≠ 0 ∧ (∀ o, s1.after.priority false 0 o ≠ 0 → o = 2 ∨ o = 4) ∧ True := by
    obtain ⟨f, x, y, w1, w2, w3, w4, w5⟩ := C65_best_use .DHGR t hsym tape _ hl e [s1, s2] hr s1 (by simp) hn1
    have hf : f = 0 := by rw [w1] at hf1; simpa using hf1
    subst hf
    have h4 : (4 : Fin 256) ∈ s1.op.offsets := by
      rw [w1]
      rcases w5 4 (by decide) (by rw [hpg1, hpend1, hsp1]; decide) (by rw [hgain1]; decide) with h | h | ⟨h1, h2, -, -⟩
      · simp [h]
      · simp [h]
      · have hx := (w4 x (.inl rfl) h1).1
        have hy := (w4 y (.inr rfl) h2).1
        rw [hpend1] at hx hy
        rcases (few s1 hsp1 _ _ hx).2 with h | h | h
        · exact absurd h h1
        · rcases (few s1 hsp1 _ _ hy).2 with h' | h' | h'
          · exact absurd h' h2
          · exact absurd (w3 (h.trans h'.symm)) h1
          · simp [h']
        · simp [h]
    obtain ⟨z1, -, z3⟩ := C21_secondary_stores .DHGR t hsym tape _ hl e [s1, s2] hr s1 (by simp) hn1 0 hf1
    have hcold := (C22_no_overflow .DHGR t tape _ hl e [s1, s2] hr).2 s1 (by simp)
    rw [a2, hpg1] at z1 z3
    rw [a1, hcon1] at z3
    obtain ⟨-, -, z4, z5⟩ := z3 4 h4 (by decide)
    refine ⟨z1, by rw [z4, q4]; rfl, z5, ?_, ?_, trivial⟩
    · by_cases h2 : (2 : Fin 256) ∈ s1.op.offsets
      · obtain ⟨-, -, z6, -⟩ := z3 2 h2 (by decide)
        rw [z6]
        exact_mod_cast q6
      · have := (hcold 0 2 (.inr (.inr h2))).1
        rw [a2] at this
        rw [this, hpend1, hsp1]
        decide
    · intro o ho
      have hne : o ≠ 0 := by rintro rfl; exact ho z1
      have hpo : s1.startPriority t 0 o ≠ 0 := by
        rw [← hpend1]
        by_cases hm : o ∈ s1.op.offsets
        · have := (z3 o hm hne).1
          omega
        · have := (hcold 0 o (.inr (.inr hm))).1
          rw [a2] at this
          rwa [← this]
      rcases (few s1 hsp1 _ _ hpo).2 with h | h | h
      · exact absurd h hne
      · exact .inl h
      · exact .inr h
  -- the second operation
  clear hf1 hf2 hf3 h00 g1 g2 hcon1 hgain1
  obtain ⟨g1, g2⟩ := C19_greedy .DHGR t tape _ hl e [s1, s2] hr s2 (by simp)
  have hn2 : s2.padding = false := by
    cases hp : s2.padding with
    | false => rfl
    | true =>
      have := g1.mp hp 0 4
      rw [hpend2, x2] at this
      exact absurd this (by decide)
  obtain ⟨f2, hf1, hf2, hf3⟩ := g2 hn2
  have h02 := hf3 0 2 (by rw [hpend2]; exact u1)
  have hcell2 : s2.op.pageIx = 0 ∧ f2 = 2 := by
    have e02 : s2.startPriority t 0 2 = 140 := by rw [hsp2]; rfl
    rw [e02] at h02
    obtain ⟨hp, ho⟩ := few s2 hsp2 s2.op.pageIx f2 (by omega)
    refine ⟨hp, ?_⟩
    rw [hp, hsp2] at h02
    rw [hp, hpend2] at hf2
    rcases ho with rfl | rfl | rfl
    · rw [x0] at hf2; exact absurd hf2 (by decide)
    · rfl
    · exact absurd h02 (by decide)
  obtain ⟨hpg2, rfl⟩ := hcell2
  have hcon2 : s2.op.content = 9 := by
    obtain ⟨f, ex, -, -, -, c1, -, -, -, c2⟩ := C16_operation_shape .DHGR t tape _ hl e [s1, s2] hr s2 (by simp)
    rw [c1] at hf1
    simp only [List.cons_append, List.head?_cons, Option.some.injEq] at hf1
    rw [c2, hf1, b1, b2, hpg2, tb2]
  have hgain2 : s2.gain .DHGR t 4 = 20 := by
    unfold Step.gain
    rw [b4, b1, b2, hpg2, hcon2, hb, q5, hw]; rfl
  obtain ⟨f, x, y, w1, w2, w3, w4, w5⟩ := C65_best_use .DHGR t hsym tape _ hl e [s1, s2] hr s2 (by simp) hn2
  have hf : f = 2 := by rw [w1] at hf1; simpa using hf1
  subst hf
  have h4 : (4 : Fin 256) ∈ s2.op.offsets := by
    rw [w1]
    rcases w5 4 (by decide) (by rw [hpg2, hpend2, x2]; decide) (by rw [hgain2]; decide) with h | h | ⟨h1, h2, -, -⟩
    · simp [h]
    · simp [h]
    · have hx := (w4 x (.inl rfl) h1).1
      rw [hpend2, hpg2] at hx
      rcases u2 _ hx with h | h
      · exact absurd h h1
      · simp [h]
  refine ⟨e, s1, s2, hr, hn2, hpg2, h4, by rw [hf1]; decide, ?_, by rw [hcon2]; exact q5⟩
  rw [b5, x3]
  exact q4

/-- There is such a table. -/
example : ∃ t, Loaded plainDifference (fun _ _ => 0) .DHGR .IIGS t := by
  obtain ⟨-, edp, -, -, h, -⟩ := loaded_form plainDifference_ok.1 (fun _ _ => 0) .DHGR (p := .IIGS) (rgb := iigsRGB) (by simp [palettes])
  exact ⟨_, h⟩

end IIVision
