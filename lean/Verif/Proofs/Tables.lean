import Verif.Proofs.DamLev
import Verif.Proofs.Colours

/-! The generated edit-distance tables. -/

namespace IIVision
open Spec

/-- A fold establishes `P` if one of its steps does and the others preserve it. -/
theorem foldl_establish {α β : Type} {P : β → Prop} (f : β → α → β) : ∀ (l : List α),
    (∀ a ∈ l, ∀ m, P m → P (f m a)) → ∀ m0, (P m0 ∨ ∃ a ∈ l, ∀ m, P (f m a)) → P (l.foldl f m0)
  | [], _, m0, h => by
    rcases h with h | ⟨a, ha, _⟩
    · exact h
    · simp at ha
  | x :: l, hp, m0, h => by
    rw [List.foldl_cons]
    apply foldl_establish f l (fun a ha => hp a (by simp [ha]))
    rcases h with h | ⟨a, ha, h⟩
    · exact .inl (hp x (by simp) _ h)
    · rcases List.mem_cons.mp ha with rfl | ha
      · exact .inl (h _)
      · exact .inr ⟨a, ha, h⟩

theorem set2_self {α : Type} (m : Nat → Nat → α) (r c : Nat) (v : α) : set2 m r c v r c = v := by
  unfold set2; rw [if_pos ⟨rfl, rfl⟩]

theorem set2_keep {α : Type} {m : Nat → Nat → α} {r c r' c' : Nat} {v w : α} (h : m r' c' = w)
    (h' : r' = r → c' = c → v = w) : set2 m r c v r' c' = w := by
  unfold set2
  by_cases hh : r' = r ∧ c' = c
  · rw [if_pos hh]; exact h' hh.1 hh.2
  · rw [if_neg hh]; exact h

theorem diffMatrix_get (deltaE : RGB → RGB → Int) (pal : Colour → RGB) (dm0 : Nat → Nat → Int)
    (x y : Colour) : diffMatrix deltaE pal dm0 (hgrValue x) (hgrValue y) = deltaE (pal x) (pal y) := by
  unfold diffMatrix
  apply foldl_establish (P := fun dm : Nat → Nat → Int => dm (hgrValue x) (hgrValue y) = deltaE (pal x) (pal y))
  · intro c1 _ m hm
    apply foldl_establish (P := fun dm : Nat → Nat → Int => dm (hgrValue x) (hgrValue y) = deltaE (pal x) (pal y))
    · intro c2 _ m hm
      refine set2_keep hm ?_
      intro h1 h2
      rw [value_inj (.inl rfl) h1, value_inj (.inl rfl) h2]
    · exact .inl hm
  · refine .inr ⟨x, Colour.mem_all x, ?_⟩
    intro m
    apply foldl_establish (P := fun dm : Nat → Nat → Int => dm (hgrValue x) (hgrValue y) = deltaE (pal x) (pal y))
    · intro c2 _ m hm
      refine set2_keep hm ?_
      intro h1 h2
      rw [value_inj (.inl rfl) h2]
    · exact .inr ⟨y, Colour.mem_all y, fun m => set2_self _ _ _ _⟩

/-- The character of a colour value. -/
def chOf (n : Nat) : Char := "0123456789ABCDEF".toList.getD n '0'

theorem pixelChar_ok (n : Nat) (h : n < 16) : pixelChar n = .ok (chOf n) := by
  have : ∀ n : Fin 16, "0123456789ABCDEF".toList[n.val]? = some (chOf n.val) := by decide
  unfold pixelChar
  rw [this ⟨n, h⟩]

theorem chOf_inj {m n : Nat} (hm : m < 16) (hn : n < 16) (h : (chOf m).toNat = (chOf n).toNat) :
    m = n := by
  have : ∀ m n : Fin 16, (chOf m.val).toNat = (chOf n.val).toNat → m = n := by decide
  exact congrArg Fin.val (this ⟨m, hm⟩ ⟨n, hn⟩ h)

theorem mem_chars {ci : Char × Nat} (h : ci ∈ "0123456789ABCDEF".toList.zipIdx) :
    ci.2 < 16 ∧ ci.1 = chOf ci.2 := by
  have : ∀ ci ∈ "0123456789ABCDEF".toList.zipIdx, ci.2 < 16 ∧ ci.1 = chOf ci.2 := by decide
  exact this ci h

theorem chars_mem (n : Nat) (h : n < 16) : (chOf n, n) ∈ "0123456789ABCDEF".toList.zipIdx := by
  have : ∀ n : Fin 16, (chOf n.val, n.val) ∈ "0123456789ABCDEF".toList.zipIdx := by decide
  exact this ⟨n, h⟩

theorem diffMatrix_get' (deltaE : RGB → RGB → Int) (pal : Colour → RGB) (dm0 : Nat → Nat → Int)
    (i j : Nat) (hi : i < 16) (hj : j < 16) : ∃ x y, hgrValue x = i ∧ hgrValue y = j ∧
      diffMatrix deltaE pal dm0 i j = deltaE (pal x) (pal y) := by
  obtain ⟨x, rfl⟩ := value_surj (.inl rfl) i hi
  obtain ⟨y, rfl⟩ := value_surj (.inl rfl) j hj
  exact ⟨x, y, rfl, rfl, diffMatrix_get _ _ _ _ _⟩

/-- The substitution cost of two colours' characters is their difference. -/
theorem substituteCosts_get (deltaE : RGB → RGB → Int) (hs : ∀ a b, deltaE a b = deltaE b a)
    (pal : Colour → RGB) (dm0 : Nat → Nat → Int) (edp0 : EditDistanceParams) (x y : Colour) :
    (computeSubstituteCosts deltaE pal dm0 edp0).substituteCosts (chOf (hgrValue x)).toNat
      (chOf (hgrValue y)).toNat = deltaE (pal x) (pal y) := by
  have lx := value_lt (.inl rfl) x
  have ly := value_lt (.inl rfl) y
  -- a single step keeps the entry
  have keep : ∀ (ci dj : Char × Nat), ci ∈ "0123456789ABCDEF".toList.zipIdx →
      dj ∈ "0123456789ABCDEF".toList.zipIdx → ∀ m : EditDistanceParams,
      (m.substituteCosts (chOf (hgrValue x)).toNat (chOf (hgrValue y)).toNat = deltaE (pal x) (pal y) →
      (substituteStep (diffMatrix deltaE pal dm0) m ci.2 dj.2 ci.1 dj.1).substituteCosts
        (chOf (hgrValue x)).toNat (chOf (hgrValue y)).toNat = deltaE (pal x) (pal y)) := by
    rintro ⟨c, i⟩ ⟨d, j⟩ hc hd m hm
    obtain ⟨hi, ec⟩ := mem_chars hc
    obtain ⟨hj, ed⟩ := mem_chars hd
    dsimp only at hi hj ec ed
    subst ec ed
    dsimp only [substituteStep]
    refine set2_keep (set2_keep hm ?_) ?_
    · intro h1 h2
      rw [← chOf_inj lx hi h1, ← chOf_inj ly hj h2, diffMatrix_get]
    · intro h1 h2
      rw [← chOf_inj lx hj h1, ← chOf_inj ly hi h2, diffMatrix_get, hs]
  unfold computeSubstituteCosts
  apply foldl_establish (P := fun m : EditDistanceParams =>
    m.substituteCosts (chOf (hgrValue x)).toNat (chOf (hgrValue y)).toNat = deltaE (pal x) (pal y))
  · intro ci hci m hm
    apply foldl_establish (P := fun m : EditDistanceParams =>
      m.substituteCosts (chOf (hgrValue x)).toNat (chOf (hgrValue y)).toNat = deltaE (pal x) (pal y))
    · intro dj hdj m hm
      exact keep ci dj hci hdj m hm
    · exact .inl hm
  · refine .inr ⟨_, chars_mem _ lx, ?_⟩
    intro m
    apply foldl_establish (P := fun m : EditDistanceParams =>
      m.substituteCosts (chOf (hgrValue x)).toNat (chOf (hgrValue y)).toNat = deltaE (pal x) (pal y))
    · intro dj hdj m hm
      exact keep _ dj (chars_mem _ lx) hdj m hm
    · refine .inr ⟨_, chars_mem _ ly, ?_⟩
      intro m
      dsimp only [substituteStep]
      rw [diffMatrix_get]
      refine set2_keep (set2_self _ _ _ _) ?_
      intro _ _; rfl

/-- Costs in the range the generator needs. -/
structure EdpOk (edp : EditDistanceParams) : Prop where
  ins : edp.insertCosts = fun _ => 100000
  del : edp.deleteCosts = fun _ => 100000
  nonneg : ∀ x y, 0 ≤ edp.substituteCosts x y
  le : ∀ x y, edp.substituteCosts x y ≤ 3640

theorem edpOk_init : EdpOk {} := ⟨rfl, rfl, fun _ _ => Int.le_refl _, fun _ _ => by simp⟩

theorem foldl_invariant {α β : Type} {P : β → Prop} (f : β → α → β) (l : List α)
    (hp : ∀ a ∈ l, ∀ m, P m → P (f m a)) (m0 : β) (h : P m0) : P (l.foldl f m0) :=
  foldl_establish f l hp m0 (.inl h)

theorem edpOk_costs {deltaE : RGB → RGB → Int} (hd : ColourDifference deltaE) (pal : Colour → RGB)
    (dm0 : Nat → Nat → Int) {edp0 : EditDistanceParams} (h0 : EdpOk edp0) :
    EdpOk (computeSubstituteCosts deltaE pal dm0 edp0) := by
  unfold computeSubstituteCosts
  apply foldl_invariant _ _ _ _ h0
  intro ci hci m hm
  apply foldl_invariant _ _ _ _ hm
  intro dj hdj m hm
  obtain ⟨x, y, -, -, hv⟩ := diffMatrix_get' deltaE pal dm0 _ _ (mem_chars hci).1 (mem_chars hdj).1
  have h1 := hd.nonneg (pal x) (pal y)
  have h2 := hd.le (pal x) (pal y)
  rw [← hv] at h1 h2
  refine ⟨hm.ins, hm.del, ?_, ?_⟩
  · intro x y
    have := hm.nonneg x y
    dsimp only [substituteStep, set2]
    split
    · exact h1
    · split
      · exact h1
      · exact this
  · intro x y
    have := hm.le x y
    dsimp only [substituteStep, set2]
    split
    · exact h2
    · split
      · exact h2
      · exact this

/-! ### pixel strings -/

theorem pixelString_ok : ∀ l : List Nat, (∀ v ∈ l, v < 16) → pixelString l = .ok (l.map chOf)
  | [], _ => rfl
  | v :: l, h => by
    unfold pixelString
    rw [pixelChar_ok v (h v (by simp)), pixelString_ok l (fun w hw => h w (by simp [hw]))]
    rfl

theorem toDots_ok (mode : VideoMode) (v o : Nat) (h : v < 2 ^ mode.cls.maskedBits) :
    ∃ d, mode.toDots (BitVec.ofNat 64 v) o = .ok d := by
  cases mode with
  | HGR =>
    change v < 2 ^ 14 at h
    have e : (BitVec.ofNat 64 v &&& 0x3fff#64) = BitVec.ofNat 64 v := by
      apply BitVec.eq_of_toNat_eq
      rw [BitVec.toNat_and, BitVec.toNat_ofNat, Nat.mod_eq_of_lt (by omega)]
      show v &&& (2 ^ 14 - 1) = v
      rw [Nat.and_two_pow_sub_one_eq_mod, Nat.mod_eq_of_lt h]
    show ∃ d, hgrToDots (BitVec.ofNat 64 v) o = .ok d
    unfold hgrToDots
    rw [e]
    simp only [pyAssert, beq_self_eq_true, if_true]
    exact ⟨_, rfl⟩
  | DHGR => exact ⟨_, rfl⟩

/-- The row of colours a masked value stands for. -/
structure WindowColours (mode : VideoMode) (v k ph : Nat) (l : List Colour) : Prop where
  px : ∃ d, mode.toDots (BitVec.ofNat 64 v) k = .ok d ∧
    dotsToNominalColourPixels mode.cls.maskedDots d.toNat mode.colourValue ph = .ok l
  len : l.length = mode.cls.maskedDots

theorem windowColours_ok (mode : VideoMode) (v k ph : Nat) (h : v < 2 ^ mode.cls.maskedBits) :
    ∃ l, WindowColours mode v k ph l := by
  obtain ⟨d, hd⟩ := toDots_ok mode v k h
  obtain ⟨l, h1, h2, h3⟩ := dotsLoop_spec (isTable_mode mode) d.toNat ph mode.cls.maskedDots 0 ph
    (by omega)
  exact ⟨l, ⟨d, hd, h1⟩, h2⟩

theorem windowString_eq {mode : VideoMode} {v k ph : Nat} {l : List Colour}
    (h : WindowColours mode v k ph l) :
    mode.windowString mode.colourValue v k ph = .ok (l.map fun c => chOf (mode.colourValue c)) := by
  obtain ⟨d, h1, h2⟩ := h.px
  unfold VideoMode.windowString
  rw [h1]
  have e : dotsToNominalColourPixelValues mode.cls.maskedDots d.toNat mode.colourValue ph
      = .ok (l.map mode.colourValue) := by
    unfold dotsToNominalColourPixelValues
    rw [h2]; rfl
  show (do let px ← dotsToNominalColourPixelValues mode.cls.maskedDots d.toNat mode.colourValue ph
           pixelString px) = _
  rw [e]
  show pixelString (l.map mode.colourValue) = _
  rw [pixelString_ok, List.map_map]
  · rfl
  · intro v hv
    obtain ⟨c, -, rfl⟩ := List.mem_map.mp hv
    exact value_lt (isTable_mode mode) c

/-- The string of a masked value (empty if the conversion raised). -/
def strOf (mode : VideoMode) (v k ph : Nat) : List Char :=
  match mode.windowString mode.colourValue v k ph with
  | .ok s => s
  | .error _ => []

theorem windowString_strOf (mode : VideoMode) (v k ph : Nat) (h : v < 2 ^ mode.cls.maskedBits) :
    mode.windowString mode.colourValue v k ph = .ok (strOf mode v k ph) ∧
    (strOf mode v k ph).length = mode.cls.maskedDots := by
  obtain ⟨l, hl⟩ := windowColours_ok mode v k ph h
  unfold strOf
  rw [windowString_eq hl]
  exact ⟨rfl, by simp [hl.len]⟩

/-- The distance of two strings with the generator's costs. -/
def strDist (edp : EditDistanceParams) (a b : List Char) : Int :=
  damLev (fun _ => 100000) (fun _ => 100000) edp.substituteCosts a b

theorem maskedDots_le (mode : VideoMode) : mode.cls.maskedDots ≤ 18 := by
  cases mode <;> decide

theorem strDist_spec {edp : EditDistanceParams} (h : EdpOk edp) {n : Nat} (hn : n ≤ 18)
    {a b : List Char} (ha : a.length = n) (hb : b.length = n) :
    Cheapest (charCost edp.substituteCosts) a b (strDist edp a b) ∧
    0 ≤ strDist edp a b ∧ strDist edp a b < 65536 := by
  obtain ⟨h1, h2, h3⟩ := damLev_cheapest h.nonneg h.le a b (ha.trans hb.symm) (by rw [ha]; omega)
  exact ⟨h1, h2, by unfold strDist; rw [ha] at h3; omega⟩

theorem editDistance_ok {edp : EditDistanceParams} (h : EdpOk edp) {n : Nat} (hn : n ≤ 18)
    {a b : List Char} (ha : a.length = n) (hb : b.length = n) :
    editDistance edp a b false = .ok (strDist edp a b) := by
  obtain ⟨-, h2, h3⟩ := strDist_spec h hn ha hb
  unfold editDistance
  rw [h.ins, h.del]
  have e : (decide (0 ≤ strDist edp a b) && decide (strDist edp a b < 2 ^ 16)) = true := by
    rw [Bool.and_eq_true]
    exact ⟨decide_eq_true h2, decide_eq_true (by simpa using h3)⟩
  show (do pyAssert (decide (0 ≤ strDist edp a b) && decide (strDist edp a b < 2 ^ 16))
           pure (strDist edp a b)) = _
  rw [e]
  rfl

/-! ### the triple loop -/

/-- What the generator stores for masked values `i > j` at byte offset `k`. -/
def genVal (mode : VideoMode) (edp : EditDistanceParams) (k i j : Nat) : BitVec 16 :=
  BitVec.ofInt 16 (strDist edp (strOf mode i k (mode.cls.phases.getD k 0))
    (strOf mode j k (mode.cls.phases.getD k 0)))

theorem foldlM_range_ok {α : Type} (f : α → Nat → Except PyErr α) (g : Nat → α) (n : Nat)
    (h : ∀ j, j < n → f (g j) j = .ok (g (j + 1))) :
    (List.range n).foldlM f (g 0) = .ok (g n) := by
  induction n with
  | zero => rfl
  | succ n ih =>
    rw [List.range_succ, List.foldlM_append, ih (fun j hj => h j (by omega))]
    show ([n].foldlM f (g n)) = _
    rw [List.foldlM_cons, h n (by omega)]
    rfl

theorem masks_len (mode : VideoMode) : mode.cls.byteMasks.length = mode.cls.phases.length := by
  cases mode <;> rfl

theorem editRow_ok (mode : VideoMode) {edp : EditDistanceParams} (he : EdpOk edp) (i k ph : Nat)
    (hi : i < 2 ^ mode.cls.maskedBits) (hk : mode.cls.phases[k]? = some ph) (e : EditTable) :
    mode.editRow mode.colourValue edp i k ph e = .ok (fun k' q =>
      if k' = k ∧ i * 2 ^ mode.cls.maskedBits ≤ q ∧ q < i * 2 ^ mode.cls.maskedBits + i then
        genVal mode edp k i (q - i * 2 ^ mode.cls.maskedBits) else e k' q) := by
  have hkl : k < mode.cls.phases.length := by
    have := List.getElem?_eq_some_iff.mp hk
    exact this.1
  have hph : mode.cls.phases.getD k 0 = ph := by
    rw [List.getD_eq_getElem?_getD, hk]; rfl
  obtain ⟨hs1, hs2⟩ := windowString_strOf mode i k ph hi
  unfold VideoMode.editRow
  rw [hs1]
  show (List.range i).foldlM _ e = _
  have := foldlM_range_ok (fun (edit : EditTable) j => (do
    let second ← mode.windowString mode.colourValue j k ph
    let d ← editDistance edp (strOf mode i k ph) second false
    mode.cls.setEdit edit k ((i <<< mode.cls.maskedBits) + j) d : Except PyErr EditTable))
    (fun n k' q => if k' = k ∧ i * 2 ^ mode.cls.maskedBits ≤ q ∧ q < i * 2 ^ mode.cls.maskedBits + n then
        genVal mode edp k i (q - i * 2 ^ mode.cls.maskedBits) else e k' q) i ?_
  · rw [← this]
    congr 1
    funext k' q
    rw [if_neg]
    omega
  · intro j hj
    obtain ⟨hj1, hj2⟩ := windowString_strOf mode j k ph (by omega)
    rw [hj1]
    show (do let d ← editDistance edp (strOf mode i k ph) (strOf mode j k ph) false
             mode.cls.setEdit _ k _ d) = _
    rw [editDistance_ok he (maskedDots_le mode) hs2 hj2]
    show mode.cls.setEdit _ k _ _ = _
    unfold Cls.setEdit
    have hlt : i * 2 ^ mode.cls.maskedBits + j < 2 ^ mode.cls.maskedBits * 2 ^ mode.cls.maskedBits := by
      have : (i + 1) * 2 ^ mode.cls.maskedBits ≤ 2 ^ mode.cls.maskedBits * 2 ^ mode.cls.maskedBits :=
        Nat.mul_le_mul_right _ (by omega)
      rw [Nat.add_mul] at this
      omega
    rw [Nat.shiftLeft_eq, if_pos ⟨by rw [masks_len]; exact hkl, hlt⟩]
    congr 1
    funext k' q
    unfold set2
    generalize i * 2 ^ mode.cls.maskedBits = base
    by_cases h1 : k' = k ∧ q = base + j
    · obtain ⟨rfl, rfl⟩ := h1
      rw [if_pos ⟨rfl, rfl⟩, if_pos ⟨rfl, by omega, by omega⟩]
      unfold genVal
      rw [hph]
      congr 3
      omega
    · rw [if_neg h1]
      dsimp only
      by_cases h2 : k' = k ∧ base ≤ q ∧ q < base + j
      · rw [if_pos h2, if_pos ⟨h2.1, h2.2.1, by omega⟩]
      · rw [if_neg h2, if_neg]
        intro h3
        by_cases h4 : q = base + j
        · exact h1 ⟨h3.1, h4⟩
        · exact h2 ⟨h3.1, h3.2.1, by omega⟩

theorem phasesLoop_ok (mode : VideoMode) {edp : EditDistanceParams} (he : EdpOk edp) (i : Nat)
    (hi : i < 2 ^ mode.cls.maskedBits) : ∀ (l : List Nat) (s : Nat) (e : EditTable),
    (∀ n, n < l.length → mode.cls.phases[s + n]? = l[n]?) →
    (l.zipIdx s).foldlM (fun edit pho => mode.editRow mode.colourValue edp i pho.2 pho.1 edit) e
      = .ok (fun k q => if (s ≤ k ∧ k < s + l.length) ∧ i * 2 ^ mode.cls.maskedBits ≤ q ∧
          q < i * 2 ^ mode.cls.maskedBits + i then
        genVal mode edp k i (q - i * 2 ^ mode.cls.maskedBits) else e k q)
  | [], s, e, _ => by
    show Except.ok e = _
    congr 1
    funext k q
    rw [if_neg]
    rintro ⟨h, -⟩
    simp at h
    omega
  | ph :: l, s, e, h => by
    rw [List.zipIdx_cons, List.foldlM_cons]
    have h0 := h 0 (by simp)
    rw [editRow_ok mode he i s ph hi (by simpa using h0)]
    show (l.zipIdx (s + 1)).foldlM _ _ = _
    rw [phasesLoop_ok mode he i hi l (s + 1)]
    · congr 1
      funext k q
      generalize i * 2 ^ mode.cls.maskedBits = base
      by_cases hq : base ≤ q ∧ q < base + i
      · simp only [hq, and_true, List.length_cons]
        by_cases h1 : s + 1 ≤ k ∧ k < s + 1 + l.length
        · rw [if_pos h1, if_pos (by omega)]
        · rw [if_neg h1]
          by_cases h2 : k = s
          · subst h2
            rw [if_pos rfl, if_pos (by omega)]
          · rw [if_neg h2, if_neg (by omega)]
      · rw [if_neg (fun h => hq h.2), if_neg (fun h => hq h.2), if_neg (fun h => hq h.2)]
    · intro n hn
      have := h (n + 1) (by simpa using hn)
      rw [List.getElem?_cons_succ] at this
      rw [← this]
      congr 1
      omega

/-- The generator's function, in the form `Cls.generated` wants it. -/
def genFn (mode : VideoMode) (edp : EditDistanceParams) (k i j : Nat) : BitVec 16 :=
  if k < mode.cls.phases.length ∧ i < 2 ^ mode.cls.maskedBits then genVal mode edp k i j else 0

theorem computeEditDistance_ok (mode : VideoMode) {edp : EditDistanceParams} (he : EdpOk edp) :
    mode.computeEditDistance edp mode.colourValue = .ok (mode.cls.generated (genFn mode edp)) := by
  unfold VideoMode.computeEditDistance
  have hpos : 0 < 2 ^ mode.cls.maskedBits := Nat.two_pow_pos _
  have := foldlM_range_ok (fun (edit : EditTable) i =>
    mode.cls.phases.zipIdx.foldlM (fun edit pho =>
      mode.editRow mode.colourValue edp i pho.2 pho.1 edit) edit)
    (fun n k q => if q / 2 ^ mode.cls.maskedBits < n ∧ k < mode.cls.phases.length ∧
        q % 2 ^ mode.cls.maskedBits < q / 2 ^ mode.cls.maskedBits then
      genVal mode edp k (q / 2 ^ mode.cls.maskedBits) (q % 2 ^ mode.cls.maskedBits) else 0)
    (2 ^ mode.cls.maskedBits) ?_
  · refine Eq.trans ?_ (this.trans ?_)
    · congr 1
    · congr 1
      funext k q
      unfold Cls.generated genFn
      dsimp only
      by_cases h1 : q % 2 ^ mode.cls.maskedBits < q / 2 ^ mode.cls.maskedBits
      · rw [if_pos h1]
        by_cases h2 : k < mode.cls.phases.length ∧ q / 2 ^ mode.cls.maskedBits < 2 ^ mode.cls.maskedBits
        · rw [if_pos ⟨h2.2, h2.1, h1⟩, if_pos h2]
        · rw [if_neg (fun h => h2 ⟨h.2.1, h.1⟩), if_neg h2]
      · rw [if_neg h1, if_neg (fun h => h1 h.2.2)]
  · intro i hi
    rw [phasesLoop_ok mode he i hi mode.cls.phases 0 _ (fun n _ => by rw [Nat.zero_add])]
    congr 1
    funext k q
    have hdm := Nat.div_add_mod q (2 ^ mode.cls.maskedBits)
    have hml := Nat.mod_lt q hpos
    rw [Nat.mul_comm] at hdm
    generalize hN : 2 ^ mode.cls.maskedBits = N at *
    generalize ha : q / N = a at *
    generalize hb : q % N = b at *
    by_cases hai : a = i
    · subst hai
      by_cases hk : k < mode.cls.phases.length
      · by_cases hba : b < a
        · rw [if_pos (by omega), if_pos (by omega)]
          congr 1
          omega
        · rw [if_neg (by omega), if_neg (by omega), if_neg (by omega)]
      · rw [if_neg (by omega), if_neg (by omega), if_neg (by omega)]
    · have hne : ¬ (i * N ≤ q ∧ q < i * N + i) := by
        rintro ⟨h1, h2⟩
        apply hai
        rw [← ha]
        rw [Nat.div_eq_iff (by omega)]
        omega
      rw [if_neg (fun h => hne h.2)]
      by_cases h1 : a < i ∧ k < mode.cls.phases.length ∧ b < a
      · rw [if_pos h1, if_pos (by omega)]
      · rw [if_neg h1, if_neg (by omega)]

end IIVision
