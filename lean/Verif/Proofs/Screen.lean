import Verif.Model.Screen

/-! Lemmas about the screen address maps. -/

namespace IIVision

theorem yToBaseAddr_eq (y page : Nat) :
    yToBaseAddr y page
      = 8192 * (page + 1) + 1024 * (y % 8) + 128 * (y / 8 % 8) + 40 * (y / 64) := by
  unfold yToBaseAddr
  simp only
  have h1 : y - 64 * (y / 64) - 8 * ((y - 64 * (y / 64)) / 8) = y % 8 := by omega
  have h2 : (y - 64 * (y / 64)) / 8 = y / 8 % 8 := by omega
  rw [h1, h2]

/-- page (0-31) of a visible byte -/
def cellP (y : Nat) : Nat := 4 * (y % 8) + (y / 8 % 8) / 2
/-- offset (0-255) of a visible byte -/
def cellO (y x : Nat) : Nat := 128 * ((y / 8 % 8) % 2) + 40 * (y / 64) + x

theorem cellP_lt (y : Nat) : cellP y < 32 := by unfold cellP; omega
theorem cellO_lt {y x : Nat} (hy : y < 192) (hx : x < 40) : cellO y x < 256 := by
  unfold cellO; omega

theorem yBase_page {y : Nat} (hy : y < 192) : yToBaseAddr y 0 >>> 8 = cellP y + 32 := by
  rw [yToBaseAddr_eq, Nat.shiftRight_eq_div_pow]; unfold cellP
  have : y / 64 < 3 := by omega
  have : y % 8 < 8 := by omega
  have : y / 8 % 8 < 8 := by omega
  generalize y % 8 = c at *; generalize y / 8 % 8 = b at *; generalize y / 64 = a at *
  simp; omega

theorem yBase_eq {y : Nat} (_hy : y < 192) (x pg : Nat) :
    yToBaseAddr y pg + x = 8192 * pg + 256 * (cellP y + 32) + cellO y x := by
  rw [yToBaseAddr_eq]; unfold cellP cellO; omega

theorem cell_inj {y x y' x' : Nat} (hy : y < 192) (hx : x < 40) (hy' : y' < 192) (hx' : x' < 40)
    (hp : cellP y = cellP y') (ho : cellO y x = cellO y' x') : y = y' ∧ x = x' := by
  unfold cellP cellO at *
  have e1 : y = 64 * (y / 64) + 8 * (y / 8 % 8) + y % 8 := by omega
  have e2 : y' = 64 * (y' / 64) + 8 * (y' / 8 % 8) + y' % 8 := by omega
  have : y / 64 < 3 := by omega
  have : y' / 64 < 3 := by omega
  have : y % 8 < 8 := by omega
  have : y' % 8 < 8 := by omega
  have : y / 8 % 8 < 8 := by omega
  have : y' / 8 % 8 < 8 := by omega
  generalize y % 8 = c at *; generalize y / 8 % 8 = b at *; generalize y / 64 = a at *
  generalize y' % 8 = c' at *; generalize y' / 8 % 8 = b' at *; generalize y' / 64 = a' at *
  have hc : c = c' := by omega
  have hb2 : b / 2 = b' / 2 := by omega
  have hbm : b % 2 = b' % 2 := by omega
  have hax : 40 * a + x = 40 * a' + x' := by omega
  have ha : a = a' := by omega
  have hb : b = b' := by omega
  subst hc ha hb
  exact ⟨by omega, by omega⟩

theorem npIndex_ok {n : Nat} {i : Int} (h0 : 0 ≤ i) (h1 : i < n) :
    npIndex n i = .ok ⟨i.toNat, by omega⟩ := by
  unfold npIndex; rw [dif_pos ⟨h0, h1⟩]

theorem npIndex_neg {n : Nat} {i : Int} (h0 : -(n : Int) ≤ i) (h1 : i < 0) :
    npIndex n i = .ok ⟨(i + n).toNat, by omega⟩ := by
  unfold npIndex; rw [dif_neg (by omega), dif_pos ⟨h0, h1⟩]

theorem npIndex_err {n : Nat} {i : Int} (h : i < -(n : Int) ∨ (n : Int) ≤ i) :
    npIndex n i = .error .indexError := by
  unfold npIndex; rw [dif_neg (by omega), dif_neg (by omega)]

theorem npIndex_nat {n i : Nat} (h : i < n) : npIndex n (i : Int) = .ok ⟨i, h⟩ := by
  rw [npIndex_ok (by omega) (by omega)]; simp

/-- Exact effect of one iteration. -/
theorem populateStep_ok (m : Mappings) {y x : Nat} (hy : y < 192) (hx : x < 40) :
    m.populateStep (y, x) = .ok {
      poToY := fun p o => if p.val = cellP y ∧ o.val = cellO y x then y else m.poToY p o
      poToX := fun p o => if p.val = cellP y ∧ o.val = cellO y x then x else m.poToX p o
      xyToPage := fun y' x' => if y'.val = y ∧ x'.val = x then cellP y else m.xyToPage y' x'
      xyToOffset := fun y' x' => if y'.val = y ∧ x'.val = x then cellO y x else m.xyToOffset y' x'
      holes := fun p o => if p.val = cellP y ∧ o.val = cellO y x then false else m.holes p o
      addrToCoords := fun a =>
        if a = yToBaseAddr y 1 + x then some (1, y, x)
        else if a = yToBaseAddr y 0 + x then some (0, y, x)
        else m.addrToCoords a } := by
  have hP := cellP_lt y
  have hO := cellO_lt hy hx
  have hpg := yBase_page hy
  have hbase := yBase_eq hy x 0
  have e1 : ((yToBaseAddr y 0 >>> 8 : Nat) : Int) - 32 = ((cellP y : Nat) : Int) := by omega
  have e2 : (yToBaseAddr y 0 : Int) - ((((yToBaseAddr y 0) >>> 8) <<< 8 : Nat) : Int) + x
      = ((cellO y x : Nat) : Int) := by
    rw [hpg, Nat.shiftLeft_eq]; omega
  unfold Mappings.populateStep
  simp only [e1, e2, npIndex_nat hP, npIndex_nat hO, npIndex_nat hy, npIndex_nat hx, bind,
    Except.bind, pure, Except.pure]
  have m1 : y % 256 = y := by omega
  have m2 : x % 256 = x := by omega
  have m3 : (yToBaseAddr y 0 >>> 8 - 32) % 256 = cellP y := by omega
  have m4 : (((cellO y x : Nat) : Int) % 256).toNat = cellO y x := by omega
  simp only [m1, m2, m3, m4, Fin.ext_iff]

/-- What the tables hold after the pairs in `l` have been processed. -/
structure Rep (l : List (Nat × Nat)) (m : Mappings) : Prop where
  holes : ∀ p o, m.holes p o = false ↔ ∃ y x, (y, x) ∈ l ∧ p.val = cellP y ∧ o.val = cellO y x
  poY : ∀ p o y x, (y, x) ∈ l → p.val = cellP y → o.val = cellO y x →
    m.poToY p o = y ∧ m.poToX p o = x
  xy : ∀ (y : Fin 192) (x : Fin 40), (y.val, x.val) ∈ l →
    m.xyToPage y x = cellP y ∧ m.xyToOffset y x = cellO y x
  addr : ∀ a c, m.addrToCoords a = some c ↔
    ∃ y x pg, (y, x) ∈ l ∧ pg < 2 ∧ a = yToBaseAddr y pg + x ∧ c = (pg, y, x)

theorem addr_inj {y x y' x' pg pg' : Nat} (hy : y < 192) (hx : x < 40) (hy' : y' < 192)
    (hx' : x' < 40) (h : yToBaseAddr y pg + x = yToBaseAddr y' pg' + x') :
    pg = pg' ∧ y = y' ∧ x = x' := by
  rw [yBase_eq hy, yBase_eq hy'] at h
  have := cellP_lt y; have := cellP_lt y'
  have := cellO_lt hy hx; have := cellO_lt hy' hx'
  have h1 : pg = pg' := by omega
  have h2 : cellP y = cellP y' := by omega
  have h3 : cellO y x = cellO y' x' := by omega
  exact ⟨h1, cell_inj hy hx hy' hx' h2 h3⟩

theorem rep_step {l : List (Nat × Nat)} {m : Mappings} (hl : ∀ yx ∈ l, yx.1 < 192 ∧ yx.2 < 40)
    (h : Rep l m) {y x : Nat} (hy : y < 192) (hx : x < 40) :
    ∃ m', m.populateStep (y, x) = .ok m' ∧ Rep (l ++ [(y, x)]) m' := by
  refine ⟨_, populateStep_ok m hy hx, ?_, ?_, ?_, ?_⟩
  · intro p o
    show (if _ then _ else _) = false ↔ _
    by_cases hc : p.val = cellP y ∧ o.val = cellO y x
    · rw [if_pos hc]; simp; exact ⟨y, x, Or.inr ⟨rfl, rfl⟩, hc⟩
    · rw [if_neg hc, h.holes]
      constructor
      · rintro ⟨y', x', hm, h1⟩; exact ⟨y', x', by simp [hm], h1⟩
      · rintro ⟨y', x', hm, h1⟩
        simp at hm
        rcases hm with hm | ⟨rfl, rfl⟩
        · exact ⟨y', x', hm, h1⟩
        · exact absurd h1 hc
  · intro p o y' x' hm hp ho
    simp at hm
    show (if _ then _ else _) = _ ∧ (if _ then _ else _) = _
    by_cases hc : p.val = cellP y ∧ o.val = cellO y x
    · rw [if_pos hc, if_pos hc]
      rcases hm with hm | ⟨rfl, rfl⟩
      · have hb : y' < 192 ∧ x' < 40 := hl _ hm
        exact cell_inj hy hx hb.1 hb.2 (hc.1.symm.trans hp) (hc.2.symm.trans ho)
      · exact ⟨rfl, rfl⟩
    · rw [if_neg hc, if_neg hc]
      rcases hm with hm | ⟨rfl, rfl⟩
      · exact h.poY p o y' x' hm hp ho
      · exact absurd ⟨hp, ho⟩ hc
  · intro y' x' hm
    simp at hm
    show (if _ then _ else _) = _ ∧ (if _ then _ else _) = _
    by_cases hc : y'.val = y ∧ x'.val = x
    · rw [if_pos hc, if_pos hc, hc.1, hc.2]; exact ⟨rfl, rfl⟩
    · rw [if_neg hc, if_neg hc]
      rcases hm with hm | hm
      · exact h.xy _ _ hm
      · exact absurd hm hc
  · intro a c
    show (if _ then _ else if _ then _ else _) = _ ↔ _
    split
    · rename_i ha
      constructor
      · intro hh; cases hh; exact ⟨y, x, 1, by simp, by omega, ha, rfl⟩
      · rintro ⟨y', x', pg, hm, hpg, ha', rfl⟩
        have hb : y' < 192 ∧ x' < 40 := by
          simp at hm; rcases hm with hm | ⟨rfl, rfl⟩
          · exact hl _ hm
          · exact ⟨hy, hx⟩
        obtain ⟨rfl, rfl, rfl⟩ := addr_inj hy hx hb.1 hb.2 (ha.symm.trans ha')
        rfl
    · rename_i hna
      split
      · rename_i ha
        constructor
        · intro hh; cases hh; exact ⟨y, x, 0, by simp, by omega, ha, rfl⟩
        · rintro ⟨y', x', pg, hm, hpg, ha', rfl⟩
          have hb : y' < 192 ∧ x' < 40 := by
            simp at hm; rcases hm with hm | ⟨rfl, rfl⟩
            · exact hl _ hm
            · exact ⟨hy, hx⟩
          obtain ⟨rfl, rfl, rfl⟩ := addr_inj hy hx hb.1 hb.2 (ha.symm.trans ha')
          rfl
      · rename_i hna0
        rw [h.addr]
        constructor
        · rintro ⟨y', x', pg, hm, h1⟩; exact ⟨y', x', pg, by simp [hm], h1⟩
        · rintro ⟨y', x', pg, hm, hpg, ha', hc⟩
          simp at hm
          rcases hm with hm | ⟨rfl, rfl⟩
          · exact ⟨y', x', pg, hm, hpg, ha', hc⟩
          · have : pg = 0 ∨ pg = 1 := by omega
            rcases this with rfl | rfl
            · exact absurd ha' hna0
            · exact absurd ha' hna

theorem rep_fold (l : List (Nat × Nat)) : ∀ (done : List (Nat × Nat)) (m : Mappings),
    (∀ yx ∈ done ++ l, yx.1 < 192 ∧ yx.2 < 40) → Rep done m →
    ∃ m', l.foldlM Mappings.populateStep m = .ok m' ∧ Rep (done ++ l) m' := by
  induction l with
  | nil => intro done m _ h; exact ⟨m, rfl, by simpa using h⟩
  | cons yx l ih =>
    intro done m hl h
    obtain ⟨y, x⟩ := yx
    have hb := hl (y, x) (by simp)
    obtain ⟨m', hs, hr⟩ := rep_step (fun yx hm => hl yx (by simp [hm])) h hb.1 hb.2
    obtain ⟨m'', hf, hr'⟩ := ih (done ++ [(y, x)]) m' (by simpa using hl) hr
    refine ⟨m'', ?_, by simpa using hr'⟩
    rw [List.foldlM_cons, hs]; exact hf

theorem rep_init : Rep [] Mappings.init := by
  refine ⟨?_, ?_, ?_, ?_⟩ <;> simp [Mappings.init]

theorem mem_yxPairs {y x : Nat} : (y, x) ∈ yxPairs ↔ y < 192 ∧ x < 40 := by
  unfold yxPairs; simp

theorem populate_rep : ∃ m, populateMappings = .ok m ∧ Rep yxPairs m := by
  have h0 : ∀ yx ∈ ([] : List (Nat × Nat)) ++ yxPairs, yx.1 < 192 ∧ yx.2 < 40 := by
    rintro ⟨y, x⟩ hm
    rw [List.nil_append] at hm
    exact mem_yxPairs.1 hm
  have := rep_fold yxPairs [] Mappings.init h0 rep_init
  rw [List.nil_append] at this
  unfold populateMappings
  exact this

theorem visible_iff (p : Fin 32) (o : Fin 256) :
    (∃ y x, y < 192 ∧ x < 40 ∧ p.val = cellP y ∧ o.val = cellO y x) ↔ o.val % 128 < 120 := by
  constructor
  · rintro ⟨y, x, hy, hx, -, ho⟩; rw [ho]; unfold cellO
    have h1 : y / 64 < 3 := by omega
    have h2 : y / 8 % 8 % 2 < 2 := by omega
    generalize y / 64 = a at *
    generalize y / 8 % 8 % 2 = b at *
    have h3 : (128 * b + 40 * a + x) % 128 = 40 * a + x := by omega
    omega
  · intro h
    refine ⟨64 * (o.val % 128 / 40) + 8 * (2 * (p.val % 4) + o.val / 128) + p.val / 4,
      o.val % 128 % 40, ?_, ?_, ?_, ?_⟩
    · omega
    · omega
    · unfold cellP
      have h1 : p.val / 4 < 8 := by omega
      have h2 : p.val % 4 < 4 := by omega
      have h3 : o.val / 128 < 2 := by omega
      have h0 : p.val = 4 * (p.val / 4) + p.val % 4 := by omega
      generalize o.val % 128 / 40 = a at *
      generalize o.val / 128 = d at *
      generalize p.val / 4 = u at *
      generalize p.val % 4 = v at *
      have e1 : (64 * a + 8 * (2 * v + d) + u) % 8 = u := by omega
      have e2 : (64 * a + 8 * (2 * v + d) + u) / 8 = 8 * a + (2 * v + d) := by omega
      rw [e1, e2]
      have e3 : (8 * a + (2 * v + d)) % 8 = 2 * v + d := by omega
      rw [e3]; omega
    · unfold cellO
      have h1 : p.val / 4 < 8 := by omega
      have h2 : p.val % 4 < 4 := by omega
      have hd : o.val / 128 < 2 := by omega
      have e0 : o.val = 128 * (o.val / 128) + (40 * (o.val % 128 / 40) + o.val % 128 % 40) := by omega
      generalize o.val % 128 / 40 = a at *
      generalize o.val / 128 = d at *
      generalize o.val % 128 % 40 = x at *
      generalize p.val / 4 = u at *
      generalize p.val % 4 = v at *
      have e2 : (64 * a + 8 * (2 * v + d) + u) / 8 = 8 * a + (2 * v + d) := by omega
      have e3 : (64 * a + 8 * (2 * v + d) + u) / 64 = a := by omega
      rw [e2, e3]
      have e4 : (8 * a + (2 * v + d)) % 8 = 2 * v + d := by omega
      rw [e4]; omega

theorem screenHoles_eq (p : Fin 32) (o : Fin 256) :
    screenHoles p o = decide (120 ≤ o.val % 128) := by
  obtain ⟨m, hm, hr⟩ := populate_rep
  have e : screenHoles p o = m.holes p o := by
    have : Mappings.holesOf populateMappings p o = Mappings.holesOf (.ok m) p o :=
      congrArg (fun r => Mappings.holesOf r p o) hm
    exact this
  rw [e]
  have h := hr.holes p o
  have hv := visible_iff p o
  by_cases hc : o.val % 128 < 120
  · have : m.holes p o = false := by
      rw [h]; obtain ⟨y, x, hy, hx, h1⟩ := hv.2 hc
      exact ⟨y, x, mem_yxPairs.2 ⟨hy, hx⟩, h1⟩
    rw [this]; simp; omega
  · have : ¬ m.holes p o = false := by
      rw [h]; rintro ⟨y, x, hm, h1⟩
      have := mem_yxPairs.1 hm
      exact hc (hv.1 ⟨y, x, this.1, this.2, h1⟩)
    simp at this; rw [this]; symm; simp; omega

end IIVision
