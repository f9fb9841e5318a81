import Verif.Props.Video
import Verif.Proofs.Picture
import Verif.Spec.Fair

/-! Why no byte starves: the sum of the pending priorities. -/

namespace IIVision
open Spec

/-- Upper bounds for the priorities of a bank whose sum is the potential. -/
structure Pot (t : EditTable) (e : Enc) (b : Bool) (g : Grid Int) (x : Int) : Prop where
  le : ∀ p o, e.v.priority b p o ≤ g p o
  nonneg : ∀ p o, 0 ≤ g p o
  zero : ∀ p o, e.v.priority b p o = 0 → g p o = 0
  sum : gsum g Finset.univ ≤ x
  cur : ∀ gen, e.gen = some gen → gen.isNew = false → gen.isAux = b → ∀ p o, e.v.priority b p o ≠ 0 →
    g p o = (snapOf t e.startV gen.target b).P0 p o

/-- One operation. -/
theorem pot_emit {t : EditTable} {v v' : Video} {tgt : Bitmap} {b : Bool} {S : Snap} {op : VideoOp} {page : Fin 32} {offset : Fin 256}
    {extra : List (Fin 256)} {dw : Grid Int} {heap : List Entry} (hs : Symmetric v.mode.cls.maskedBits t)
    (hR : RunInv t v tgt b dw heap S) (hS : ∀ p o, S.dw0 p o ≤ S.P0 p o)
    (hE : Emitted t v tgt b S op v' page offset extra) {g : Grid Int} {x : Int}
    (le : ∀ p o, v.priority b p o ≤ g p o) (nonneg : ∀ p o, 0 ≤ g p o) (sum : gsum g Finset.univ ≤ x)
    (cur : ∀ p o, v.priority b p o ≠ 0 → g p o = S.P0 p o) :
    ∃ g', (∀ p o, v'.priority b p o ≤ g' p o) ∧ (∀ p o, 0 ≤ g' p o) ∧ (∀ p o, v'.priority b p o = 0 → g' p o = 0) ∧
      gsum g' Finset.univ ≤ x - S.P0 page offset ∧ (∀ p o, v'.priority b p o ≠ 0 → g' p o = S.P0 p o) := by
  have hv : ∀ p o, v'.priority b p o = storeAll (Grid.set (v.priority b) page offset 0) page extra
      (fun o => (errAfter v.mode t tgt b page op.content o : Int)) p o := by intro p o; rw [hE.prio]
  have hnd : offset ∉ extra := (List.nodup_cons.mp hE.nodup).1
  have hoff : v'.priority b page offset = 0 := by
    rw [hv]; unfold storeAll
    rw [if_neg (by rintro ⟨-, h⟩; exact hnd h)]
    simp [Grid.set]
  have hne : ∀ p o, v'.priority b p o ≠ 0 → v.priority b p o ≠ 0 := by
    intro p o h
    rw [hv] at h
    unfold storeAll at h
    split at h
    · next hc => rw [hc.1]; exact hE.pending o (List.mem_cons_of_mem _ hc.2)
    · unfold Grid.set at h
      split at h
      · exact absurd rfl h
      · exact h
  have hle : ∀ p o, v'.priority b p o ≠ 0 → v'.priority b p o ≤ S.P0 p o := by
    intro p o h
    by_cases hc : p = page ∧ o ∈ extra
    · rw [hv]; unfold storeAll
      rw [if_pos hc]
      have h1 := hE.better o hc.2
      rw [errNew_eq hR.tvalid hR.aux hs] at h1
      show ((errAfter v.mode t tgt b page op.content o : Nat) : Int) ≤ _
      rw [errAfter_eq hR.tvalid hR.aux]
      have := hS page o
      rw [hc.1]
      omega
    · rw [← cur p o (hne p o h)]
      refine le_trans ?_ (le p o)
      rw [hv]; unfold storeAll
      rw [if_neg hc]
      unfold Grid.set
      split
      · next h2 =>
        exfalso
        apply h
        rw [h2.1, h2.2]; exact hoff
      · exact le_refl _
  refine ⟨fun p o => if v'.priority b p o = 0 then 0 else S.P0 p o, ?_, ?_, ?_, ?_, ?_⟩
  · intro p o
    by_cases h : v'.priority b p o = 0
    · simp only [h, if_true]; exact le_refl _
    · simp only [h, if_false]; exact hle p o h
  · intro p o
    by_cases h : v'.priority b p o = 0
    · simp only [h, if_true]; exact le_refl _
    · simp only [h, if_false]; rw [← cur p o (hne p o h)]; exact nonneg p o
  · intro p o h
    simp only [h, if_true]
  · have h1 : gsum (fun p o => if v'.priority b p o = 0 then 0 else S.P0 p o) Finset.univ ≤ gsum g (Finset.univ.erase (page, offset)) := by
      rw [gsum_mem (c := (page, offset)) (Finset.mem_univ _)]
      simp only [hoff, if_true, zero_add]
      apply Finset.sum_le_sum
      intro c _
      by_cases h : v'.priority b c.1 c.2 = 0
      · simp only [h, if_true]; exact nonneg _ _
      · simp only [h, if_false]; rw [cur _ _ (hne _ _ h)]
    have h2 := gsum_mem (g := g) (c := (page, offset)) (Finset.mem_univ _)
    have h3 := cur page offset (hE.pending offset List.mem_cons_self)
    simp only at h2
    omega
  · intro p o h
    simp only [h, if_false]

theorem displayed_row : (Finset.univ.filter fun o : Fin 256 => Displayed o).card = 240 := by
  rw [Fin.univ_def]
  show (List.filter (fun o : Fin 256 => decide (Displayed o)) (List.finRange 256)).length = 240
  decide +kernel

theorem displayed_card : (Finset.univ.filter fun c : CellIx => Displayed c.2).card = 7680 := by
  have : (Finset.univ.filter fun c : CellIx => Displayed c.2) = Finset.univ ×ˢ (Finset.univ.filter fun o : Fin 256 => Displayed o) := by
    ext c
    simp only [Finset.mem_filter, Finset.mem_product, Finset.mem_univ, true_and]
  rw [this, Finset.card_product, Finset.card_univ, Fintype.card_fin, displayed_row]

/-- Frame start. -/
theorem pot_start {t : EditTable} {v : Video} {tgt : Bitmap} {b : Bool} {W : Nat} (hW : ∀ k i, (t k i).toNat ≤ W) {g : Grid Int} {x : Int}
    (le : ∀ p o, v.priority b p o ≤ g p o) (hn : ∀ p o, 0 ≤ v.priority b p o) (sum : gsum g Finset.univ ≤ x) :
    gsum (snapOf t v tgt b).P0 Finset.univ ≤ x + 7680 * W ∧ (∀ p o, 0 ≤ (snapOf t v tgt b).P0 p o) ∧
      ∀ p o, (snapOf t v tgt b).dw0 p o ≤ (snapOf t v tgt b).P0 p o := by
  have hr := fun p o => startWeights_range v.mode t v.pixelmap.packed tgt.packed b p o
  have hP : ∀ p o, (snapOf t v tgt b).P0 p o = startPrio (v.priority b) (startWeights v.mode t v.pixelmap.packed tgt.packed b) p o := fun _ _ => rfl
  have hD : ∀ p o, (snapOf t v tgt b).dw0 p o = startWeights v.mode t v.pixelmap.packed tgt.packed b p o := by
    intro p o; simp only [snapOf]
  refine ⟨?_, fun p o => ?_, fun p o => ?_⟩
  · have h1 : gsum (snapOf t v tgt b).P0 Finset.univ ≤ Finset.univ.sum fun c : CellIx => g c.1 c.2 + (if Displayed c.2 then (W : Int) else (0 : Int)) := by
      apply Finset.sum_le_sum
      intro c _
      rw [hP]
      unfold startPrio
      have h2 := le c.1 c.2
      have h3 := hn c.1 c.2
      have h4 : startWeights v.mode t v.pixelmap.packed tgt.packed b c.1 c.2 ≤ if Displayed c.2 then (W : Int) else 0 := by
        unfold startWeights
        by_cases hd : Displayed c.2
        · rw [if_pos hd]
          split
          · omega
          · exact_mod_cast hW _ _
        · rw [if_neg hd, if_pos (by by_contra hh; exact hd ((visible_holes c.1 c.2).mp (by simpa using hh)))]
      split <;> omega
    rw [Finset.sum_add_distrib, Finset.sum_ite, Finset.sum_const, Finset.sum_const_zero, displayed_card] at h1
    unfold gsum at sum
    simp only [nsmul_eq_mul] at h1
    push_cast at h1
    linarith
  · rw [hP]; unfold startPrio
    have := hn p o; have := (hr p o).1
    split <;> omega
  · rw [hP, hD]; unfold startPrio
    have := hn p o
    split <;> omega

/-- One `next()` on the bank. -/
theorem pot_pull {t : EditTable} {mode : VideoMode} {W : Nat} (hW : ∀ k i, (t k i).toNat ≤ W) (hs : Symmetric mode.cls.maskedBits t)
    {e e' : Enc} {gen : Gen} {s : Step} (he : EInv t mode e) (hg : e.gen = some gen) (hc : e.call t .pull = .ok (e', [s]))
    {g : Grid Int} {x : Int} (hp : Pot t e gen.isAux g x) :
    ∃ g' y, Pot t e' gen.isAux g' (x + ((if s.first then 7680 * W else 0 : Nat) : Int) - y) ∧ 0 ≤ y ∧
      ∀ p o, 0 < s.pending t p o → s.pending t p o ≤ y := by
  obtain ⟨e1, s1, g1, a1, a2, a3, a4, a5, a6, a7, a8, a9, a10, a11, a12, a13, a14, a15, -, -⟩ := pull_ok he hg
  rw [hc] at a1; cases a1
  generalize hb : gen.isAux = b at *
  generalize hSd : snapOf t s.startV s.target s.isAux = S at *
  have hS := pot_start (t := t) (v := s.startV) (tgt := s.target) (b := s.isAux) (W := W) (g := s.startV.priority s.isAux)
    (x := gsum (s.startV.priority s.isAux) Finset.univ) hW (fun _ _ => le_refl _) (fun p o => (a3.start.prio p o).1) (le_refl _)
  have hmid := fun p o => mid_priority (t := t) a3 p o
  have key : ∃ g1 : Grid Int, (∀ p o, (s.mid t).priority b p o ≤ g1 p o) ∧ (∀ p o, 0 ≤ g1 p o) ∧
      gsum g1 Finset.univ ≤ x + ((if s.first then 7680 * W else 0 : Nat) : Int) ∧
      (∀ p o, (s.mid t).priority b p o ≠ 0 → g1 p o = S.P0 p o) := by
    cases hf : s.first with
    | true =>
      have h1 : (s.mid t).priority b = S.P0 := by
        unfold Step.mid
        rw [if_pos hf, a9, priority_set, ← hSd, a9]
      have h2 := pot_start (t := t) (v := s.startV) (tgt := s.target) (b := s.isAux) (W := W) (g := g) (x := x) hW ?_ ?_ hp.sum
      · rw [hSd] at h2
        refine ⟨S.P0, fun p o => by rw [h1], h2.2.1, by simpa using h2.1, fun _ _ _ => rfl⟩
      · intro p o
        rw [← a3.first hf, a12, a9]
        exact hp.le p o
      · exact fun p o => (a3.start.prio p o).1
    | false =>
      have h1 : (s.mid t).priority b = e.v.priority b := by
        unfold Step.mid
        rw [if_neg (by rw [hf]; decide), a12]
      refine ⟨g, fun p o => by rw [h1]; exact hp.le p o, hp.nonneg, by simpa using hp.sum, fun p o h => ?_⟩
      rw [h1] at h
      rw [hp.cur gen hg (by rw [← a10, hf]) hb p o h, ← hSd, a14, a15, if_neg (by rw [← a10, hf]; decide), a8, a9]
  obtain ⟨g1, k1, k2, k3, k4⟩ := key
  have hx : 0 ≤ x + ((if s.first then 7680 * W else 0 : Nat) : Int) := le_trans (Finset.sum_nonneg fun c _ => k2 c.1 c.2) k3
  cases hpad : s.padding with
  | false =>
    obtain ⟨page, offset, extra, hE, -, hmax⟩ := a3.emit hpad
    obtain ⟨dw, heap, hR⟩ := a3.run
    rw [hSd] at hR hE hS hmax
    rw [a9] at hR hE hmax
    obtain ⟨g', b1, b2, b3, b4, b5⟩ := pot_emit (by rw [a3.midMode]; exact hs) hR hS.2.2 hE k1 k2 k3 k4
    rw [a13] at b1 b3 b5
    refine ⟨g', S.P0 page offset, ⟨b1, b2, b3, b4, ?_⟩, hS.2.1 page offset, ?_⟩
    · intro gen' h1 h2 h3 p o h4
      rw [a4] at h1; cases h1
      rw [b5 p o h4, ← hSd, a14, a8, a9, a5]
    · intro p o h
      rw [← hmid, a9] at h ⊢
      have h5 : (s.mid t).priority b p o ≠ 0 := by omega
      exact le_trans (k1 p o) (by rw [k4 p o h5]; exact hmax p o h5)
  | true =>
    obtain ⟨-, h1, -, h2, -⟩ := a3.pad hpad
    have h3 : ∀ p o, e'.v.priority b p o = 0 := by
      intro p o
      rw [← a13, h2 b, ← a9]; exact h1 p o
    refine ⟨fun _ _ => 0, 0, ⟨fun p o => by rw [h3], fun _ _ => le_refl _, fun _ _ _ => rfl, ?_, ?_⟩, le_refl _, ?_⟩
    · unfold gsum
      rw [Finset.sum_const_zero]
      omega
    · intro gen' _ _ _ p o h4
      exact absurd (h3 p o) h4
    · intro p o h
      rw [← hmid, h1] at h
      omega

/-- The operation of a step that does not store to a byte leaves its priority. -/
theorem keep_priority {t : EditTable} {mode : VideoMode} {s : Step} (h : StepOk t mode s) {p : Fin 32} {o : Fin 256}
    (hn : ¬ s.stores s.isAux p o) :
    s.after.priority s.isAux p o = s.pending t p o := by
  cases hp : s.padding with
  | false =>
    obtain ⟨page, offset, extra, hE, -, -⟩ := h.emit hp
    have hn : ¬(p = page ∧ o ∈ offset :: extra) := by
      rintro ⟨rfl, ho⟩
      exact hn ⟨rfl, hE.pageIx, (hE.mem o).mpr ho⟩
    rw [hE.prio, ← mid_priority h]
    unfold storeAll
    rw [if_neg (by rintro ⟨a, b⟩; exact hn ⟨a, List.mem_cons_of_mem _ b⟩)]
    unfold Grid.set
    rw [if_neg (by rintro ⟨rfl, rfl⟩; exact hn ⟨rfl, List.mem_cons_self⟩)]
  | true =>
    obtain ⟨-, h1, -, h2, -⟩ := h.pad hp
    rw [h2, mid_priority h]

/-- ... and the other bank is not touched at all. -/
theorem keep_other {t : EditTable} {mode : VideoMode} {s : Step} (h : StepOk t mode s) :
    s.after.priority (!s.isAux) = s.before.priority (!s.isAux) := by
  have h0 : (s.mid t).priority (!s.isAux) = s.before.priority (!s.isAux) := by
    unfold Step.mid
    split
    · next hf => rw [priority_set_ne, h.first hf]
    · rfl
  cases hp : s.padding with
  | false =>
    obtain ⟨page, offset, extra, hE, -, -⟩ := h.emit hp
    rw [hE.prioOther, h0]
  | true =>
    obtain ⟨-, -, -, h2, -⟩ := h.pad hp
    rw [h2, h0]

/-- The invariant along a history. -/
theorem fair_run {t : EditTable} {mode : VideoMode} {W w : Nat} (hW : ∀ k i, (t k i).toNat ≤ W) (hs : Symmetric mode.cls.maskedBits t)
    (hw : 0 < w) (b : Bool) (p : Fin 32) (o : Fin 256) (calls : List Call) : ∀ {e e' : Enc} {tr : List Step} {k : Nat} {g : Grid Int} {x : Int},
    EInv t mode e → (∀ c ∈ calls, c.Legal mode) → e.run t calls = .ok (e', tr) → Pot t e b g x →
    ((k * w : Nat) : Int) ≤ e.v.priority b p o →
    (∀ s ∈ tr, ¬ s.stores b p o) →
    (∀ s ∈ tr, s.isAux = b → s.first = true → w ≤ weight mode t (banks s.before.pixelmap) (banks s.target) b p o) →
    ((w * ranked b k tr : Nat) : Int) ≤ x + ((7680 * W * begun b tr : Nat) : Int) := by
  induction calls with
  | nil =>
    intro e e' tr k g x he hl hr hp hk h1 h2
    cases hr
    have : 0 ≤ gsum g Finset.univ := Finset.sum_nonneg fun c _ => hp.nonneg c.1 c.2
    have := hp.sum
    simp only [ranked, begun, List.countP_nil]
    push_cast
    linarith
  | cons c cs ih =>
    intro e e' tr k g x he hl hr hp hk h1 h2
    cases c with
    | start tgt a =>
      obtain ⟨tr', hr2, rfl⟩ := run_cons_inv (e1 := { e with gen := some (.notStarted tgt a) }) (s := []) rfl hr
      refine ih (e := { e with gen := some (.notStarted tgt a) }) (g := g) ⟨he.vmode, he.valid, he.holes, he.clean, he.prio, hl _ List.mem_cons_self⟩
        (fun c hc => hl c (List.mem_cons_of_mem _ hc)) hr2 ⟨hp.le, hp.nonneg, hp.zero, hp.sum, ?_⟩ hk h1 h2
      intro gen hg hn
      cases hg
      exact absurd hn (by simp [Gen.isNew])
    | reset =>
      obtain ⟨tr', hr2, rfl⟩ := run_cons_inv (e1 := { e with v := { e.v with outOfWork := fun _ => false } }) (s := []) rfl hr
      refine ih (e := { e with v := { e.v with outOfWork := fun _ => false } }) (g := g) ⟨he.vmode, he.valid, he.holes, he.clean, he.prio, he.gen.congr rfl rfl rfl (fun _ => rfl)⟩
        (fun c hc => hl c (List.mem_cons_of_mem _ hc)) hr2 ⟨hp.le, hp.nonneg, hp.zero, hp.sum, ?_⟩ hk h1 h2
      exact hp.cur
    | pull =>
      cases hg : e.gen with
      | none =>
        exfalso
        unfold Enc.run Enc.call at hr
        simp only [hg, bind, Except.bind] at hr
        cases hr
      | some gen =>
        obtain ⟨e1, s, g1, a1, a2, a3, a4, a5, a6, a7, a8, a9, a10, a11, a12, a13, a14, a15, -, -⟩ := pull_ok he hg
        obtain ⟨tr', hr2, rfl⟩ := run_cons_inv a1 hr
        have hm : s ∈ [s] ++ tr' := by simp
        have h1' : ∀ s ∈ tr', ¬ s.stores b p o := fun s hs => h1 s (by simp [hs])
        have h2' : ∀ s ∈ tr', s.isAux = b → s.first = true → w ≤ weight mode t (banks s.before.pixelmap) (banks s.target) b p o :=
          fun s hs => h2 s (by simp [hs])
        have hl' := fun c hc => hl c (List.mem_cons_of_mem _ hc)
        by_cases hb : gen.isAux = b
        · subst hb
          obtain ⟨g', y, q1, q2, q3⟩ := pot_pull hW hs he hg a1 hp
          have hk1 : (((if s.first then k + 1 else k) * w : Nat) : Int) ≤ s.pending t p o := by
            unfold Step.pending
            cases hf : s.first with
            | true =>
              have h3 := h2 s hm a9 hf
              simp only [if_true]
              unfold Step.startPriority
              rw [a3.startMode, ← a3.first hf, a9, a12]
              rw [a12] at h3
              rw [if_neg (by omega), Nat.add_mul]
              push_cast at hk ⊢
              omega
            | false =>
              simp only [Bool.false_eq_true, if_false]
              rw [a9, a12]; exact hk
          have hk2 : (((if s.first then k + 1 else k) * w : Nat) : Int) ≤ e1.v.priority gen.isAux p o := by
            rw [← a13, ← a9, keep_priority a3 (by rw [a9]; exact h1 s hm)]
            exact hk1
          have hy : (((if s.first then k + 1 else k) * w : Nat) : Int) ≤ y := by
            by_cases h0 : 0 < s.pending t p o
            · exact le_trans hk1 (q3 p o h0)
            · omega
          have := ih a2 hl' hr2 q1 hk2 h1' h2'
          simp only [List.singleton_append, ranked, a9, if_true, begun, List.countP_cons, beq_self_eq_true, Bool.true_and]
          unfold begun at this
          rw [Nat.mul_add, Nat.mul_comm w]
          push_cast at this hy ⊢
          cases hf : s.first <;> simp only [hf, if_true, Bool.false_eq_true, if_false] at this hy ⊢ <;> linarith
        · have hb' : b = !s.isAux := by rw [a9]; cases b <;> cases h : gen.isAux <;> simp_all
          have hpr : e1.v.priority b = e.v.priority b := by
            rw [hb', ← a13, ← a12]; exact keep_other a3
          have hsb : s.isAux ≠ b := by rw [a9]; exact hb
          have := ih (k := k) a2 hl' hr2 (g := g) (x := x) ⟨?_, hp.nonneg, ?_, hp.sum, ?_⟩ (by rw [hpr]; exact hk) h1' h2'
          · simpa [List.singleton_append, ranked, hsb, begun, List.countP_cons] using this
          · rw [hpr]; exact hp.le
          · rw [hpr]; exact hp.zero
          · intro gen' h3 _ h4
            rw [a4] at h3; cases h3
            exact absurd (a6 ▸ h4) hb

end IIVision
