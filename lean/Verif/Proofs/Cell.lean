import Verif.Proofs.Diff

/-! Masked cells of valid bitmaps are the specified windows. -/

namespace IIVision
open BitVec Spec
set_option linter.unusedSimpArgs false

theorem hgr_hd_eq (m : Mem) (p : Fin 32) (c : Fin 128) :
    hd hgr hgrBodyOf (hgrBytes m) p c
      = hgrMakeHeader (hgrBodyCol 0 (if c = 0 then 0 else m p (oddOff (c - 1)))) := by
  unfold hd
  by_cases h : c = 0
  · rw [if_pos h, if_pos h]; decide
  · rw [if_neg h, if_neg h]; exact hgr_header_body _ _ _

theorem hgr_ft_eq (m : Mem) (p : Fin 32) (c : Fin 128) :
    ft hgr hgrBodyOf (hgrBytes m) p c
      = hgrMakeFooter (hgrBodyCol (if c = 127 then 0 else m p (evenOff (c + 1))) 0) := by
  unfold ft
  by_cases h : c = 127
  · rw [if_pos h, if_pos h]; decide
  · rw [if_neg h, if_neg h]; exact hgr_footer_body _ _ _

theorem dhgr_hd_eq (m a : Mem) (p : Fin 32) (c : Fin 128) :
    hd dhgr dhgrBodyOf (dhgrBytes m a) p c
      = dhgrMakeHeader (dhgrBodyCol 0 0 0 (if c = 0 then 0 else m p (oddOff (c - 1)))) := by
  unfold hd
  by_cases h : c = 0
  · rw [if_pos h, if_pos h]; decide
  · rw [if_neg h, if_neg h]; exact dhgr_header_body _ _ _ _ _ _ _

theorem dhgr_ft_eq (m a : Mem) (p : Fin 32) (c : Fin 128) :
    ft dhgr dhgrBodyOf (dhgrBytes m a) p c
      = dhgrMakeFooter (dhgrBodyCol (if c = 127 then 0 else a p (evenOff (c + 1))) 0 0 0) := by
  unfold ft
  by_cases h : c = 127
  · rw [if_pos h, if_pos h]; decide
  · rw [if_neg h, if_neg h]; exact dhgr_footer_body _ _ _ _ _ _ _

theorem before_even (row : Fin 256 → U8) (c : Fin 128) :
    before row (evenOff c) = if c = 0 then 0 else row (oddOff (c - 1)) := by
  unfold before
  by_cases h : c = 0
  · subst h; rw [if_pos rfl, if_pos (show (evenOff 0).val = 0 from rfl)]
  · have hc : c.val ≠ 0 := fun h' => h (Fin.ext h')
    rw [if_neg h, if_neg (by unfold evenOff; simp; omega)]
    congr 1
    apply Fin.ext
    unfold evenOff oddOff
    rw [Fin.val_sub]; simp only [Fin.val_sub]; simp; omega

theorem before_odd (row : Fin 256 → U8) (c : Fin 128) :
    before row (oddOff c) = row (evenOff c) := by
  unfold before
  rw [if_neg (by unfold oddOff; simp)]
  congr 1
  apply Fin.ext
  unfold evenOff oddOff
  rw [Fin.val_sub]; simp; omega

theorem after_even (row : Fin 256 → U8) (c : Fin 128) :
    after row (evenOff c) = row (oddOff c) := by
  unfold after
  rw [if_neg (by unfold evenOff; simp; omega)]
  congr 1
  apply Fin.ext
  unfold evenOff oddOff
  rw [Fin.val_add]; simp; omega

theorem after_odd (row : Fin 256 → U8) (c : Fin 128) :
    after row (oddOff c) = if c = 127 then 0 else row (evenOff (c + 1)) := by
  unfold after
  by_cases h : c = 127
  · subst h; rw [if_pos rfl, if_pos (show (oddOff 127).val = 255 from rfl)]
  · have hc : c.val ≠ 127 := fun h' => h (Fin.ext h')
    rw [if_neg h, if_neg (by unfold oddOff; simp; omega)]
    congr 1
    apply Fin.ext
    unfold evenOff oddOff
    rw [Fin.val_add]; simp only [Fin.val_add]; simp; omega

theorem even_or_odd' (o : Fin 256) :
    (o.val % 2 = 0 ∧ o = evenOff (colOf o)) ∨ (o.val % 2 = 1 ∧ o = oddOff (colOf o)) :=
  even_or_odd o

/-- Packed array of a valid bitmap. -/
theorem valid_packed_hgr {b : Bitmap} (hv : b.Valid .HGR) :
    b.packed = packOf hgr hgrBodyOf (hgrBytes (b.bank false)) := by
  obtain ⟨main, aux, packed⟩ := b
  have ha : aux = none := by have := hv.auxSome; simp at this; exact this
  subst ha
  have := hv.fresh
  change Bitmap.new hgr main none = _ at this
  rw [hgr_new] at this
  simp at this; exact this.symm

theorem valid_packed_dhgr {b : Bitmap} (hv : b.Valid .DHGR) :
    b.packed = packOf dhgr dhgrBodyOf (dhgrBytes (b.bank false) (b.bank true)) := by
  obtain ⟨main, aux, packed⟩ := b
  obtain ⟨aux, rfl⟩ : ∃ a, aux = some a := by
    have := hv.auxSome; simp [Option.isSome_iff_exists] at this; exact this
  have := hv.fresh
  change Bitmap.new dhgr main (some aux) = _ at this
  rw [dhgr_new] at this
  simp at this; exact this.symm

theorem evenOff_mod (c : Fin 128) : (evenOff c).val % 2 = 0 := by unfold evenOff; simp
theorem oddOff_mod (c : Fin 128) : (oddOff c).val % 2 = 1 := by unfold oddOff; simp
theorem colOf_even (c : Fin 128) : colOf (evenOff c) = c := by
  apply Fin.ext; unfold evenOff colOf; simp
theorem colOf_odd (c : Fin 128) : colOf (oddOff c) = c := by
  apply Fin.ext; unfold oddOff colOf; simp; omega

theorem cell_window {mode : VideoMode} {b : Bitmap} (hv : b.Valid mode) {isAux : Bool}
    (hx : AuxOk mode isAux) (p : Fin 32) (o : Fin 256) :
    HasBits (mode.cell b.packed isAux p o)
      (window mode (b.bank false) (b.bank true) isAux p o) := by
  cases mode with
  | HGR =>
    cases isAux with
    | true => exact absurd (hx rfl) (by decide)
    | false =>
      rw [valid_packed_hgr hv]
      unfold VideoMode.cell
      rw [packOf_eq, hgr_hd_eq, hgr_ft_eq]
      generalize b.bank false = m
      rcases even_or_odd' o with ⟨h, he⟩ | ⟨h, he⟩
      · generalize hc : colOf o = c at *
        subst he
        have hk : VideoMode.HGR.kOf false (evenOff c).val = 0 := h
        rw [hk]
        show HasBits _ (hgrWindow ((evenOff c).val % 2 == 1) _ _ _)
        rw [h, before_even, after_even]
        exact hgr_window0 _ _ _ _
      · generalize hc : colOf o = c at *
        subst he
        have hk : VideoMode.HGR.kOf false (oddOff c).val = 1 := h
        rw [hk]
        show HasBits _ (hgrWindow ((oddOff c).val % 2 == 1) _ _ _)
        rw [h, before_odd, after_odd]
        exact hgr_window1 _ _ _ _
  | DHGR =>
    rw [valid_packed_dhgr hv]
    unfold VideoMode.cell
    rw [packOf_eq, dhgr_hd_eq, dhgr_ft_eq]
    generalize b.bank false = m
    generalize b.bank true = a
    rcases even_or_odd' o with ⟨h, he⟩ | ⟨h, he⟩
    · generalize hc : colOf o = c at *
      subst he
      cases isAux with
      | true =>
        have hk : VideoMode.DHGR.kOf true (evenOff c).val = 0 := by simp [VideoMode.kOf, h]
        rw [hk]
        show HasBits _ (dhgrWindow (before (m p) (evenOff c)) _ _)
        rw [before_even]
        exact dhgr_window0 _ _ _ _ _ _
      | false =>
        have hk : VideoMode.DHGR.kOf false (evenOff c).val = 1 := by simp [VideoMode.kOf, h]
        rw [hk]
        show HasBits _ (dhgrWindow _ _ (after (a p) (evenOff c)))
        rw [after_even]
        exact dhgr_window1 _ _ _ _ _ _
    · generalize hc : colOf o = c at *
      subst he
      cases isAux with
      | true =>
        have hk : VideoMode.DHGR.kOf true (oddOff c).val = 2 := by simp [VideoMode.kOf, h]
        rw [hk]
        show HasBits _ (dhgrWindow (before (m p) (oddOff c)) _ _)
        rw [before_odd]
        exact dhgr_window2 _ _ _ _ _ _
      | false =>
        have hk : VideoMode.DHGR.kOf false (oddOff c).val = 3 := by simp [VideoMode.kOf, h]
        rw [hk]
        show HasBits _ (dhgrWindow _ _ (after (a p) (oddOff c)))
        rw [after_odd]
        exact dhgr_window3 _ _ _ _ _ _

theorem fixScalar_self (C : Cls) (a : Packed) (p : Fin 32) (c : Fin 128) (k : Nat) :
    C.fixScalarNeighbours a p c k p c = a p c := by
  unfold Cls.fixScalarNeighbours
  split
  · unfold Packed.set; rw [if_neg]; rintro ⟨-, h⟩; exact fin_sub_one_ne c h.symm
  · split
    · unfold Packed.set; rw [if_neg]; rintro ⟨-, h⟩; exact fin_add_one_ne c h.symm
    · rfl

/-- Packed array after a successful store. -/
theorem apply_packed {mode : VideoMode} {isAux : Bool} (hx : AuxOk mode isAux) (b b' : Bitmap)
    (p : Fin 32) (o : Fin 256) (v : U8) (h : b.apply mode.cls p o isAux v = .ok b') :
    b'.packed = mode.cls.fixScalarNeighbours
      (Packed.set b.packed p (colOf o)
        (mode.cls.maskedUpdate (mode.kOf isAux o) (b.packed p (colOf o)) v))
      p (colOf o) (mode.kOf isAux o) := by
  unfold Bitmap.apply at h
  have hc : o.val / 2 < 128 := by omega
  simp only [byteOffset_ok hx, npIndex_nat p.2, npIndex_nat hc, bind, Except.bind, pure,
    Except.pure] at h
  cases isAux with
  | true =>
    simp only [if_true] at h
    cases ha : b.aux with
    | none => rw [ha] at h; cases h
    | some a =>
      rw [ha] at h
      simp only at h
      cases hw : a.write (p.val : Nat) (o.val : Nat) v with
      | error e => rw [hw] at h; cases h
      | ok a' => rw [hw] at h; cases h; rfl
  | false =>
    simp only [Bool.false_eq_true, if_false] at h
    cases hw : b.main.write (p.val : Nat) (o.val : Nat) v with
    | error e => rw [hw] at h; cases h
    | ok a' => rw [hw] at h; cases h; rfl

theorem apply_cell {mode : VideoMode} {isAux : Bool} (hx : AuxOk mode isAux) (b b' : Bitmap)
    (p : Fin 32) (o : Fin 256) (v : U8) (h : b.apply mode.cls p o isAux v = .ok b') :
    mode.cell b'.packed isAux p o = mode.cellWith b.packed isAux p o v := by
  unfold VideoMode.cell VideoMode.cellWith
  rw [apply_packed hx b b' p o v h, fixScalar_self]
  unfold Packed.set
  rw [if_pos ⟨rfl, rfl⟩]

theorem cellWith_window {mode : VideoMode} {b : Bitmap} (hv : b.Valid mode) {isAux : Bool}
    (hx : AuxOk mode isAux) (p : Fin 32) (o : Fin 256) (v : U8) :
    HasBits (mode.cellWith b.packed isAux p o v)
      (window mode (if isAux then b.bank false else Grid.set (b.bank false) p o v)
        (if isAux then Grid.set (b.bank true) p o v else b.bank true) isAux p o) := by
  obtain ⟨b', h1, h2, h3, h4⟩ := apply_ok b hv p o isAux hx v
  have := cell_window h2 hx p o
  rw [apply_cell hx b b' p o v h1] at this
  cases isAux
  · simp at h3 h4 ⊢; rw [h3, h4] at this; exact this
  · simp at h3 h4 ⊢; rw [h3, h4] at this; exact this

theorem window_length (mode : VideoMode) (m a : Mem) (isAux : Bool) (p : Fin 32) (o : Fin 256) :
    (window mode m a isAux p o).length = mode.cls.maskedBits := by
  cases mode with
  | HGR =>
    show (hgrWindow _ _ _ _).length = 14
    unfold hgrWindow; split <;> rfl
  | DHGR => cases isAux <;> rfl

/-- Two cells have equal masked values iff their windows coincide. -/
theorem cell_eq_iff {mode : VideoMode} {b b' : Bitmap} (hv : b.Valid mode) (hv' : b'.Valid mode)
    {isAux : Bool} (hx : AuxOk mode isAux) (p : Fin 32) (o : Fin 256) :
    mode.cell b.packed isAux p o = mode.cell b'.packed isAux p o ↔
      window mode (b.bank false) (b.bank true) isAux p o
        = window mode (b'.bank false) (b'.bank true) isAux p o := by
  have h1 := cell_window hv hx p o
  have h2 := cell_window hv' hx p o
  constructor
  · intro h
    rw [h] at h1
    refine h1.unique h2 (by rw [window_length, window_length]) ?_
    rw [window_length]; have := maskedBits_le mode; omega
  · intro h
    rw [h] at h1
    exact h1.inj h2

/-- Storing the target's own byte gives back the target's window. -/
theorem cellWith_own {mode : VideoMode} {b : Bitmap} (hv : b.Valid mode) {isAux : Bool}
    (hx : AuxOk mode isAux) (p : Fin 32) (o : Fin 256) :
    mode.cellWith b.packed isAux p o (b.bank isAux p o) = mode.cell b.packed isAux p o := by
  have h1 := cellWith_window hv hx p o (b.bank isAux p o)
  have h2 := cell_window hv hx p o
  have hset : ∀ m : Mem, Grid.set m p o (m p o) = m := by
    intro m; funext p' o'; unfold Grid.set; split
    · rename_i h; rw [h.1, h.2]
    · rfl
  cases isAux
  · simp only [hset, Bool.false_eq_true, if_false] at h1; exact h1.inj h2
  · simp only [hset, if_true] at h1; exact h1.inj h2

end IIVision
