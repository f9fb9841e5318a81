import Verif.Proofs.Bits
import Verif.Proofs.Screen
import Verif.Spec.Bitmap

/-! The incremental packed representation equals a fresh pack: generic argument for
both bitmap classes. -/

namespace IIVision

/-- Replace byte `k`. -/
def updB (bs : Nat → U8) (k : Nat) (v : U8) : Nat → U8 := fun k' => if k' = k then v else bs k'

/-- What the generic argument needs to know about a bitmap class with `n` bytes per
column, footer at bit `fb`, and column body `bodyOf`. -/
structure Lawful (C : Cls) (n fb : Nat) (bodyOf : (Nat → U8) → U64) : Prop where
  two : 2 ≤ n
  len : C.byteMasks.length = n
  hdr : ∀ x, HdrLike (C.makeHeader x)
  ftr : ∀ x, FtrLike fb (C.makeFooter x)
  hdrDep : ∀ bs bs', bs (n - 1) = bs' (n - 1) →
    C.makeHeader (bodyOf bs) = C.makeHeader (bodyOf bs')
  ftrDep : ∀ bs bs', bs 0 = bs' 0 → C.makeFooter (bodyOf bs) = C.makeFooter (bodyOf bs')
  mu : ∀ h f bs k v, HdrLike h → FtrLike fb f → k < n →
    C.maskedUpdate k (h ^^^ bodyOf bs ^^^ f) v = h ^^^ bodyOf (updB bs k v) ^^^ f
  fixL : ∀ h f bs h' f' bs', HdrLike h → FtrLike fb f → HdrLike h' → FtrLike fb f' →
    C.fixColumnLeft (h ^^^ bodyOf bs ^^^ f) (h' ^^^ bodyOf bs' ^^^ f')
      = h ^^^ bodyOf bs ^^^ C.makeFooter (bodyOf bs')
  fixR : ∀ h f bs h' f' bs', HdrLike h → FtrLike fb f → HdrLike h' → FtrLike fb f' →
    C.fixColumnRight (h ^^^ bodyOf bs ^^^ f) (h' ^^^ bodyOf bs' ^^^ f')
      = C.makeHeader (bodyOf bs') ^^^ bodyOf bs ^^^ f

/-- Column bytes of HGR / DHGR memory, by byte offset within the column. -/
def hgrBodyOf (bs : Nat → U8) : U64 := hgrBodyCol (bs 0) (bs 1)
def dhgrBodyOf (bs : Nat → U8) : U64 := dhgrBodyCol (bs 0) (bs 1) (bs 2) (bs 3)

theorem hgr_lawful : Lawful hgr 2 19 hgrBodyOf where
  two := by decide
  len := rfl
  hdr := hgr_hdrLike
  ftr := hgr_ftrLike
  hdrDep := by
    intro bs bs' h
    show hgrMakeHeader (hgrBodyCol _ _) = hgrMakeHeader (hgrBodyCol _ _)
    have h : bs 1 = bs' 1 := h
    rw [h]; exact hgr_header_body _ _ _
  ftrDep := by
    intro bs bs' h
    show hgrMakeFooter (hgrBodyCol _ _) = hgrMakeFooter (hgrBodyCol _ _)
    rw [h]; exact hgr_footer_body _ _ _
  mu := by
    intro h f bs k v hh hf hk
    have : k = 0 ∨ k = 1 := by omega
    rcases this with rfl | rfl
    · exact hgr_mu0 hh hf _ _ _
    · exact hgr_mu1 hh hf _ _ _
  fixL := by
    intro h f bs h' f' bs' hh hf hh' hf'
    show ((h ^^^ hgrBodyCol _ _ ^^^ f) &&& BitVec.ofNat 64 (2 ^ (3 + 16) - 1)) ^^^
      hgrMakeFooter (h' ^^^ hgrBodyCol _ _ ^^^ f') = _
    rw [hgr_clear_footer hh hf, hgr_footer_col hh' hf']; rfl
  fixR := by
    intro h f bs h' f' bs' hh hf hh' hf'
    show ((h ^^^ hgrBodyCol _ _ ^^^ f) &&& (BitVec.ofNat 64 (2 ^ (16 + 3) - 1) <<< 3)) ^^^
      hgrMakeHeader (h' ^^^ hgrBodyCol _ _ ^^^ f') = _
    rw [hgr_clear_header hh hf, hgr_header_col hh' hf', BitVec.xor_comm]
    exact (BitVec.xor_assoc _ _ _).symm

theorem dhgr_lawful : Lawful dhgr 4 31 dhgrBodyOf where
  two := by decide
  len := rfl
  hdr := dhgr_hdrLike
  ftr := dhgr_ftrLike
  hdrDep := by
    intro bs bs' h
    show dhgrMakeHeader (dhgrBodyCol _ _ _ _) = dhgrMakeHeader (dhgrBodyCol _ _ _ _)
    have h : bs 3 = bs' 3 := h
    rw [h]; exact dhgr_header_body _ _ _ _ _ _ _
  ftrDep := by
    intro bs bs' h
    show dhgrMakeFooter (dhgrBodyCol _ _ _ _) = dhgrMakeFooter (dhgrBodyCol _ _ _ _)
    rw [h]; exact dhgr_footer_body _ _ _ _ _ _ _
  mu := by
    intro h f bs k v hh hf hk
    have H := dhgr_mu hh hf (bs 0) (bs 1) (bs 2) (bs 3) v
    have : k = 0 ∨ k = 1 ∨ k = 2 ∨ k = 3 := by omega
    rcases this with rfl | rfl | rfl | rfl
    · exact H.1
    · exact H.2.1
    · exact H.2.2.1
    · exact H.2.2.2
  fixL := by
    intro h f bs h' f' bs' hh hf hh' hf'
    show ((h ^^^ dhgrBodyCol _ _ _ _ ^^^ f) &&& BitVec.ofNat 64 (2 ^ (3 + 28) - 1)) ^^^
      dhgrMakeFooter (h' ^^^ dhgrBodyCol _ _ _ _ ^^^ f') = _
    rw [dhgr_clear_footer hh hf, dhgr_footer_col hh' hf']; rfl
  fixR := by
    intro h f bs h' f' bs' hh hf hh' hf'
    show ((h ^^^ dhgrBodyCol _ _ _ _ ^^^ f) &&& (BitVec.ofNat 64 (2 ^ (28 + 3) - 1) <<< 3)) ^^^
      dhgrMakeHeader (h' ^^^ dhgrBodyCol _ _ _ _ ^^^ f') = _
    rw [dhgr_clear_header hh hf, dhgr_header_col hh' hf', BitVec.xor_comm]
    exact (BitVec.xor_assoc _ _ _).symm

section generic
variable {C : Cls} {n fb : Nat} {bodyOf : (Nat → U8) → U64}

/-- Bytes of the whole screen by page, column and byte offset. -/
abbrev Bytes := Fin 32 → Fin 128 → Nat → U8

def updBytes (B : Bytes) (p : Fin 32) (c : Fin 128) (k : Nat) (v : U8) : Bytes :=
  fun p' c' => if p' = p ∧ c' = c then updB (B p' c') k v else B p' c'

def packOf (C : Cls) (bodyOf : (Nat → U8) → U64) (B : Bytes) : Packed :=
  C.packBody fun p c => bodyOf (B p c)

def hd (C : Cls) (bodyOf : (Nat → U8) → U64) (B : Bytes) (p : Fin 32) (c : Fin 128) : U64 :=
  if c = 0 then 0#64 else C.makeHeader (bodyOf (B p (c - 1)))
def ft (C : Cls) (bodyOf : (Nat → U8) → U64) (B : Bytes) (p : Fin 32) (c : Fin 128) : U64 :=
  if c = 127 then 0#64 else C.makeFooter (bodyOf (B p (c + 1)))

theorem packOf_eq (B : Bytes) (p : Fin 32) (c : Fin 128) :
    packOf C bodyOf B p c = hd C bodyOf B p c ^^^ bodyOf (B p c) ^^^ ft C bodyOf B p c := rfl

theorem hd_like (L : Lawful C n fb bodyOf) (B : Bytes) (p c) : HdrLike (hd C bodyOf B p c) := by
  unfold hd; split
  · exact hdrLike_zero
  · exact L.hdr _
theorem ft_like (L : Lawful C n fb bodyOf) (B : Bytes) (p c) : FtrLike fb (ft C bodyOf B p c) := by
  unfold ft; split
  · exact ftrLike_zero _
  · exact L.ftr _

theorem hd_upd (L : Lawful C n fb bodyOf) (B : Bytes) (p p' : Fin 32) (c c' : Fin 128) (k : Nat)
    (v : U8) (h : ¬ (p' = p ∧ c' - 1 = c ∧ c' ≠ 0 ∧ k = n - 1)) :
    hd C bodyOf (updBytes B p c k v) p' c' = hd C bodyOf B p' c' := by
  unfold hd
  split
  · rfl
  · rename_i hc
    apply L.hdrDep
    unfold updBytes
    split
    · rename_i hh
      unfold updB
      rw [if_neg]
      intro hk
      exact h ⟨hh.1, hh.2, hc, hk.symm⟩
    · rfl

theorem ft_upd (L : Lawful C n fb bodyOf) (B : Bytes) (p p' : Fin 32) (c c' : Fin 128) (k : Nat)
    (v : U8) (h : ¬ (p' = p ∧ c' + 1 = c ∧ c' ≠ 127 ∧ k = 0)) :
    ft C bodyOf (updBytes B p c k v) p' c' = ft C bodyOf B p' c' := by
  unfold ft
  split
  · rfl
  · rename_i hc
    apply L.ftrDep
    unfold updBytes
    split
    · rename_i hh
      unfold updB
      rw [if_neg]
      intro hk
      exact h ⟨hh.1, hh.2, hc, hk.symm⟩
    · rfl

theorem body_upd_same (B : Bytes) (p : Fin 32) (c : Fin 128) (k : Nat) (v : U8) :
    updBytes B p c k v p c = updB (B p c) k v := by
  unfold updBytes; rw [if_pos ⟨rfl, rfl⟩]

theorem body_upd_other (B : Bytes) (p p' : Fin 32) (c c' : Fin 128) (k : Nat) (v : U8)
    (h : ¬ (p' = p ∧ c' = c)) : updBytes B p c k v p' c' = B p' c' := by
  unfold updBytes; rw [if_neg h]

theorem fin_sub_one_add (c : Fin 128) : c - 1 + 1 = c := by
  apply Fin.ext; rw [Fin.val_add, Fin.val_sub]; simp; omega
theorem fin_add_one_sub (c : Fin 128) : c + 1 - 1 = c := by
  apply Fin.ext; rw [Fin.val_sub, Fin.val_add]; simp; omega
theorem fin_sub_one_ne (c : Fin 128) : c - 1 ≠ c := by
  intro h; have := congrArg Fin.val h; rw [Fin.val_sub] at this; simp at this; omega
theorem fin_add_one_ne (c : Fin 128) : c + 1 ≠ c := by
  intro h; have := congrArg Fin.val h; rw [Fin.val_add] at this; simp at this; omega

/-- The incremental update of one store keeps the packed array a fresh pack. -/
theorem store_pack (L : Lawful C n fb bodyOf) (B : Bytes) (p : Fin 32) (c : Fin 128) (k : Nat)
    (hk : k < n) (v : U8) :
    C.fixScalarNeighbours
      (Packed.set (packOf C bodyOf B) p c (C.maskedUpdate k (packOf C bodyOf B p c) v)) p c k
      = packOf C bodyOf (updBytes B p c k v) := by
  have two := L.two
  have hsb : C.screenBytes - 1 = n - 1 := by unfold Cls.screenBytes; rw [L.len]
  -- the array after the masked update
  have hX : ∀ p' c', Packed.set (packOf C bodyOf B) p c (C.maskedUpdate k (packOf C bodyOf B p c) v) p' c'
      = hd C bodyOf B p' c' ^^^ bodyOf (updBytes B p c k v p' c') ^^^ ft C bodyOf B p' c' := by
    intro p' c'
    unfold Packed.set
    split
    · rename_i h; obtain ⟨rfl, rfl⟩ := h
      rw [packOf_eq, L.mu _ _ _ _ _ (hd_like L _ _ _) (ft_like L _ _ _) hk, body_upd_same]
    · rename_i h; rw [packOf_eq, body_upd_other _ _ _ _ _ _ _ h]
  generalize Packed.set (packOf C bodyOf B) p c (C.maskedUpdate k (packOf C bodyOf B p c) v) = X at *
  funext p' c'
  rw [packOf_eq]
  unfold Cls.fixScalarNeighbours
  rw [hsb]
  split
  · -- left neighbour
    rename_i h
    obtain ⟨rfl, hc⟩ := h
    have hc127 : c - 1 ≠ 127 := by
      intro he; have := congrArg Fin.val he; rw [Fin.val_sub] at this; simp at this; omega
    unfold Packed.set
    rw [hd_upd L _ _ _ _ _ _ _ (fun h => by have := h.2.2.2; omega)]
    by_cases h : p' = p ∧ c' = c - 1
    · rw [if_pos h]
      obtain ⟨rfl, rfl⟩ := h
      have h1 := hX p' (c - 1)
      have h2 := hX p' c
      rw [h1, h2, L.fixL _ _ _ _ _ _ (hd_like L _ _ _) (ft_like L _ _ _) (hd_like L _ _ _)
        (ft_like L _ _ _)]
      congr 1
      unfold ft
      rw [if_neg hc127, fin_sub_one_add]
    · rw [if_neg h]
      have h1 := hX p' c'
      rw [h1]
      congr 1
      rw [ft_upd L]
      rintro ⟨rfl, h2, -, -⟩
      apply h
      refine ⟨rfl, ?_⟩
      rw [← h2, fin_add_one_sub]
  · rename_i hL
    split
    · rename_i h
      obtain ⟨rfl, hc⟩ := h
      have hc0 : c + 1 ≠ 0 := by
        intro he; have := congrArg Fin.val he; rw [Fin.val_add] at this; simp at this; omega
      unfold Packed.set
      rw [ft_upd L _ _ _ _ _ _ _ (fun h => by have := h.2.2.2; omega)]
      by_cases h : p' = p ∧ c' = c + 1
      · rw [if_pos h]
        obtain ⟨rfl, rfl⟩ := h
        have h1 := hX p' (c + 1)
        have h2 := hX p' c
        rw [h1, h2, L.fixR _ _ _ _ _ _ (hd_like L _ _ _) (ft_like L _ _ _) (hd_like L _ _ _)
          (ft_like L _ _ _)]
        congr 2
        unfold hd
        rw [if_neg hc0, fin_add_one_sub]
      · rw [if_neg h]
        have h1 := hX p' c'
        rw [h1]
        congr 2
        rw [hd_upd L]
        rintro ⟨rfl, h2, -, -⟩
        apply h
        refine ⟨rfl, ?_⟩
        rw [← h2, fin_sub_one_add]
    · rename_i hR
      rw [hX]
      congr 1
      · congr 1
        rw [hd_upd L]
        rintro ⟨-, h2, h3, h4⟩
        apply hR
        refine ⟨h4, ?_⟩
        have : c'.val ≠ 0 := fun h => h3 (Fin.ext h)
        have := congrArg Fin.val h2; rw [Fin.val_sub] at this; simp at this; omega
      · rw [ft_upd L]
        rintro ⟨-, h2, h3, h4⟩
        apply hL
        refine ⟨h4, ?_⟩
        have : c'.val ≠ 127 := fun h => h3 (Fin.ext h)
        have := congrArg Fin.val h2; rw [Fin.val_add] at this; simp at this; omega

end generic

end IIVision
