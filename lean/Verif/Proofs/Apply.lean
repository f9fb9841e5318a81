import Verif.Proofs.Bitmap

/-! `Bitmap.apply` keeps a bitmap equal to a fresh build of its memory. -/

namespace IIVision

def hgrBytes (m : Mem) : Bytes := fun p c k =>
  if k = 0 then m p (evenOff c) else if k = 1 then m p (oddOff c) else 0

def dhgrBytes (main aux : Mem) : Bytes := fun p c k =>
  if k = 0 then aux p (evenOff c) else if k = 1 then main p (evenOff c)
  else if k = 2 then aux p (oddOff c) else if k = 3 then main p (oddOff c) else 0

theorem hgrBody_eq (m : Mem) (a : Option Mem) :
    hgr.body m a = .ok fun p c => hgrBodyOf (hgrBytes m p c) := rfl

theorem dhgrBody_eq (m a : Mem) :
    dhgr.body m (some a) = .ok fun p c => dhgrBodyOf (dhgrBytes m a p c) := rfl

theorem even_or_odd (o : Fin 256) :
    (o.val % 2 = 0 ∧ o = evenOff ⟨o.val / 2, by omega⟩) ∨
    (o.val % 2 = 1 ∧ o = oddOff ⟨o.val / 2, by omega⟩) := by
  unfold evenOff oddOff
  rcases Nat.mod_two_eq_zero_or_one o.val with h | h
  · exact Or.inl ⟨h, Fin.ext (by show o.val = 2 * (o.val / 2); omega)⟩
  · exact Or.inr ⟨h, Fin.ext (by show o.val = 2 * (o.val / 2) + 1; omega)⟩

theorem evenOff_inj {c c' : Fin 128} : evenOff c = evenOff c' ↔ c = c' := by
  unfold evenOff; simp only [Fin.ext_iff]; omega
theorem oddOff_inj {c c' : Fin 128} : oddOff c = oddOff c' ↔ c = c' := by
  unfold oddOff; simp only [Fin.ext_iff]; omega
theorem evenOff_ne_oddOff {c c' : Fin 128} : evenOff c ≠ oddOff c' := by
  unfold evenOff oddOff; simp only [ne_eq, Fin.ext_iff]; omega

theorem hgrBytes_even (m : Mem) (p : Fin 32) (c : Fin 128) (v : U8) :
    hgrBytes (Grid.set m p (evenOff c) v) = updBytes (hgrBytes m) p c 0 v := by
  funext p' c' k
  unfold updBytes updB hgrBytes Grid.set
  simp only [evenOff_inj, evenOff_ne_oddOff.symm, and_false, if_false]
  by_cases h : p' = p ∧ c' = c
  · simp only [h, and_self, if_true]
    by_cases h0 : k = 0 <;> simp [h0]
  · simp only [h, if_false]

theorem hgrBytes_odd (m : Mem) (p : Fin 32) (c : Fin 128) (v : U8) :
    hgrBytes (Grid.set m p (oddOff c) v) = updBytes (hgrBytes m) p c 1 v := by
  funext p' c' k
  unfold updBytes updB hgrBytes Grid.set
  simp only [oddOff_inj, evenOff_ne_oddOff, and_false, if_false]
  by_cases h : p' = p ∧ c' = c
  · simp only [h, and_self, if_true]
    by_cases h0 : k = 0
    · simp [h0]
    · by_cases h1 : k = 1 <;> simp [h0, h1]
  · simp only [h, if_false]

theorem dhgrBytes_main_even (m a : Mem) (p : Fin 32) (c : Fin 128) (v : U8) :
    dhgrBytes (Grid.set m p (evenOff c) v) a = updBytes (dhgrBytes m a) p c 1 v := by
  funext p' c' k
  unfold updBytes updB dhgrBytes Grid.set
  simp only [evenOff_inj, evenOff_ne_oddOff.symm, and_false, if_false]
  by_cases h : p' = p ∧ c' = c
  · simp only [h, and_self, if_true]
    by_cases h0 : k = 0 <;> by_cases h1 : k = 1 <;> simp [h0, h1]
  · simp only [h, if_false]

theorem dhgrBytes_main_odd (m a : Mem) (p : Fin 32) (c : Fin 128) (v : U8) :
    dhgrBytes (Grid.set m p (oddOff c) v) a = updBytes (dhgrBytes m a) p c 3 v := by
  funext p' c' k
  unfold updBytes updB dhgrBytes Grid.set
  simp only [oddOff_inj, evenOff_ne_oddOff, and_false, if_false]
  by_cases h : p' = p ∧ c' = c
  · simp only [h, and_self, if_true]
    by_cases h3 : k = 3
    · subst h3; simp
    · simp [h3]
  · simp only [h, if_false]

theorem dhgrBytes_aux_even (m a : Mem) (p : Fin 32) (c : Fin 128) (v : U8) :
    dhgrBytes m (Grid.set a p (evenOff c) v) = updBytes (dhgrBytes m a) p c 0 v := by
  funext p' c' k
  unfold updBytes updB dhgrBytes Grid.set
  simp only [evenOff_inj, evenOff_ne_oddOff.symm, and_false, if_false]
  by_cases h : p' = p ∧ c' = c
  · simp only [h, and_self, if_true]
    by_cases h0 : k = 0 <;> simp [h0]
  · simp only [h, if_false]

theorem dhgrBytes_aux_odd (m a : Mem) (p : Fin 32) (c : Fin 128) (v : U8) :
    dhgrBytes m (Grid.set a p (oddOff c) v) = updBytes (dhgrBytes m a) p c 2 v := by
  funext p' c' k
  unfold updBytes updB dhgrBytes Grid.set
  simp only [oddOff_inj, evenOff_ne_oddOff, and_false, if_false]
  by_cases h : p' = p ∧ c' = c
  · simp only [h, and_self, if_true]
    by_cases h2 : k = 2
    · subst h2; simp
    · simp [h2]
  · simp only [h, if_false]

theorem MemoryMap.write_ok (m : MemoryMap) (h : m.screenPage = 1) (p : Fin 32) (o : Fin 256)
    (v : U8) : m.write (p.val : Nat) (o.val : Nat) v
      = .ok { m with pageOffset := Grid.set m.pageOffset p o v } := by
  unfold MemoryMap.write MemoryMap.pageStart
  rw [h]
  have e : ((p.val : Int) - ((32 * 1 : Nat) : Int)) = (p.val : Int) - 32 := by omega
  rw [e, npIndex_neg (n := 32) (by omega) (by omega), npIndex_nat o.2]
  have : (⟨((p.val : Int) - 32 + (32 : Nat)).toNat, by omega⟩ : Fin 32) = p := Fin.ext (by
    show ((p.val : Int) - 32 + (32 : Nat)).toNat = p.val; omega)
  simp only [this, bind, Except.bind, pure, Except.pure]

theorem hgr_new (m : MemoryMap) : Bitmap.new hgr m none
    = .ok ⟨m, none, packOf hgr hgrBodyOf (hgrBytes m.pageOffset)⟩ := rfl
theorem dhgr_new (m a : MemoryMap) : Bitmap.new dhgr m (some a)
    = .ok ⟨m, some a, packOf dhgr dhgrBodyOf (dhgrBytes m.pageOffset a.pageOffset)⟩ := rfl

theorem apply_main_hgr (b : Bitmap) (hv : b.Valid .HGR) (p : Fin 32) (o : Fin 256) (v : U8) :
    ∃ b', b.apply hgr p o false v = .ok b' ∧ b'.Valid .HGR ∧
      b'.main.pageOffset = Grid.set b.main.pageOffset p o v := by
  obtain ⟨main, aux, packed⟩ := b
  have ha : aux = none := by
    have := hv.auxSome; simp at this; exact this
  subst ha
  have hp : packed = packOf hgr hgrBodyOf (hgrBytes main.pageOffset) := by
    have := hv.fresh
    change Bitmap.new hgr main none = _ at this
    rw [hgr_new] at this
    simp at this; exact this.symm
  subst hp
  have hm : main.screenPage = 1 := hv.mainPage
  unfold Bitmap.apply
  have hc : o.val / 2 < 128 := by omega
  simp only [npIndex_nat p.2, npIndex_nat hc, bind, Except.bind, MemoryMap.write_ok main hm p o v]
  refine ⟨⟨{ main with pageOffset := Grid.set main.pageOffset p o v }, none,
    packOf hgr hgrBodyOf (hgrBytes (Grid.set main.pageOffset p o v))⟩, ?_, ⟨hm, ?_, rfl, rfl⟩, rfl⟩
  · rcases even_or_odd o with ⟨h, he⟩ | ⟨h, he⟩
    · have hk : hgr.byteOffset o.val false = .ok 0 := by
        show hgrByteOffset _ _ = _
        unfold hgrByteOffset; simp [pyAssert, bind, Except.bind, pure, Except.pure, h]
      rw [hk]
      simp only [pure, Except.pure]
      rw [store_pack hgr_lawful _ _ _ _ (by decide), ← hgrBytes_even, ← he]
      simp
    · have hk : hgr.byteOffset o.val false = .ok 1 := by
        show hgrByteOffset _ _ = _
        unfold hgrByteOffset; simp [pyAssert, bind, Except.bind, pure, Except.pure, h]
      rw [hk]
      simp only [pure, Except.pure]
      rw [store_pack hgr_lawful _ _ _ _ (by decide), ← hgrBytes_odd, ← he]
      simp
  · intro a ha; cases ha

theorem apply_dhgr (b : Bitmap) (hv : b.Valid .DHGR) (p : Fin 32) (o : Fin 256) (isAux : Bool)
    (v : U8) :
    ∃ b', b.apply dhgr p o isAux v = .ok b' ∧ b'.Valid .DHGR ∧
      b'.bank isAux = Grid.set (b.bank isAux) p o v ∧ b'.bank (!isAux) = b.bank (!isAux) := by
  obtain ⟨main, aux, packed⟩ := b
  obtain ⟨aux, rfl⟩ : ∃ a, aux = some a := by
    have := hv.auxSome; simp [Option.isSome_iff_exists] at this; exact this
  have hp : packed = packOf dhgr dhgrBodyOf (dhgrBytes main.pageOffset aux.pageOffset) := by
    have := hv.fresh
    change Bitmap.new dhgr main (some aux) = _ at this
    rw [dhgr_new] at this
    simp at this; exact this.symm
  subst hp
  have hm : main.screenPage = 1 := hv.mainPage
  have ha : aux.screenPage = 1 := hv.auxPage aux rfl
  unfold Bitmap.apply
  have hc : o.val / 2 < 128 := by omega
  simp only [npIndex_nat p.2, npIndex_nat hc, bind, Except.bind, MemoryMap.write_ok main hm p o v,
    MemoryMap.write_ok aux ha p o v]
  cases isAux
  · refine ⟨⟨{ main with pageOffset := Grid.set main.pageOffset p o v }, some aux,
      packOf dhgr dhgrBodyOf (dhgrBytes (Grid.set main.pageOffset p o v) aux.pageOffset)⟩, ?_,
      ⟨hm, ?_, rfl, rfl⟩, rfl, rfl⟩
    · rcases even_or_odd o with ⟨h, he⟩ | ⟨h, he⟩
      · have hk : dhgr.byteOffset o.val false = .ok 1 := by
          show dhgrByteOffset _ _ = _
          unfold dhgrByteOffset; simp [h]
        rw [hk]
        simp only [pure, Except.pure]
        rw [store_pack dhgr_lawful _ _ _ _ (by decide), ← dhgrBytes_main_even, ← he]
        simp
      · have hk : dhgr.byteOffset o.val false = .ok 3 := by
          show dhgrByteOffset _ _ = _
          unfold dhgrByteOffset; simp [h]
        rw [hk]
        simp only [pure, Except.pure]
        rw [store_pack dhgr_lawful _ _ _ _ (by decide), ← dhgrBytes_main_odd, ← he]
        simp
    · intro a' h; cases h; exact ha
  · refine ⟨⟨main, some { aux with pageOffset := Grid.set aux.pageOffset p o v },
      packOf dhgr dhgrBodyOf (dhgrBytes main.pageOffset (Grid.set aux.pageOffset p o v))⟩, ?_,
      ⟨hm, ?_, rfl, rfl⟩, rfl, rfl⟩
    · rcases even_or_odd o with ⟨h, he⟩ | ⟨h, he⟩
      · have hk : dhgr.byteOffset o.val true = .ok 0 := by
          show dhgrByteOffset _ _ = _
          unfold dhgrByteOffset; simp [h]
        rw [hk]
        simp only [pure, Except.pure]
        rw [store_pack dhgr_lawful _ _ _ _ (by decide), ← dhgrBytes_aux_even, ← he]
        simp
      · have hk : dhgr.byteOffset o.val true = .ok 2 := by
          show dhgrByteOffset _ _ = _
          unfold dhgrByteOffset; simp [h]
        rw [hk]
        simp only [pure, Except.pure]
        rw [store_pack dhgr_lawful _ _ _ _ (by decide), ← dhgrBytes_aux_odd, ← he]
        simp
    · intro a' h; cases h; exact ha

/-- Mode-independent summary of a store. -/
theorem apply_ok {mode : VideoMode} (b : Bitmap) (hv : b.Valid mode) (p : Fin 32) (o : Fin 256)
    (isAux : Bool) (hx : isAux = true → mode = .DHGR) (v : U8) :
    ∃ b', b.apply mode.cls p o isAux v = .ok b' ∧ b'.Valid mode ∧
      b'.bank isAux = Grid.set (b.bank isAux) p o v ∧ b'.bank (!isAux) = b.bank (!isAux) := by
  cases mode with
  | DHGR => exact apply_dhgr b hv p o isAux v
  | HGR =>
    cases isAux with
    | true => exact absurd (hx rfl) (by decide)
    | false =>
      obtain ⟨b', h1, h2, h3⟩ := apply_main_hgr b hv p o v
      refine ⟨b', h1, h2, h3, ?_⟩
      have a1 := hv.auxSome; have a2 := h2.auxSome
      simp at a1 a2
      simp [Bitmap.bank, a1, a2]

theorem new_valid (mode : VideoMode) (main : MemoryMap) (aux : Option MemoryMap) (b : Bitmap)
    (hm : main.screenPage = 1) (ha : ∀ a, aux = some a → a.screenPage = 1)
    (hs : aux.isSome = decide (mode = .DHGR)) (h : Bitmap.new mode.cls main aux = .ok b) :
    b.Valid mode ∧ b.main = main ∧ b.aux = aux := by
  have hb : b.main = main ∧ b.aux = aux := by
    unfold Bitmap.new at h
    cases hbd : mode.cls.body main.pageOffset (aux.map (·.pageOffset)) with
    | error e => rw [hbd] at h; cases h
    | ok body => rw [hbd] at h; cases h; exact ⟨rfl, rfl⟩
  refine ⟨⟨by rw [hb.1, hm], by rw [hb.2]; exact ha, by rw [hb.2]; exact hs, ?_⟩, hb⟩
  rw [hb.1, hb.2]; exact h

end IIVision
