import Verif.Props.Colours
import Verif.Props.Video

/-! Property C57 (the generated distance tables) and its consequences for C13, C17, C18. -/

namespace IIVision
open Spec

/-- `t` is the table the encoder of mode `mode` loads for palette `p` after the generator
has been run with colour difference `deltaE`. -/
def Loaded (deltaE : RGB → RGB → Int) (dm0 : Nat → Nat → Int) (mode : VideoMode) (p : Palette)
    (t : EditTable) : Prop :=
  ∃ files, makeDataTables deltaE dm0 = .ok files ∧ mode.loadEditDistances files p = .ok t

theorem computeEditDistance_mode (mode : VideoMode) {edp : EditDistanceParams} (he : EdpOk edp)
    (nominal : Colour → Nat) (hn : nominal = mode.colourValue) :
    mode.computeEditDistance edp nominal = .ok (mode.cls.generated (genFn mode edp)) := by
  subst hn
  exact computeEditDistance_ok mode he

/-- The four files the generator leaves behind. -/
theorem makeDataTables_ok {deltaE : RGB → RGB → Int} (hd : ColourDifference deltaE)
    (dm0 : Nat → Nat → Int) :
    ∃ e1 e2, EdpOk e1 ∧ EdpOk e2 ∧ e1 = computeSubstituteCosts deltaE iigsRGB dm0 {} ∧
      e2 = computeSubstituteCosts deltaE ntscRGB dm0 e1 ∧
      makeDataTables deltaE dm0 = .ok
        [(VideoMode.DHGR.dataFileWritten .NTSC, dhgr.generated (genFn .DHGR e2)),
         (VideoMode.HGR.dataFileWritten .NTSC, hgr.generated (genFn .HGR e2)),
         (VideoMode.DHGR.dataFileWritten .IIGS, dhgr.generated (genFn .DHGR e1)),
         (VideoMode.HGR.dataFileWritten .IIGS, hgr.generated (genFn .HGR e1))] := by
  have h1 := edpOk_costs hd iigsRGB dm0 edpOk_init
  have h2 := edpOk_costs hd ntscRGB dm0 h1
  refine ⟨_, _, h1, h2, rfl, rfl, ?_⟩
  unfold makeDataTables palettes
  rw [List.foldlM_cons]
  dsimp only
  rw [computeEditDistance_mode .HGR h1 hgrValue rfl]
  dsimp only [bind, Except.bind]
  rw [computeEditDistance_mode .DHGR h1 dhgrValue rfl]
  dsimp only [pure, Except.pure]
  rw [List.foldlM_cons]
  dsimp only
  rw [computeEditDistance_mode .HGR h2 hgrValue rfl]
  dsimp only [bind, Except.bind]
  rw [computeEditDistance_mode .DHGR h2 dhgrValue rfl]
  rfl

theorem decText_small (n : Nat) (h : n < 10) : decText n = [48 + n] := by
  rw [decText, if_pos h]

theorem intText_shipped : intText Palette.IIGS.value = [48] ∧ intText Palette.NTSC.value = [53] := by
  constructor
  · show decText 0 = [48]; exact decText_small 0 (by omega)
  · show decText 5 = [53]; exact decText_small 5 (by omega)

theorem read_hgr_iigs : VideoMode.HGR.dataFileRead .IIGS
    = txt "transcoder/data/HGR_palette_0_edit_distance.npz" := by
  unfold VideoMode.dataFileRead; rw [intText_shipped.1]; decide
theorem read_hgr_ntsc : VideoMode.HGR.dataFileRead .NTSC
    = txt "transcoder/data/HGR_palette_5_edit_distance.npz" := by
  unfold VideoMode.dataFileRead; rw [intText_shipped.2]; decide
theorem read_dhgr_iigs : VideoMode.DHGR.dataFileRead .IIGS
    = txt "transcoder/data/DHGR_palette_0_edit_distance.npz" := by
  unfold VideoMode.dataFileRead; rw [intText_shipped.1]; decide
theorem read_dhgr_ntsc : VideoMode.DHGR.dataFileRead .NTSC
    = txt "transcoder/data/DHGR_palette_5_edit_distance.npz" := by
  unfold VideoMode.dataFileRead; rw [intText_shipped.2]; decide

theorem written_eq_read (mode : VideoMode) (p : Palette) :
    mode.dataFileWritten p = mode.dataFileRead p := by
  unfold VideoMode.dataFileWritten VideoMode.dataFileRead dataDir
  rw [show txt "transcoder/data" ++ txt "/" = txt "transcoder/data/" by decide]

/-- The loaded table in closed form. -/
theorem loaded_form {deltaE : RGB → RGB → Int} (hd : ColourDifference deltaE)
    (dm0 : Nat → Nat → Int) (mode : VideoMode) {p : Palette} {rgb : Colour → RGB}
    (hp : (p, rgb) ∈ palettes) :
    ∃ edp0 edp, EdpOk edp ∧ edp = computeSubstituteCosts deltaE rgb dm0 edp0 ∧
      Loaded deltaE dm0 mode p (mode.cls.editDistances (mode.cls.generated (genFn mode edp))) ∧
      ∀ t, Loaded deltaE dm0 mode p t →
        t = mode.cls.editDistances (mode.cls.generated (genFn mode edp)) := by
  obtain ⟨e1, e2, h1, h2, f1, f2, hm⟩ := makeDataTables_ok hd dm0
  have key : ∀ (edp0 edp : EditDistanceParams), EdpOk edp →
      edp = computeSubstituteCosts deltaE rgb dm0 edp0 →
      (∀ files, makeDataTables deltaE dm0 = .ok files → mode.loadEditDistances files p
        = .ok (mode.cls.editDistances (mode.cls.generated (genFn mode edp)))) →
      ∃ edp0 edp, EdpOk edp ∧ edp = computeSubstituteCosts deltaE rgb dm0 edp0 ∧
      Loaded deltaE dm0 mode p (mode.cls.editDistances (mode.cls.generated (genFn mode edp))) ∧
      ∀ t, Loaded deltaE dm0 mode p t →
        t = mode.cls.editDistances (mode.cls.generated (genFn mode edp)) := by
    intro edp0 edp ho he hl
    refine ⟨edp0, edp, ho, he, ⟨_, hm, hl _ hm⟩, ?_⟩
    rintro t ⟨files, g1, g2⟩
    rw [hl files g1] at g2
    exact (Except.ok.inj g2).symm
  have n1 : (txt "transcoder/data/DHGR_palette_5_edit_distance.npz"
      == txt "transcoder/data/DHGR_palette_0_edit_distance.npz") = false := by decide
  have n2 : (txt "transcoder/data/HGR_palette_5_edit_distance.npz"
      == txt "transcoder/data/DHGR_palette_0_edit_distance.npz") = false := by decide
  have n3 : (txt "transcoder/data/DHGR_palette_5_edit_distance.npz"
      == txt "transcoder/data/HGR_palette_0_edit_distance.npz") = false := by decide
  have n4 : (txt "transcoder/data/HGR_palette_5_edit_distance.npz"
      == txt "transcoder/data/HGR_palette_0_edit_distance.npz") = false := by decide
  have n5 : (txt "transcoder/data/DHGR_palette_0_edit_distance.npz"
      == txt "transcoder/data/HGR_palette_0_edit_distance.npz") = false := by decide
  have n6 : (txt "transcoder/data/DHGR_palette_5_edit_distance.npz"
      == txt "transcoder/data/HGR_palette_5_edit_distance.npz") = false := by decide
  rcases List.mem_cons.mp hp with h | h
  · obtain ⟨rfl, rfl⟩ := Prod.mk.inj h
    refine key _ e1 h1 f1 ?_
    intro files hf
    rw [hm] at hf
    rw [← Except.ok.inj hf]
    unfold VideoMode.loadEditDistances
    simp only [written_eq_read, List.find?_cons]
    cases mode with
    | HGR => rw [read_hgr_iigs, read_hgr_ntsc, read_dhgr_iigs, read_dhgr_ntsc, n3, n4, n5]; simp; rfl
    | DHGR => rw [read_dhgr_iigs, read_hgr_ntsc, read_dhgr_ntsc, n1, n2]; simp; rfl
  · obtain h := List.mem_singleton.mp h
    obtain ⟨rfl, rfl⟩ := Prod.mk.inj h
    refine key _ e2 h2 f2 ?_
    intro files hf
    rw [hm] at hf
    rw [← Except.ok.inj hf]
    unfold VideoMode.loadEditDistances
    simp only [written_eq_read, List.find?_cons]
    cases mode with
    | HGR => rw [read_hgr_ntsc, read_dhgr_ntsc, n6]; simp; rfl
    | DHGR => simp; rfl

/-- Characters of a mode's colours are priced by difference of the priced colours. -/
theorem charCost_priced (mode : VideoMode) {deltaE : RGB → RGB → Int} (hd : ColourDifference deltaE)
    (rgb : Colour → RGB) (dm0 : Nat → Nat → Int) (edp0 : EditDistanceParams) (x y : Colour) :
    charCost (computeSubstituteCosts deltaE rgb dm0 edp0).substituteCosts
      (chOf (mode.colourValue x)) (chOf (mode.colourValue y))
      = deltaE (rgb (priced mode x)) (rgb (priced mode y)) := by
  unfold charCost
  cases mode with
  | HGR => exact substituteCosts_get deltaE hd.symm rgb dm0 edp0 x y
  | DHGR =>
    show (computeSubstituteCosts deltaE rgb dm0 edp0).substituteCosts
      (chOf (dhgrValue x)).toNat (chOf (dhgrValue y)).toNat = _
    rw [dhgrValue_mispriced, dhgrValue_mispriced]
    exact substituteCosts_get deltaE hd.symm rgb dm0 edp0 _ _

theorem strOf_eq {mode : VideoMode} {v k ph : Nat} {l : List Colour}
    (h : WindowColours mode v k ph l) :
    strOf mode v k ph = l.map fun c => chOf (mode.colourValue c) := by
  unfold strOf; rw [windowString_eq h]

theorem ch_inj (mode : VideoMode) (x y : Colour)
    (h : chOf (mode.colourValue x) = chOf (mode.colourValue y)) : x = y :=
  value_inj (isTable_mode mode) (chOf_inj (value_lt (isTable_mode mode) x)
    (value_lt (isTable_mode mode) y) (congrArg Char.toNat h))

theorem genVal_spec (mode : VideoMode) {deltaE : RGB → RGB → Int} (hd : ColourDifference deltaE)
    {rgb : Colour → RGB} {dm0 : Nat → Nat → Int} {edp0 edp : EditDistanceParams} (ho : EdpOk edp)
    (he : edp = computeSubstituteCosts deltaE rgb dm0 edp0) {k ph x y : Nat} {lx ly : List Colour}
    (hph : mode.cls.phases[k]? = some ph) (hx : WindowColours mode x k ph lx)
    (hy : WindowColours mode y k ph ly) :
    Cheapest (fun c c' => deltaE (rgb (priced mode c)) (rgb (priced mode c'))) lx ly
      ((genVal mode edp k x y).toNat : Int) := by
  have hp : mode.cls.phases.getD k 0 = ph := by rw [List.getD_eq_getElem?_getD, hph]; rfl
  unfold genVal
  rw [hp, strOf_eq hx, strOf_eq hy]
  obtain ⟨h1, h2, h3⟩ := strDist_spec ho (maskedDots_le mode)
    (a := lx.map fun c => chOf (mode.colourValue c)) (b := ly.map fun c => chOf (mode.colourValue c))
    (by simp [hx.len]) (by simp [hy.len])
  have e : ((BitVec.ofInt 16 (strDist edp (lx.map fun c => chOf (mode.colourValue c))
      (ly.map fun c => chOf (mode.colourValue c)))).toNat : Int)
      = strDist edp (lx.map fun c => chOf (mode.colourValue c))
      (ly.map fun c => chOf (mode.colourValue c)) := by
    rw [BitVec.toNat_ofInt]
    generalize strDist edp _ _ = d at *
    omega
  rw [e]
  have hc : (fun c c' => deltaE (rgb (priced mode c)) (rgb (priced mode c')))
      = fun c c' => charCost edp.substituteCosts (chOf (mode.colourValue c)) (chOf (mode.colourValue c')) := by
    funext c c'
    rw [he, charCost_priced mode hd]
  rw [hc]
  refine ⟨(Rewrite.map _ (ch_inj mode)).mp h1.1, ?_⟩
  intro c h
  exact h1.2 c ((Rewrite.map _ (ch_inj mode)).mpr h)

/-! ### C57 -/

/-- C57: for any colour difference in range the generator finishes (its 16-bit assertion never
fails), the encoder finds the file for every mode and shipped palette, and the loaded distance
of two masked values is the price of the cheapest way of turning one's row of pixel colours
into the other's by recolouring pixels (at the difference of the colours they are priced as)
and swapping neighbours (at price 1). -/
theorem C57_cheapest_rewriting (deltaE : RGB → RGB → Int) (hd : ColourDifference deltaE)
    (dm0 : Nat → Nat → Int) (mode : VideoMode) (p : Palette) (rgb : Colour → RGB)
    (hp : (p, rgb) ∈ palettes) :
    ∃ files t, makeDataTables deltaE dm0 = .ok files ∧ mode.loadEditDistances files p = .ok t ∧
      ∀ k ph, mode.cls.phases[k]? = some ph → ∀ x y, x < 2 ^ mode.cls.maskedBits →
        y < 2 ^ mode.cls.maskedBits → ∃ dx dy lx ly,
          mode.toDots (BitVec.ofNat 64 x) k = .ok dx ∧ mode.toDots (BitVec.ofNat 64 y) k = .ok dy ∧
          dotsToNominalColourPixels mode.cls.maskedDots dx.toNat mode.colourValue ph = .ok lx ∧
          dotsToNominalColourPixels mode.cls.maskedDots dy.toNat mode.colourValue ph = .ok ly ∧
          Cheapest (fun c c' => deltaE (rgb (priced mode c)) (rgb (priced mode c'))) lx ly
            ((t k (x * 2 ^ mode.cls.maskedBits + y)).toNat : Int) := by
  obtain ⟨edp0, edp, ho, he, ⟨files, g1, g2⟩, -⟩ := loaded_form hd dm0 mode hp
  refine ⟨files, _, g1, g2, ?_⟩
  intro k ph hph x y hx hy
  have hkl : k < mode.cls.phases.length := (List.getElem?_eq_some_iff.mp hph).1
  obtain ⟨lx, wx⟩ := windowColours_ok mode x k ph hx
  obtain ⟨ly, wy⟩ := windowColours_ok mode y k ph hy
  obtain ⟨dx, a1, a2⟩ := wx.px
  obtain ⟨dy, b1, b2⟩ := wy.px
  refine ⟨dx, dy, lx, ly, a1, b1, a2, b2, ?_⟩
  have hsym : ∀ c c', (fun c c' => deltaE (rgb (priced mode c)) (rgb (priced mode c'))) c c'
      = (fun c c' => deltaE (rgb (priced mode c)) (rgb (priced mode c'))) c' c := fun c c' => hd.symm _ _
  obtain ⟨t1, t2, t3, -⟩ := C12_table_symmetric mode.cls (genFn mode edp) k x y hx hy
  rcases Nat.lt_trichotomy y x with h | h | h
  · rw [t3 h]
    unfold genFn
    rw [if_pos ⟨hkl, hx⟩]
    exact genVal_spec mode hd ho he hph wx wy
  · subst h
    rw [t2]
    have : lx = ly := by
      rw [a1] at b1; cases b1
      rw [a2] at b2; cases b2; rfl
    subst this
    exact ⟨Rewrite.refl _, fun c hc => Rewrite.nonneg (fun _ _ => hd.nonneg _ _) hc⟩
  · rw [t1, (C12_table_symmetric mode.cls (genFn mode edp) k y x hy hx).2.2.1 h]
    unfold genFn
    rw [if_pos ⟨hkl, hy⟩]
    exact Cheapest.symm hsym (genVal_spec mode hd ho he hph wy wx)

/-- What a zero distance means. -/
theorem loaded_zero {deltaE : RGB → RGB → Int} (hd : ColourDifference deltaE) (hs : Separates deltaE)
    {dm0 : Nat → Nat → Int} {mode : VideoMode} {p : Palette} {rgb : Colour → RGB}
    (hp : (p, rgb) ∈ palettes) {t : EditTable} (ht : Loaded deltaE dm0 mode p t)
    {k ph x y : Nat} (hph : mode.cls.phases[k]? = some ph) (hx : x < 2 ^ mode.cls.maskedBits)
    (hy : y < 2 ^ mode.cls.maskedBits) {lx ly : List Colour} (wx : WindowColours mode x k ph lx)
    (wy : WindowColours mode y k ph ly) :
    t k (x * 2 ^ mode.cls.maskedBits + y) = 0 ↔
      lx.map (fun c => rgb (priced mode c)) = ly.map (fun c => rgb (priced mode c)) := by
  obtain ⟨files, t', g1, g2, h⟩ := C57_cheapest_rewriting deltaE hd dm0 mode p rgb hp
  obtain ⟨files', g1', g2'⟩ := ht
  rw [g1] at g1'; cases g1'
  rw [g2] at g2'; cases g2'
  obtain ⟨dx, dy, lx', ly', a1, b1, a2, b2, hc⟩ := h k ph hph x y hx hy
  obtain ⟨dx', a1', a2'⟩ := wx.px
  obtain ⟨dy', b1', b2'⟩ := wy.px
  rw [a1] at a1'; cases a1'
  rw [b1] at b1'; cases b1'
  rw [a2] at a2'; cases a2'
  rw [b2] at b2'; cases b2'
  have hlen : lx.length = ly.length := wx.len.trans wy.len.symm
  have hz : t k (x * 2 ^ mode.cls.maskedBits + y) = 0 ↔
      ((t k (x * 2 ^ mode.cls.maskedBits + y)).toNat : Int) = 0 := by
    constructor
    · intro h; rw [h]; rfl
    · intro h
      apply BitVec.eq_of_toNat_eq
      show _ = 0
      omega
  rw [hz]
  constructor
  · intro h0
    have := Rewrite.zero (cost := fun c c' => deltaE (rgb (priced mode c)) (rgb (priced mode c')))
      (fun _ _ => hd.nonneg _ _) (fun _ => (hs _ _).mpr rfl) hc.1 h0
    apply List.ext_getElem
    · simp [hlen]
    · intro n h1 h2
      rw [List.getElem_map, List.getElem_map]
      exact (hs _ _).mp (this n (by simpa using h1) (by simpa using h2))
  · intro he
    have hr : Rewrite (fun c c' => deltaE (rgb (priced mode c)) (rgb (priced mode c'))) lx ly 0 := by
      apply Rewrite.of_zero _ _ hlen
      intro n h1 h2
      have := congrArg (·[n]?) he
      simp only [List.getElem?_map, List.getElem?_eq_getElem h1, List.getElem?_eq_getElem h2,
        Option.map_some] at this
      exact (hs _ _).mpr (Option.some.inj this)
    exact Int.le_antisymm (hc.2 0 hr) (by omega)

/-- The mispricing of DHGR colours merges exactly the colours that look alike anyway. -/
theorem priced_rgb (mode : VideoMode) {p : Palette} {rgb : Colour → RGB} (hp : (p, rgb) ∈ palettes)
    (c c' : Colour) : rgb (priced mode c) = rgb (priced mode c') ↔ rgb c = rgb c' := by
  have h : ∀ c ∈ Colour.all, ∀ c' ∈ Colour.all,
      (iigsRGB (mispriced c) = iigsRGB (mispriced c') ↔ iigsRGB c = iigsRGB c') ∧
      (ntscRGB (mispriced c) = ntscRGB (mispriced c') ↔ ntscRGB c = ntscRGB c') := by decide +kernel
  cases mode with
  | HGR => exact Iff.rfl
  | DHGR =>
    rcases List.mem_cons.mp hp with e | e
    · obtain ⟨rfl, rfl⟩ := Prod.mk.inj e
      exact (h c (Colour.mem_all c) c' (Colour.mem_all c')).1
    · obtain ⟨rfl, rfl⟩ := Prod.mk.inj (List.mem_singleton.mp e)
      exact (h c (Colour.mem_all c) c' (Colour.mem_all c')).2

/-- C57 (zero distance): for every shipped palette and both modes the loaded distance of two
masked values is zero exactly if their pixels have the same RGB values, one by one. -/
theorem C57_zero_iff_looks_same (deltaE : RGB → RGB → Int) (hd : ColourDifference deltaE)
    (hs : Separates deltaE) (dm0 : Nat → Nat → Int) (mode : VideoMode) (p : Palette)
    (rgb : Colour → RGB) (hp : (p, rgb) ∈ palettes) (t : EditTable)
    (ht : Loaded deltaE dm0 mode p t) (k ph x y : Nat) (hph : mode.cls.phases[k]? = some ph)
    (hx : x < 2 ^ mode.cls.maskedBits) (hy : y < 2 ^ mode.cls.maskedBits) (dx dy : U64)
    (lx ly : List Colour)
    (h1 : mode.toDots (BitVec.ofNat 64 x) k = .ok dx) (h2 : mode.toDots (BitVec.ofNat 64 y) k = .ok dy)
    (h3 : dotsToNominalColourPixels mode.cls.maskedDots dx.toNat mode.colourValue ph = .ok lx)
    (h4 : dotsToNominalColourPixels mode.cls.maskedDots dy.toNat mode.colourValue ph = .ok ly) :
    t k (x * 2 ^ mode.cls.maskedBits + y) = 0 ↔ lx.map rgb = ly.map rgb := by
  obtain ⟨lx', wx⟩ := windowColours_ok mode x k ph hx
  obtain ⟨ly', wy⟩ := windowColours_ok mode y k ph hy
  obtain ⟨dx', a1', a2'⟩ := wx.px
  obtain ⟨dy', b1', b2'⟩ := wy.px
  rw [h1] at a1'; cases a1'
  rw [h2] at b1'; cases b1'
  rw [h3] at a2'; cases a2'
  rw [h4] at b2'; cases b2'
  rw [loaded_zero hd hs hp ht hph hx hy wx wy]
  have hl : lx.length = ly.length := wx.len.trans wy.len.symm
  constructor
  · intro h
    apply List.ext_getElem (by simp [hl])
    intro n h1 h2
    have := congrArg (·[n]?) h
    simp only [List.length_map] at h1 h2
    simp only [List.getElem?_map, List.getElem?_eq_getElem h1, List.getElem?_eq_getElem h2,
      Option.map_some] at this
    rw [List.getElem_map, List.getElem_map]
    exact (priced_rgb mode hp _ _).mp (Option.some.inj this)
  · intro h
    apply List.ext_getElem (by simp [hl])
    intro n h1 h2
    have := congrArg (·[n]?) h
    simp only [List.length_map] at h1 h2
    simp only [List.getElem?_map, List.getElem?_eq_getElem h1, List.getElem?_eq_getElem h2,
      Option.map_some] at this
    rw [List.getElem_map, List.getElem_map]
    exact (priced_rgb mode hp _ _).mpr (Option.some.inj this)

/-! ### C13 with the real tables -/

/-- C13: with the table generated for a shipped palette, the weight of a byte is zero exactly
if every colour shown in the byte's window has the same RGB value in source and target. -/
theorem C13_zero_iff_looks_same (deltaE : RGB → RGB → Int) (hd : ColourDifference deltaE)
    (hs : Separates deltaE) (dm0 : Nat → Nat → Int) {mode : VideoMode} (pal : Palette)
    (rgb : Colour → RGB) (hp : (pal, rgb) ∈ palettes) (t : EditTable)
    (ht : Loaded deltaE dm0 mode pal t) {src tgt : Bitmap} (hsv : src.Valid mode)
    (htv : tgt.Valid mode) {isAux : Bool} (hx : isAux = true → mode = .DHGR) (w : Grid Int)
    (hw : mode.cls.diffWeights t src.packed tgt.packed isAux = .ok w) (p : Fin 32) (o : Fin 256) :
    w p o = 0 ↔ ∀ n, n < mode.cls.maskedDots → ∀ c c',
      ShowsColour mode.colourValue (padDot mode (src.bank false) (src.bank true) p) 0
        (startDot mode isAux o + 1 + n) c →
      ShowsColour mode.colourValue (padDot mode (tgt.bank false) (tgt.bank true) p) 0
        (startDot mode isAux o + 1 + n) c' → rgb c = rgb c' := by
  obtain ⟨w', hw', hf⟩ := C13_diff_weights hsv htv hx t
  rw [hw] at hw'; cases hw'
  obtain ⟨k, hk, he⟩ := hf p o
  obtain ⟨k1, x, dx, lx, ph, a1, a2, a3, a4, a5, a6, a7⟩ := C08_window_colours hsv hx p o
  obtain ⟨k2, y, dy, ly, ph', b1, b2, b3, b4, b5, b6, b7⟩ := C08_window_colours htv hx p o
  rw [hk] at a1 b1; cases a1; cases b1
  rw [a4] at b4; cases b4
  have hkk : k = mode.kOf isAux o := by
    rw [byteOffset_ok hx o] at hk
    exact (Except.ok.inj hk).symm
  have ex : x.toNat = winVal mode (src.bank false) (src.bank true) isAux p o := by
    rw [hkk, maskAndShift_ok mode _ (kOf_lt mode isAux o)] at a2
    rw [← cell_toNat hsv hx]
    exact congrArg BitVec.toNat (Except.ok.inj a2).symm
  have ey : y.toNat = winVal mode (tgt.bank false) (tgt.bank true) isAux p o := by
    rw [hkk, maskAndShift_ok mode _ (kOf_lt mode isAux o)] at b2
    rw [← cell_toNat htv hx]
    exact congrArg BitVec.toNat (Except.ok.inj b2).symm
  have hlx := winVal_lt mode (src.bank false) (src.bank true) isAux p o
  have hly := winVal_lt mode (tgt.bank false) (tgt.bank true) isAux p o
  have hz : w p o = 0 ↔ t k (winVal mode (src.bank false) (src.bank true) isAux p o
        * 2 ^ mode.cls.maskedBits
        + winVal mode (tgt.bank false) (tgt.bank true) isAux p o) = 0 := by
    rw [he]
    constructor
    · intro h
      apply BitVec.eq_of_toNat_eq
      show _ = 0
      omega
    · intro h; rw [h]; rfl
  rw [hz, C57_zero_iff_looks_same deltaE hd hs dm0 mode pal rgb hp t ht k ph _ _ a4 hlx hly dx dy lx ly
    (by rw [← ex, BitVec.ofNat_toNat, BitVec.setWidth_eq]; exact a3)
    (by rw [← ey, BitVec.ofNat_toNat, BitVec.setWidth_eq]; exact b3) a5 b5]
  constructor
  · intro h n hn c c' hc hc'
    have e1 : c = lx[n]'(by omega) :=
      showsColour_unique (isTable_mode mode) hc (a7 n (by omega)) (fun _ _ _ => rfl)
    have e2 : c' = ly[n]'(by omega) :=
      showsColour_unique (isTable_mode mode) hc' (b7 n (by omega)) (fun _ _ _ => rfl)
    have := congrArg (·[n]?) h
    simp only [List.getElem?_map, List.getElem?_eq_getElem (show n < lx.length by omega),
      List.getElem?_eq_getElem (show n < ly.length by omega), Option.map_some] at this
    rw [e1, e2]
    exact Option.some.inj this
  · intro h
    apply List.ext_getElem (by simp [a6, b6])
    intro n h1 h2
    simp only [List.length_map] at h1 h2
    rw [List.getElem_map, List.getElem_map]
    exact h n (by omega) _ _ (a7 n h1) (b7 n h2)

/-! ### which tables tell all pictures apart -/

theorem iigs_injective (c c' : Colour) (h : iigsRGB c = iigsRGB c') : c = c' := by
  have : ∀ c ∈ Colour.all, ∀ c' ∈ Colour.all, iigsRGB c = iigsRGB c' → c = c' := by decide +kernel
  exact this c (Colour.mem_all c) c' (Colour.mem_all c') h

/-- In DHGR the row of colours determines the masked value. -/
theorem dhgr_colours_inj {x y k ph : Nat} (hx : x < 2 ^ 13) (hy : y < 2 ^ 13) {l : List Colour}
    (wx : WindowColours .DHGR x k ph l) (wy : WindowColours .DHGR y k ph l) : x = y := by
  have bits : ∀ v, v < 2 ^ 13 → WindowColours .DHGR v k ph l → ∀ q, q < 13 →
      v.testBit q = (dhgrValue (l.getD (min q 9) .BLACK)).testBit ((q + ph) % 4) := by
    intro v hv w q hq
    obtain ⟨d, h1, h2⟩ := w.px
    cases h1
    obtain ⟨m, g1, g2, g3⟩ := C09_sliding_window .DHGR 10 (BitVec.ofNat 64 v).toNat ph
    rw [show (10 : Nat) = VideoMode.DHGR.cls.maskedDots from rfl, h2] at g1
    cases g1
    have := g3 (min q 9) (by omega) q (by omega) (by omega)
    rw [BitVec.toNat_ofNat, Nat.mod_eq_of_lt (show v < 2 ^ 64 by omega)] at this
    rw [← this, List.getD_eq_getElem?_getD, List.getElem?_eq_getElem (by omega)]
    rfl
  apply Nat.eq_of_testBit_eq
  intro q
  by_cases hq : q < 13
  · rw [bits x hx wx q hq, bits y hy wy q hq]
  · rw [Nat.testBit_lt_two_pow (Nat.lt_of_lt_of_le hx (Nat.pow_le_pow_right (by omega) (by omega))),
      Nat.testBit_lt_two_pow (Nat.lt_of_lt_of_le hy (Nat.pow_le_pow_right (by omega) (by omega)))]

/-- C57 (IIGS, DHGR): the loaded table is zero only on the diagonal, so C17's exact agreement
in DHGR applies to it. -/
theorem C57_iigs_dhgr_separates (deltaE : RGB → RGB → Int) (hd : ColourDifference deltaE)
    (hs : Separates deltaE) (dm0 : Nat → Nat → Int) (t : EditTable)
    (ht : Loaded deltaE dm0 .DHGR .IIGS t) : DiagOnly dhgr t := by
  intro k a b hk ha hb
  have hp : (Palette.IIGS, iigsRGB) ∈ palettes := List.mem_cons_self
  obtain ⟨ph, hph⟩ : ∃ ph, VideoMode.DHGR.cls.phases[k]? = some ph :=
    ⟨_, List.getElem?_eq_getElem (show k < VideoMode.DHGR.cls.phases.length from hk)⟩
  obtain ⟨la, wa⟩ := windowColours_ok .DHGR a k ph ha
  obtain ⟨lb, wb⟩ := windowColours_ok .DHGR b k ph hb
  have h := loaded_zero hd hs hp ht hph ha hb wa wb
  refine Iff.trans h ?_
  constructor
  · intro he
    have hl : la = lb := by
      apply List.ext_getElem (wa.len.trans wb.len.symm)
      intro n h1 h2
      have := congrArg (·[n]?) he
      simp only [List.getElem?_map, List.getElem?_eq_getElem h1, List.getElem?_eq_getElem h2,
        Option.map_some] at this
      exact iigs_injective _ _ ((priced_rgb .DHGR hp _ _).mp (Option.some.inj this))
    subst hl
    exact dhgr_colours_inj ha hb wa wb
  · rintro rfl
    obtain ⟨d, h1, h2⟩ := wa.px
    obtain ⟨d', h1', h2'⟩ := wb.px
    rw [h1] at h1'; cases h1'
    rw [h2] at h2'; cases h2'
    rfl

/-- C57 (NTSC, DHGR; defect): the two greys have the same RGB value, so the loaded table gives
distance 0 to two opposite dot patterns; the project's own test for this table (zero only on
the diagonal) cannot pass. -/
theorem C57_ntsc_dhgr_confuses (deltaE : RGB → RGB → Int) (hd : ColourDifference deltaE)
    (hs : Separates deltaE) (dm0 : Nat → Nat → Int) (t : EditTable)
    (ht : Loaded deltaE dm0 .DHGR .NTSC t) :
    t 0 (0x1555 * 2 ^ 13 + 0x0aaa) = 0 ∧ ¬ DiagOnly dhgr t := by
  have hp : (Palette.NTSC, ntscRGB) ∈ palettes := List.mem_cons_of_mem _ List.mem_cons_self
  have h := (C57_zero_iff_looks_same deltaE hd hs dm0 .DHGR .NTSC ntscRGB hp t ht 0 1 0x1555 0x0aaa rfl
    (by decide) (by decide) 0x1555#64 0x0aaa#64 (List.replicate 10 .GREY1) (List.replicate 10 .GREY2)
    rfl rfl rfl rfl).mpr (by decide)
  refine ⟨h, ?_⟩
  intro hdiag
  have := (hdiag 0 0x1555 0x0aaa (by decide) (by decide) (by decide)).mp h
  exact absurd this (by decide)

/-- C57 (HGR): the palette bit of a black byte is invisible, so no HGR table is zero only on the
diagonal. -/
theorem C57_hgr_confuses (deltaE : RGB → RGB → Int) (hd : ColourDifference deltaE)
    (hs : Separates deltaE) (dm0 : Nat → Nat → Int) (p : Palette) (rgb : Colour → RGB)
    (hp : (p, rgb) ∈ palettes) (t : EditTable) (ht : Loaded deltaE dm0 .HGR p t) :
    t 0 (0x400 * 2 ^ 14 + 0) = 0 ∧ ¬ DiagOnly hgr t := by
  have h := (C57_zero_iff_looks_same deltaE hd hs dm0 .HGR p rgb hp t ht 0 1 0x400 0 rfl
    (by decide) (by decide) 0#64 0#64 (List.replicate 18 .BLACK) (List.replicate 18 .BLACK)
    (by decide +kernel) (by decide +kernel) rfl rfl).mpr rfl
  refine ⟨h, ?_⟩
  intro hdiag
  have := (hdiag 0 0x400 0 (by decide) (by decide) (by decide)).mp h
  exact absurd this (by decide)

/-- C17 with the table the encoder really loads: in DHGR with the IIGS palette the player's
memory always equals the encoder's. -/
theorem C17_iigs_dhgr_exact (deltaE : RGB → RGB → Int) (hd : ColourDifference deltaE)
    (hs : Separates deltaE) (dm0 : Nat → Nat → Int) (t : EditTable)
    (ht : Loaded deltaE dm0 .DHGR .IIGS t) (tape : Nat → Nat) (calls : List Call)
    (h : Legal .DHGR calls) (e : Enc) (tr : List Step)
    (hr : runNew .DHGR t tape calls = .ok (e, tr)) : play blank tr = banks e.v.pixelmap :=
  (C17_player_agrees .DHGR t tape calls h e tr hr).2.2 rfl
    (C57_iigs_dhgr_separates deltaE hd hs dm0 t ht)

/-! ### C18 with the real tables -/

theorem genFn_sameDots {edp : EditDistanceParams} (ho : EdpOk edp) :
    SameDotsFree (genFn .HGR edp) := by
  intro k i j d hi hj
  unfold genFn
  by_cases hc : k < VideoMode.HGR.cls.phases.length ∧ i < 2 ^ VideoMode.HGR.cls.maskedBits
  · rw [if_pos hc]
    unfold genVal
    generalize VideoMode.HGR.cls.phases.getD k 0 = ph
    have e : strOf .HGR i k ph = strOf .HGR j k ph := by
      unfold strOf VideoMode.windowString
      have a : VideoMode.HGR.toDots (BitVec.ofNat 64 i) k = .ok d := hi
      have b : VideoMode.HGR.toDots (BitVec.ofNat 64 j) k = .ok d := hj
      rw [a, b]
    have hl := (windowString_strOf .HGR i k ph hc.2).2
    rw [← e]
    obtain ⟨h1, h2, -⟩ := strDist_spec ho (maskedDots_le .HGR) hl hl
    have : strDist edp (strOf .HGR i k ph) (strOf .HGR i k ph) = 0 :=
      Int.le_antisymm (h1.2 0 (Rewrite.refl _)) h2
    rw [this]; rfl
  · rw [if_neg hc]

/-- C18 with the tables the encoder really loads, for both palettes. -/
theorem C18_refuted_shipped (deltaE : RGB → RGB → Int) (hd : ColourDifference deltaE)
    (dm0 : Nat → Nat → Int) (p : Palette) (rgb : Colour → RGB) (hp : (p, rgb) ∈ palettes)
    (t : EditTable) (ht : Loaded deltaE dm0 .HGR p t) (tape : Nat → Nat) :
    ∃ e s, runNew .HGR t tape [.start paletteFrame false, .pull] = .ok (e, [s]) ∧
      s.padding = true ∧ bankOf (play blank [s]) false 0 0 = 0x80#8 ∧
      e.v.pixelmap.bank false 0 0 = 0#8 := by
  obtain ⟨-, edp, ho, -, -, hu⟩ := loaded_form hd dm0 .HGR hp
  rw [hu t ht]
  exact C18_refuted (genFn .HGR edp) (genFn_sameDots ho) tape

/-- A colour difference meeting all the hypotheses above. -/
def plainDifference (a b : RGB) : Int := if a = b then 0 else 20

theorem plainDifference_ok : ColourDifference plainDifference ∧ Separates plainDifference := by
  refine ⟨⟨?_, ?_, ?_⟩, ?_⟩
  · intro a b; unfold plainDifference
    by_cases h : a = b
    · rw [if_pos h, if_pos h.symm]
    · rw [if_neg h, if_neg (Ne.symm h)]
  · intro a b; unfold plainDifference; split <;> omega
  · intro a b; unfold plainDifference; split <;> omega
  · intro a b; unfold plainDifference
    by_cases h : a = b
    · rw [if_pos h]; exact ⟨fun _ => h, fun _ => rfl⟩
    · rw [if_neg h]; exact ⟨fun h' => absurd h' (by decide), fun h' => absurd h' h⟩

example : ∃ t, Loaded plainDifference (fun _ _ => 0) .DHGR .IIGS t := by
  obtain ⟨-, edp, -, -, h, -⟩ := loaded_form plainDifference_ok.1 (fun _ _ => 0) .DHGR
    (p := .IIGS) (rgb := iigsRGB) List.mem_cons_self
  exact ⟨_, h⟩

/-- Swapping two neighbouring pixels is cheaper than recolouring both. -/
example : editDistance (computeSubstituteCosts plainDifference iigsRGB (fun _ _ => 0) {})
    "0F0".toList "F00".toList false = .ok 1 := by decide +kernel

end IIVision
