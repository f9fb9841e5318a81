import Verif.Proofs.Screen
import Verif.Spec.Screen

/-! Properties C01-C03. -/

namespace IIVision
open Spec

theorem hiresAddr_eq (pg y x : Nat) : yToBaseAddr y pg + x = hiresAddr pg y x := by
  rw [yToBaseAddr_eq]; rfl

/-- C01a: `y_to_base_addr(y, page) + x` is the hardware address, lies in the page's
8K window and is injective over both pages. -/
theorem C01_addresses :
    (∀ pg y x, Visible y x →
      yToBaseAddr y pg + x = hiresAddr pg y x ∧
      0x2000 * (pg + 1) ≤ yToBaseAddr y pg + x ∧
      yToBaseAddr y pg + x < 0x2000 * (pg + 1) + 0x2000) ∧
    (∀ pg y x pg' y' x', Visible y x → Visible y' x' →
      yToBaseAddr y pg + x = yToBaseAddr y' pg' + x' → pg = pg' ∧ y = y' ∧ x = x') := by
  refine ⟨?_, ?_⟩
  · intro pg y x h
    refine ⟨hiresAddr_eq pg y x, ?_⟩
    rw [yBase_eq h.1]
    have := cellP_lt y
    have := cellO_lt h.1 h.2
    omega
  · intro pg y x pg' y' x' h h' he
    exact addr_inj h.1 h.2 h'.1 h'.2 he

/-- C01b: import succeeds, and the tables it builds are mutually inverse and agree
with the hardware layout: `X_Y_TO_PAGE/OFFSET` locate the displayed byte,
`PAGE_OFFSET_TO_X/Y` lead back, and `ADDR_TO_COORDS` is defined exactly on visible
addresses of the two pages, with the right coordinates. -/
theorem C01_tables : ∃ m, populateMappings = .ok m ∧
    (∀ (y : Fin 192) (x : Fin 40),
      256 * (32 + m.xyToPage y x) + m.xyToOffset y x = hiresAddr 0 y x ∧
      ∃ (hp : m.xyToPage y x < 32) (ho : m.xyToOffset y x < 256),
        m.poToX ⟨m.xyToPage y x, hp⟩ ⟨m.xyToOffset y x, ho⟩ = x.val ∧
        m.poToY ⟨m.xyToPage y x, hp⟩ ⟨m.xyToOffset y x, ho⟩ = y.val) ∧
    (∀ (p : Fin 32) (o : Fin 256),
      (∃ y x, Visible y x ∧ hiresAddr 0 y x = 256 * (32 + p.val) + o.val) →
      ∃ (hy : m.poToY p o < 192) (hx : m.poToX p o < 40),
        m.xyToPage ⟨m.poToY p o, hy⟩ ⟨m.poToX p o, hx⟩ = p.val ∧
        m.xyToOffset ⟨m.poToY p o, hy⟩ ⟨m.poToX p o, hx⟩ = o.val) ∧
    (∀ a pg y x, m.addrToCoords a = some (pg, y, x) ↔
      pg < 2 ∧ Visible y x ∧ a = hiresAddr pg y x) := by
  obtain ⟨m, hm, hr⟩ := populate_rep
  refine ⟨m, hm, ?_, ?_, ?_⟩
  · intro y x
    have hmem : (y.val, x.val) ∈ yxPairs := mem_yxPairs.2 ⟨y.2, x.2⟩
    obtain ⟨h1, h2⟩ := hr.xy y x hmem
    have hP := cellP_lt y.val
    have hO := cellO_lt y.2 x.2
    refine ⟨?_, by omega, by omega, ?_⟩
    · rw [← hiresAddr_eq, yBase_eq y.2, h1, h2]; omega
    · have := hr.poY ⟨m.xyToPage y x, by omega⟩ ⟨m.xyToOffset y x, by omega⟩ y x hmem h1 h2
      exact ⟨this.2, this.1⟩
  · rintro p o ⟨y, x, ⟨hy, hx⟩, ha⟩
    rw [← hiresAddr_eq, yBase_eq hy] at ha
    have hP := cellP_lt y
    have hO := cellO_lt hy hx
    have hp : p.val = cellP y := by omega
    have ho : o.val = cellO y x := by omega
    obtain ⟨h1, h2⟩ := hr.poY p o y x (mem_yxPairs.2 ⟨hy, hx⟩) hp ho
    refine ⟨by omega, by omega, ?_⟩
    have e1 : (⟨m.poToY p o, by omega⟩ : Fin 192) = ⟨y, hy⟩ := Fin.ext h1
    have e2 : (⟨m.poToX p o, by omega⟩ : Fin 40) = ⟨x, hx⟩ := Fin.ext h2
    rw [e1, e2]
    have := hr.xy ⟨y, hy⟩ ⟨x, hx⟩ (mem_yxPairs.2 ⟨hy, hx⟩)
    exact ⟨this.1.trans hp.symm, this.2.trans ho.symm⟩
  · intro a pg y x
    rw [hr.addr]
    constructor
    · rintro ⟨y', x', pg', hmem, hpg, ha, hc⟩
      cases hc
      exact ⟨hpg, mem_yxPairs.1 hmem, by rw [ha, hiresAddr_eq]⟩
    · rintro ⟨hpg, hv, ha⟩
      exact ⟨y, x, pg, mem_yxPairs.2 hv, hpg, by rw [ha, hiresAddr_eq], rfl⟩

example : Visible 191 39 ∧ yToBaseAddr 191 1 + 39 = 0x5ff7 := by
  refine ⟨⟨by decide, by decide⟩, by decide⟩

/-- C02: a cell is a screen hole iff no visible byte maps to it, iff its offset is
at least 120 modulo 128. -/
theorem C02_screen_holes (p : Fin 32) (o : Fin 256) :
    (screenHoles p o = true ↔
      ¬ ∃ y x, Visible y x ∧ hiresAddr 0 y x = 256 * (32 + p.val) + o.val) ∧
    (screenHoles p o = true ↔ 120 ≤ o.val % 128) := by
  have hv := visible_iff p o
  have he : (∃ y x, Visible y x ∧ hiresAddr 0 y x = 256 * (32 + p.val) + o.val) ↔
      ∃ y x, y < 192 ∧ x < 40 ∧ p.val = cellP y ∧ o.val = cellO y x := by
    constructor
    · rintro ⟨y, x, ⟨hy, hx⟩, ha⟩
      rw [← hiresAddr_eq, yBase_eq hy] at ha
      have hP := cellP_lt y
      have hO := cellO_lt hy hx
      exact ⟨y, x, hy, hx, by omega, by omega⟩
    · rintro ⟨y, x, hy, hx, hp, ho⟩
      exact ⟨y, x, ⟨hy, hx⟩, by rw [← hiresAddr_eq, yBase_eq hy]; omega⟩
  rw [he, hv, screenHoles_eq]
  simp

/-- C02, count: 512 of the 8192 cells are holes. -/
theorem C02_hole_count :
    ((List.finRange 32).map fun p =>
      ((List.finRange 256).filter fun o => screenHoles p o).length).sum = 512 := by
  have h : (fun (p : Fin 32) => ((List.finRange 256).filter fun o => screenHoles p o).length)
      = fun _ => 16 := by
    funext p
    have : (fun o => screenHoles p o) = fun o : Fin 256 => decide (120 ≤ o.val % 128) := by
      funext o; exact screenHoles_eq p o
    rw [this]
    decide +kernel
  rw [h]
  decide

example : screenHoles 3 127 = true ∧ screenHoles 3 119 = false := by
  rw [screenHoles_eq, screenHoles_eq]; decide

/-- C03a: flat → paged → flat is the identity. -/
theorem C03_flat_paged_flat (f : FlatMemoryMap) (h : f.screenPage = 1 ∨ f.screenPage = 2) :
    (f.toMemoryMap >>= MemoryMap.toFlatMemoryMap) = .ok f := by
  obtain ⟨sp, d⟩ := f
  simp only at h
  simp only [FlatMemoryMap.toMemoryMap, MemoryMap.new, MemoryMap.toFlatMemoryMap,
    FlatMemoryMap.new, h, not_true_eq_false, if_false, bind, Except.bind, Option.getD]
  simp only [List.length_ofFn, dif_pos, Except.ok.injEq, FlatMemoryMap.mk.injEq, true_and]
  funext i
  simp only [List.getElem_ofFn]
  congr 1
  apply Fin.ext
  show 256 * (i.val / 256) + i.val % 256 = i.val
  omega

/-- C03b: paged → flat → paged is the identity. -/
theorem C03_paged_flat_paged (m : MemoryMap) (h : m.screenPage = 1 ∨ m.screenPage = 2) :
    (m.toFlatMemoryMap >>= FlatMemoryMap.toMemoryMap) = .ok m := by
  obtain ⟨sp, d⟩ := m
  simp only at h
  simp only [FlatMemoryMap.toMemoryMap, MemoryMap.new, MemoryMap.toFlatMemoryMap,
    FlatMemoryMap.new, h, not_true_eq_false, if_false, bind, Except.bind, Option.getD]
  simp only [List.length_ofFn, dif_pos]
  rw [if_neg (by simp only [h, not_true_eq_false, not_false_eq_true])]
  simp only [Except.ok.injEq, MemoryMap.mk.injEq, true_and]
  funext p o
  simp only [List.getElem_ofFn]
  have e1 : (⟨(256 * p.val + o.val) / 256, by omega⟩ : Fin 32) = p := Fin.ext (by
    show (256 * p.val + o.val) / 256 = p.val; omega)
  have e2 : (⟨(256 * p.val + o.val) % 256, by omega⟩ : Fin 256) = o := Fin.ext (by
    show (256 * p.val + o.val) % 256 = o.val; omega)
  rw [e1, e2]

/-- C03c: writing at an in-range address of the flat view succeeds and corresponds
to writing `(addr >> 8, addr & 0xff)` in the paged view. -/
theorem C03_write_commutes (f : FlatMemoryMap) (h : f.screenPage = 1 ∨ f.screenPage = 2)
    (addr : Nat) (v : U8)
    (hlo : 8192 * f.screenPage ≤ addr) (hhi : addr < 8192 * f.screenPage + 8192) :
    ∃ f', f.write addr v = .ok f' ∧
      f'.toMemoryMap = (f.toMemoryMap >>= fun m => m.write (addr >>> 8 : Nat) (addr % 256 : Nat) v) ∧
      (∀ i, f'.data i = if i.val = addr - 8192 * f.screenPage then v else f.data i) ∧
      f'.screenPage = f.screenPage := by
  obtain ⟨sp, d⟩ := f
  simp only at h hlo hhi
  have hi : ((addr : Int) - ((8192 * sp : Nat) : Int)) = ((addr - 8192 * sp : Nat) : Int) := by omega
  refine ⟨⟨sp, fun j => if j = ⟨addr - 8192 * sp, by omega⟩ then v else d j⟩, ?_, ?_, ?_, rfl⟩
  · unfold FlatMemoryMap.write FlatMemoryMap.addrEnd FlatMemoryMap.addrStart
    simp only
    rw [if_neg (by omega), hi, npIndex_nat (by omega)]
    rfl
  · simp only [FlatMemoryMap.toMemoryMap, MemoryMap.new, h, not_true_eq_false, if_false, bind,
      Except.bind, Option.getD]
    unfold MemoryMap.write MemoryMap.pageStart
    have hsh : addr >>> 8 = addr / 256 := by rw [Nat.shiftRight_eq_div_pow]
    have hp : (((addr >>> 8 : Nat) : Int) - ((32 * sp : Nat) : Int))
        = ((addr / 256 - 32 * sp : Nat) : Int) := by omega
    simp only [hp, npIndex_nat (show addr / 256 - 32 * sp < 32 by omega),
      npIndex_nat (show addr % 256 < 256 by omega), bind, Except.bind, pure, Except.pure,
      Except.ok.injEq, MemoryMap.mk.injEq, true_and]
    funext p o
    unfold Grid.set
    simp only [Fin.ext_iff]
    by_cases hc : 256 * p.val + o.val = addr - 8192 * sp
    · rw [if_pos hc, if_pos (by omega)]
    · rw [if_neg hc, if_neg (by omega)]
  · intro i
    simp only [Fin.ext_iff]

/-- C03d: out-of-range addresses, wrong sizes and bad screen pages raise `ValueError`
(no new object is produced, so nothing changes). -/
theorem C03_rejects :
    (∀ (f : FlatMemoryMap) (addr : Int) (v : U8),
      (addr < 8192 * f.screenPage ∨ 8192 * f.screenPage + 8192 ≤ addr) →
      f.write addr v = .error .valueError) ∧
    (∀ sp (d : Option (List U8)), ¬ (sp = 1 ∨ sp = 2) →
      FlatMemoryMap.new sp d = .error .valueError) ∧
    (∀ sp (d : Option Mem), ¬ (sp = 1 ∨ sp = 2) → MemoryMap.new sp d = .error .valueError) ∧
    (∀ sp (d : List U8), d.length ≠ 8192 → FlatMemoryMap.new sp (some d) = .error .valueError) ∧
    (∀ sp (d : List U8), (sp = 1 ∨ sp = 2) → d.length = 8192 →
      ∃ f, FlatMemoryMap.new sp (some d) = .ok f ∧ List.ofFn f.data = d) := by
  refine ⟨?_, ?_, ?_, ?_, ?_⟩
  · intro f addr v h
    unfold FlatMemoryMap.write FlatMemoryMap.addrEnd FlatMemoryMap.addrStart
    rw [if_pos]; omega
  · intro sp d h; unfold FlatMemoryMap.new; rw [if_pos h]
  · intro sp d h; unfold MemoryMap.new; rw [if_pos h]
  · intro sp d h; unfold FlatMemoryMap.new
    split
    · rfl
    · simp only; rw [dif_neg h]
  · intro sp d h hd
    unfold FlatMemoryMap.new
    rw [if_neg (by simp only [h, not_true_eq_false, not_false_eq_true])]
    simp only; rw [dif_pos hd]
    refine ⟨_, rfl, ?_⟩
    apply List.ext_getElem
    · rw [List.length_ofFn, hd]
    · intro i h1 h2; rw [List.getElem_ofFn]

/-- C03e: `MemoryMap.write` for any arguments.  Let `i` be the page relative to the screen page.  Pages 0..31 and offsets 0..255 are
written to; so are (python's negative indices) `i` in -32..-1, taken as `i + 32`, and offsets -256..-1, taken as `offset + 256`, silently;
`Bitmap.apply` relies on this, with screen page 1 it passes pages 0..31.  Anything else raises IndexError. -/
theorem C03_paged_write (m : MemoryMap) (page offset : Int) (v : U8) :
    (∀ (p : Fin 32) (o : Fin 256), (page = 32 * m.screenPage + p ∨ page + 32 = 32 * m.screenPage + p) →
      (offset = o ∨ offset + 256 = o) →
      ∃ m', m.write page offset v = .ok m' ∧ m'.screenPage = m.screenPage ∧
        ∀ p' o', m'.pageOffset p' o' = if p' = p ∧ o' = o then v else m.pageOffset p' o') ∧
    ((page + 32 < 32 * m.screenPage ∨ 32 * m.screenPage + 32 ≤ page ∨ offset < -256 ∨ 256 ≤ offset) →
      m.write page offset v = .error .indexError) := by
  constructor
  · intro p o hp ho
    have e1 : npIndex 32 (page - m.pageStart) = .ok p := by
      unfold MemoryMap.pageStart
      rcases hp with hp | hp
      · rw [npIndex_ok (by omega) (by omega)]; congr 1; apply Fin.ext; show (_ : Int).toNat = _; omega
      · rw [npIndex_neg (by omega) (by omega)]; congr 1; apply Fin.ext; show (_ : Int).toNat = _; omega
    have e2 : npIndex 256 offset = .ok o := by
      rcases ho with ho | ho
      · rw [npIndex_ok (by omega) (by omega)]; congr 1; apply Fin.ext; show (_ : Int).toNat = _; omega
      · rw [npIndex_neg (by omega) (by omega)]; congr 1; apply Fin.ext; show (_ : Int).toNat = _; omega
    refine ⟨{ m with pageOffset := Grid.set m.pageOffset p o v }, by unfold MemoryMap.write; rw [e1, e2]; rfl, rfl, fun p' o' => rfl⟩
  · intro h
    unfold MemoryMap.write
    by_cases hp : page + 32 < 32 * m.screenPage ∨ 32 * m.screenPage + 32 ≤ page
    · have : npIndex 32 (page - m.pageStart) = .error .indexError := by
        unfold npIndex MemoryMap.pageStart; rw [dif_neg (by omega), dif_neg (by omega)]
      rw [this]; rfl
    · have : npIndex 256 offset = .error .indexError := by
        unfold npIndex; rw [dif_neg (by omega), dif_neg (by omega)]
      rw [this]
      have : ∃ p, npIndex 32 (page - m.pageStart) = .ok p := by
        unfold npIndex MemoryMap.pageStart
        by_cases h' : 0 ≤ page - (32 * m.screenPage : Nat)
        · rw [dif_pos (by omega)]; exact ⟨_, rfl⟩
        · rw [dif_neg (by omega), dif_pos (by omega)]; exact ⟨_, rfl⟩
      obtain ⟨p, hp⟩ := this
      rw [hp]; rfl

/-- C03_paged_write: page $20 of screen page 2, offset -1, is page $40, offset 255. -/
example : (0x20 : Int) + 32 = 32 * 2 + (0 : Fin 32).val ∧ (-1 : Int) + 256 = (255 : Fin 256).val := by decide

example : ∃ f, FlatMemoryMap.new 2 none = .ok f ∧ 8192 * f.screenPage ≤ 0x5fff ∧
    0x5fff < 8192 * f.screenPage + 8192 := ⟨_, rfl, by decide, by decide⟩

end IIVision
