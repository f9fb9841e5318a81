import Verif.Proofs.Colours
import Verif.Proofs.Dots
import Verif.Proofs.Tables
import Verif.Props.Bitmap

/-! Properties C08-C11: display dots, colours and the pricing of colours. -/

namespace IIVision
open BitVec Spec

/-! ### C08 -/

theorem rowByte_fin (row : Fin 256 → U8) (o : Fin 256) : rowByte row o.val = row o := by
  unfold rowByte; rw [dif_pos o.isLt]

theorem rowByte_succ (row : Fin 256 → U8) (o : Fin 256) :
    rowByte row (o.val + 1) = after row o := by
  unfold rowByte after
  by_cases h : o.val = 255
  · rw [if_pos h, dif_neg (by omega)]
  · rw [if_neg h, dif_pos (by omega)]
    congr 1
    apply Fin.ext
    show _ = (o.val + 1) % 256
    have := o.isLt
    simp only
    omega

theorem rowByte_pred (row : Fin 256 → U8) (o : Fin 256) (h : o.val ≠ 0) :
    rowByte row (o.val - 1) = before row o := by
  unfold rowByte before
  rw [if_neg h, dif_pos (by omega)]
  congr 1
  apply Fin.ext
  show _ = (256 - 1 + o.val) % 256
  have := o.isLt
  simp only
  omega

theorem dotOf_zero_left (p b : U8) (i : Nat) (h : i ≠ 0) : dotOf p b i = dotOf 0 b i := by
  unfold dotOf; simp [h]

theorem windowDot_row (row : Fin 256 → U8) (o : Fin 256) (n : Nat) (hn : n < 21) :
    windowDot (before row o) (row o) (after row o) n =
      if 14 * o.val + n < 3 then false else rowDot row (14 * o.val + n - 3) := by
  unfold windowDot rowDot
  by_cases h3 : n < 3
  · rw [if_pos h3]
    by_cases ho : o.val = 0
    · rw [if_pos (by omega)]
      unfold before
      rw [if_pos ho]
      unfold dotOf
      simp
    · rw [if_neg (by omega), show (14 * o.val + n - 3) / 14 = o.val - 1 by omega,
        show (14 * o.val + n - 3) % 14 = n + 11 by omega, rowByte_pred _ _ ho]
      exact (dotOf_zero_left _ _ _ (by omega)).symm
  · rw [if_neg h3, if_neg (show ¬ 14 * o.val + n < 3 by omega)]
    by_cases h17 : n < 17
    · rw [if_pos h17, show (14 * o.val + n - 3) / 14 = o.val by omega,
        show (14 * o.val + n - 3) % 14 = n - 3 by omega, rowByte_fin]
      by_cases ho : o.val = 0
      · rw [if_pos (by omega)]
        unfold before
        rw [if_pos ho]
      · rw [if_neg (by omega), rowByte_pred _ _ ho]
    · rw [if_neg h17, if_pos hn, show (14 * o.val + n - 3) / 14 = o.val + 1 by omega,
        show (14 * o.val + n - 3) % 14 = n - 17 by omega, rowByte_succ, if_neg (by omega),
        show o.val + 1 - 1 = o.val by omega, rowByte_fin]

/-- Number of dots a mode's window covers. -/
def VideoMode.windowDots : VideoMode → Nat
  | .HGR => 21
  | .DHGR => 13

theorem dhgrByte_aux (m a : Fin 256 → U8) (o : Nat) : dhgrByte m a (2 * o) = rowByte a o := by
  unfold dhgrByte
  rw [if_pos (by omega)]; congr 1; omega
theorem dhgrByte_main (m a : Fin 256 → U8) (o : Nat) : dhgrByte m a (2 * o + 1) = rowByte m o := by
  unfold dhgrByte
  rw [if_neg (by omega)]; congr 1; omega

/-- DHGR window bits are the row's dots. -/
theorem dhgr_window_row (m a : Mem) (isAux : Bool) (p : Fin 32) (o : Fin 256) (n : Nat)
    (hn : n < 13) :
    (window .DHGR m a isAux p o).getD n false = padDot .DHGR m a p (startDot .DHGR isAux o + n + 1) := by
  have ho := o.isLt
  cases isAux with
  | true =>
    simp only [window, startDot, if_true, padDot, pageDot]
    by_cases h3 : n < 3
    · by_cases h0 : o.val = 0
      · rw [if_pos (by omega)]
        unfold before
        rw [if_pos h0]
        interval_cases n <;> simp [dhgrWindow]
      · rw [if_neg (by omega), show (7 * (2 * o.val + 0) + n + 1 - 4) / 7 = 2 * (o.val - 1) + 1 by omega,
          show (7 * (2 * o.val + 0) + n + 1 - 4) % 7 = n + 4 by omega, dhgrByte_main,
          rowByte_pred _ _ h0]
        interval_cases n <;> simp [dhgrWindow]
    · rw [if_neg (by omega)]
      by_cases h10 : n < 10
      · rw [show (7 * (2 * o.val + 0) + n + 1 - 4) / 7 = 2 * o.val by omega,
          show (7 * (2 * o.val + 0) + n + 1 - 4) % 7 = n - 3 by omega, dhgrByte_aux, rowByte_fin]
        interval_cases n <;> first | omega | simp [dhgrWindow]
      · rw [show (7 * (2 * o.val + 0) + n + 1 - 4) / 7 = 2 * o.val + 1 by omega,
          show (7 * (2 * o.val + 0) + n + 1 - 4) % 7 = n - 10 by omega, dhgrByte_main, rowByte_fin]
        interval_cases n <;> first | omega | simp [dhgrWindow]
  | false =>
    simp only [window, startDot, Bool.false_eq_true, if_false, padDot, pageDot]
    rw [if_neg (by omega)]
    by_cases h3 : n < 3
    · rw [show (7 * (2 * o.val + 1) + n + 1 - 4) / 7 = 2 * o.val by omega,
          show (7 * (2 * o.val + 1) + n + 1 - 4) % 7 = n + 4 by omega, dhgrByte_aux, rowByte_fin]
      interval_cases n <;> simp [dhgrWindow]
    · by_cases h10 : n < 10
      · rw [show (7 * (2 * o.val + 1) + n + 1 - 4) / 7 = 2 * o.val + 1 by omega,
          show (7 * (2 * o.val + 1) + n + 1 - 4) % 7 = n - 3 by omega, dhgrByte_main, rowByte_fin]
        interval_cases n <;> first | omega | simp [dhgrWindow]
      · rw [show (7 * (2 * o.val + 1) + n + 1 - 4) / 7 = 2 * (o.val + 1) by omega,
          show (7 * (2 * o.val + 1) + n + 1 - 4) % 7 = n - 10 by omega, dhgrByte_aux, rowByte_succ]
        interval_cases n <;> first | omega | simp [dhgrWindow]

theorem padDot_hgr (m a : Mem) (isAux : Bool) (p : Fin 32) (o : Fin 256) (n : Nat) :
    padDot .HGR m a p (startDot .HGR isAux o + n + 1) =
      if 14 * o.val + n < 3 then false else rowDot (m p) (14 * o.val + n - 3) := by
  unfold padDot
  have e : startDot .HGR isAux o = 14 * o.val := rfl
  rw [e]
  by_cases h : 14 * o.val + n < 3
  · rw [if_pos h, if_pos (by omega)]
  · rw [if_neg h, if_neg (by omega), show 14 * o.val + n + 1 - 4 = 14 * o.val + n - 3 by omega]
    rfl

/-- C08: for every reachable bitmap and every byte, expanding the masked value gives
exactly the display dots of the hardware rule around that byte. -/
theorem C08_dots {mode : VideoMode} {b : Bitmap} (hv : b.Valid mode) {isAux : Bool}
    (hx : isAux = true → mode = .DHGR) (p : Fin 32) (o : Fin 256) :
    ∃ k x d, mode.cls.byteOffset o isAux = .ok k ∧
      mode.cls.maskAndShift (b.packed p ⟨o.val / 2, by omega⟩) k = .ok x ∧
      mode.toDots x k = .ok d ∧
      ∀ n, d.getLsbD n = (decide (n < mode.windowDots) &&
        padDot mode (b.bank false) (b.bank true) p (startDot mode isAux o + n + 1)) := by
  have hw := cell_window hv hx p o
  cases mode with
  | HGR =>
    obtain rfl : isAux = false := by
      cases isAux
      · rfl
      · exact absurd (hx rfl) (by decide)
    obtain ⟨d, hd, hb⟩ := hgrToDots_window _ _ _ _ _ hw
    refine ⟨_, _, d, byteOffset_ok hx o, maskAndShift_ok .HGR _ (kOf_lt .HGR false o), ?_, ?_⟩
    · rw [show (if (o.val % 2 == 1) = true then 1 else 0) = VideoMode.kOf .HGR false o by
        show _ = o.val % 2
        rcases Nat.mod_two_eq_zero_or_one o.val with h | h <;> simp [h]] at hd
      exact hd
    · intro n
      rw [hb n]
      by_cases hn : n < 21
      · rw [windowDot_row _ _ _ hn]
        rw [padDot_hgr]
        simp [VideoMode.windowDots, hn]
      · unfold windowDot
        simp [VideoMode.windowDots, hn, show ¬ n < 3 by omega, show ¬ n < 17 by omega]
  | DHGR =>
    refine ⟨_, _, _, byteOffset_ok hx o, maskAndShift_ok .DHGR _ (kOf_lt .DHGR isAux o), rfl, ?_⟩
    intro n
    by_cases hn : n < 13
    · rw [← dhgr_window_row _ _ _ _ _ _ hn]
      simp only [VideoMode.windowDots, hn, decide_true, Bool.true_and]
      exact hw n (by omega)
    · simp only [VideoMode.windowDots, hn, decide_false, Bool.false_and]
      by_cases h64 : n < 64
      · refine (hw n h64).trans ?_
        rw [List.getD_eq_getElem?_getD, List.getElem?_eq_none]
        · rfl
        · rw [window_length]; show 13 ≤ n; omega
      · exact getLsbD_of_ge _ _ (by omega)

/-- C08 (colours): the colour string the table generator and hence the encoder
associates with a byte consists of the colours the page really shows at the
`MASKED_DOTS` positions starting three dots before the byte, with every dot keeping
its absolute colour phase. -/
theorem C08_window_colours {mode : VideoMode} {b : Bitmap} (hv : b.Valid mode) {isAux : Bool}
    (hx : isAux = true → mode = .DHGR) (p : Fin 32) (o : Fin 256) :
    ∃ k x d l ph, mode.cls.byteOffset o isAux = .ok k ∧
      mode.cls.maskAndShift (b.packed p ⟨o.val / 2, by omega⟩) k = .ok x ∧
      mode.toDots x k = .ok d ∧ mode.cls.phases[k]? = some ph ∧
      dotsToNominalColourPixels mode.cls.maskedDots d.toNat mode.colourValue ph = .ok l ∧
      l.length = mode.cls.maskedDots ∧
      ∀ (n : Nat) (h : n < l.length), ShowsColour mode.colourValue
        (padDot mode (b.bank false) (b.bank true) p) 0 (startDot mode isAux o + 1 + n) l[n] := by
  obtain ⟨k, x, d, h1, h2, h3, h4⟩ := C08_dots hv hx p o
  have hk : k = mode.kOf isAux o := by
    have := byteOffset_ok hx o.val
    rw [this] at h1
    exact (Except.ok.inj h1).symm
  obtain ⟨ph, hph, hmod⟩ : ∃ ph, mode.cls.phases[k]? = some ph ∧
      ph % 4 = (startDot mode isAux o + 1) % 4 := by
    subst hk
    cases mode with
    | HGR =>
      show ∃ ph, [1, 3][o.val % 2]? = some ph ∧ ph % 4 = (14 * o.val + 1) % 4
      rcases Nat.mod_two_eq_zero_or_one o.val with h | h
      · exact ⟨1, by rw [h]; rfl, by omega⟩
      · exact ⟨3, by rw [h]; rfl, by omega⟩
    | DHGR =>
      cases isAux
      · show ∃ ph, [1, 0, 3, 2][2 * (o.val % 2) + 1]? = some ph ∧
          ph % 4 = (7 * (2 * o.val + 1) + 1) % 4
        rcases Nat.mod_two_eq_zero_or_one o.val with h | h
        · exact ⟨0, by rw [h]; rfl, by omega⟩
        · exact ⟨2, by rw [h]; rfl, by omega⟩
      · show ∃ ph, [1, 0, 3, 2][2 * (o.val % 2) + 0]? = some ph ∧
          ph % 4 = (7 * (2 * o.val + 0) + 1) % 4
        rcases Nat.mod_two_eq_zero_or_one o.val with h | h
        · exact ⟨1, by rw [h]; rfl, by omega⟩
        · exact ⟨3, by rw [h]; rfl, by omega⟩
  obtain ⟨l, g1, g2, g3⟩ := dotsLoop_spec (isTable_mode mode) d.toNat ph mode.cls.maskedDots 0 ph
    (by omega)
  refine ⟨k, x, d, l, ph, h1, h2, h3, hph, g1, g2, ?_⟩
  intro n hn q hq1 hq2
  have := g3 n hn (q - (startDot mode isAux o + 1)) (by omega) (by omega)
  rw [show (q + 0) % 4 = (q - (startDot mode isAux o + 1) + ph) % 4 by omega, this,
    BitVec.testBit_toNat, h4]
  have hw : q - (startDot mode isAux o + 1) < mode.windowDots := by
    have hmd : mode.cls.maskedDots + 3 = mode.windowDots := by cases mode <;> rfl
    omega
  rw [decide_eq_true hw, Bool.true_and]
  congr 1
  omega

/-- One past the last dot of the row a byte can influence. -/
def VideoMode.endDot (mode : VideoMode) (isAux : Bool) (o : Fin 256) : Nat :=
  startDot mode isAux o + match mode with
    | .HGR => 15
    | .DHGR => 7

theorem rowByte_set_ne (row : Fin 256 → U8) (o : Fin 256) (v : U8) (c : Nat) (h : c ≠ o.val) :
    rowByte (fun o' => if o' = o then v else row o') c = rowByte row c := by
  unfold rowByte
  by_cases hc : c < 256
  · rw [dif_pos hc, dif_pos hc]
    exact if_neg fun h' => h (congrArg Fin.val h')
  · rw [dif_neg hc, dif_neg hc]

theorem set_row (m : Mem) (p p' : Fin 32) (o : Fin 256) (v : U8) :
    Grid.set m p o v p' = if p' = p then (fun o' => if o' = o then v else m p o') else m p' := by
  funext o'
  unfold Grid.set
  by_cases h : p' = p
  · subst h; simp
  · simp [h]

/-- C08 (locality): storing a byte changes only dots of its own page row, and there only
the byte's own dots (plus, in HGR, the single dot after it). -/
theorem C08_store_local (mode : VideoMode) (main aux : Mem) (isAux : Bool)
    (hx : isAux = true → mode = .DHGR) (p p' : Fin 32) (o : Fin 256) (v : U8) (d : Nat)
    (h : p' ≠ p ∨ d < startDot mode isAux o ∨ mode.endDot isAux o ≤ d) :
    pageDot mode (storeBank (main, aux) isAux p o v).1 (storeBank (main, aux) isAux p o v).2 p' d
      = pageDot mode main aux p' d := by
  by_cases hp : p' = p
  · subst hp
    have h' : d < startDot mode isAux o ∨ mode.endDot isAux o ≤ d := by
      rcases h with h | h
      · exact absurd rfl h
      · exact h
    cases mode with
    | HGR =>
      obtain rfl : isAux = false := by
        cases isAux
        · rfl
        · exact absurd (hx rfl) (by decide)
      change d < 14 * o.val ∨ 14 * o.val + 15 ≤ d at h'
      show rowDot (Grid.set main p' o v p') d = rowDot (main p') d
      rw [set_row, if_pos rfl]
      unfold rowDot
      rw [rowByte_set_ne _ _ _ (d / 14) (by omega)]
      by_cases h14 : d / 14 = o.val + 1
      · rw [dotOf_zero_left _ _ _ (by omega), dotOf_zero_left (if d < 14 then 0 else _) _ _ (by omega)]
      · by_cases hd : d < 14
        · rw [if_pos hd, if_pos hd]
        · rw [if_neg hd, if_neg hd, rowByte_set_ne _ _ _ (d / 14 - 1) (by omega)]
    | DHGR =>
      cases isAux with
      | true =>
        change d < 7 * (2 * o.val + 0) ∨ 7 * (2 * o.val + 0) + 7 ≤ d at h'
        show (dhgrByte (main p') (Grid.set aux p' o v p') (d / 7)).getLsbD _
          = (dhgrByte (main p') (aux p') (d / 7)).getLsbD _
        rw [set_row, if_pos rfl]
        unfold dhgrByte
        by_cases he : d / 7 % 2 = 0
        · rw [if_pos he, if_pos he, rowByte_set_ne _ _ _ _ (by omega)]
        · rw [if_neg he, if_neg he]
      | false =>
        change d < 7 * (2 * o.val + 1) ∨ 7 * (2 * o.val + 1) + 7 ≤ d at h'
        show (dhgrByte (Grid.set main p' o v p') (aux p') (d / 7)).getLsbD _
          = (dhgrByte (main p') (aux p') (d / 7)).getLsbD _
        rw [set_row, if_pos rfl]
        unfold dhgrByte
        by_cases he : d / 7 % 2 = 0
        · rw [if_pos he, if_pos he]
        · rw [if_neg he, if_neg he, rowByte_set_ne _ _ _ _ (by omega)]
  · cases isAux
    · show pageDot mode (Grid.set main p o v) aux p' d = _
      cases mode <;> simp only [pageDot, set_row, if_neg hp]
    · show pageDot mode main (Grid.set aux p o v) p' d = _
      cases mode <;> simp only [pageDot, set_row, if_neg hp]

/-- C08 (locality of colours): colours outside the `MASKED_DOTS` window of the stored
byte are the same before and after the store, so the encoder's window sees everything
a store can change. -/
theorem C08_store_colours (mode : VideoMode) (main aux : Mem) (isAux : Bool)
    (hx : isAux = true → mode = .DHGR) (p p' : Fin 32) (o : Fin 256) (v : U8) (e : Nat)
    (c c' : Colour)
    (hc : ShowsColour mode.colourValue (padDot mode main aux p') 0 e c)
    (hc' : ShowsColour mode.colourValue (padDot mode (storeBank (main, aux) isAux p o v).1
      (storeBank (main, aux) isAux p o v).2 p') 0 e c')
    (h : p' ≠ p ∨ e < startDot mode isAux o + 1 ∨
      startDot mode isAux o + 1 + mode.cls.maskedDots ≤ e) : c = c' := by
  apply showsColour_unique (isTable_mode mode) hc hc'
  intro q hq1 hq2
  unfold padDot
  by_cases h4 : q < 4
  · rw [if_pos h4, if_pos h4]
  · rw [if_neg h4, if_neg h4]
    refine (C08_store_local mode main aux isAux hx p p' o v (q - 4) ?_).symm
    rcases h with h | h | h
    · exact .inl h
    · exact .inr (.inl (by omega))
    · refine .inr (.inr ?_)
      cases mode with
      | HGR =>
        change startDot .HGR isAux o + 1 + 18 ≤ e at h
        show startDot .HGR isAux o + 15 ≤ _
        omega
      | DHGR =>
        change startDot .DHGR isAux o + 1 + 10 ≤ e at h
        show startDot .DHGR isAux o + 7 ≤ _
        omega

/-- A delayed byte next to an undelayed one: the dot rule is not trivial. -/
example : ∃ b : Bitmap, b.Valid .HGR ∧ b.bank false 0 0 = 0x40 ∧ b.bank false 0 1 = 0x80 ∧
    rowDot (b.bank false 0) 14 = true ∧ rowDot (b.bank false 0) 15 = false := by
  refine ⟨_, (hgr_new_valid (m := ⟨1, fun _ o => if o = 0 then 0x40 else 0x80⟩) rfl rfl).1,
    rfl, rfl, rfl, rfl⟩

/-! ### C09 -/

/-- C09: for both colour tables, any dots and any initial phase the conversion succeeds
with exactly `numBits` colours, and colour `i` is the one shown by dots `i..i+3`, dot `q`
driving pattern bit `(q + init_phase) % 4`. -/
theorem C09_sliding_window (mode : VideoMode) (numBits dots ph : Nat) :
    ∃ l, dotsToNominalColourPixels numBits dots mode.colourValue ph = .ok l ∧
      l.length = numBits ∧
      ∀ (i : Nat) (h : i < l.length), ShowsColour mode.colourValue dots.testBit ph i l[i] := by
  obtain ⟨l, h1, h2, h3⟩ := dotsLoop_spec (isTable_mode mode) dots ph numBits 0 ph (by omega)
  refine ⟨l, h1, h2, ?_⟩
  intro i h
  have := h3 i h
  rwa [Nat.zero_add] at this

/-- C09: a colour depends only on its four dots (and on the phase mod 4). -/
theorem C09_depends_only (mode : VideoMode) (numBits dots dots' ph ph' : Nat) (l l' : List Colour)
    (hl : dotsToNominalColourPixels numBits dots mode.colourValue ph = .ok l)
    (hl' : dotsToNominalColourPixels numBits dots' mode.colourValue ph' = .ok l')
    (hph : ph % 4 = ph' % 4) (i : Nat) (hi : i < numBits)
    (h : ∀ q, i ≤ q → q < i + 4 → dots.testBit q = dots'.testBit q) : l[i]? = l'[i]? := by
  obtain ⟨m, h1, h2, h3⟩ := C09_sliding_window mode numBits dots ph
  obtain ⟨m', h1', h2', h3'⟩ := C09_sliding_window mode numBits dots' ph'
  rw [hl] at h1; rw [hl'] at h1'
  cases h1; cases h1'
  rw [List.getElem?_eq_getElem (by omega), List.getElem?_eq_getElem (by omega)]
  congr 1
  apply showsColour_unique (isTable_mode mode) (h3 i (by omega)) (dot' := dots'.testBit) _ h
  intro q hq1 hq2
  rw [← h3' i (by omega) q hq1 hq2]
  congr 1
  omega

/-- C09: dropping `k` dots and advancing the phase by `k` drops the first `k` colours. -/
theorem C09_shift (mode : VideoMode) (numBits dots ph k : Nat) (l : List Colour)
    (hl : dotsToNominalColourPixels (numBits + k) dots mode.colourValue ph = .ok l) :
    dotsToNominalColourPixels numBits (dots >>> k) mode.colourValue ((ph + k) % 4)
      = .ok (l.drop k) := by
  obtain ⟨m, h1, h2, h3⟩ := C09_sliding_window mode (numBits + k) dots ph
  obtain ⟨m', h1', h2', h3'⟩ := C09_sliding_window mode numBits (dots >>> k) ((ph + k) % 4)
  rw [hl] at h1; cases h1
  rw [h1']
  congr 1
  apply List.ext_getElem
  · rw [List.length_drop]; omega
  · intro i hi hi'
    rw [List.getElem_drop]
    have a := h3' i hi
    have b := h3 (k + i) (by omega)
    have b' : ShowsColour mode.colourValue (fun q => dots.testBit (q + k)) ((ph + k) % 4) i
        (l[k + i]'(by omega)) := by
      intro q hq1 hq2
      have := b (q + k) (by omega) (by omega)
      show _ = dots.testBit (q + k)
      rw [← this]
      congr 1
      omega
    refine showsColour_unique (isTable_mode mode) a b' ?_
    intro q _ _
    rw [Nat.testBit_shiftRight, Nat.add_comm]

theorem ror_rol1 (x : Nat) (hx : x < 16) : ror1 (rol1 x) = x ∧ rol1 (ror1 x) = x := by
  have : ∀ x : Fin 16, ror1 (rol1 x.val) = x.val ∧ rol1 (ror1 x.val) = x.val := by decide
  exact this ⟨x, hx⟩

theorem rol_succ (n : Nat) : ∀ x, rol x (n + 1) = rol1 (rol x n) := by
  induction n with
  | zero => intro x; rfl
  | succ n ih => intro x; exact ih (rol1 x)

theorem ror_succ (n : Nat) : ∀ x, ror x (n + 1) = ror1 (ror x n) := by
  induction n with
  | zero => intro x; rfl
  | succ n ih => intro x; exact ih (ror1 x)

theorem ror_lt (n : Nat) : ∀ x, x < 16 → ror x n < 16 := by
  induction n with
  | zero => intro x h; exact h
  | succ n ih => intro x h; exact ih _ (ror1_lt x h)

/-- C09: on 4-bit values `rol` and `ror` by the same amount undo each other, and both
have period 4. -/
theorem C09_rotations (x n : Nat) (hx : x < 16) :
    ror (rol x n) n = x ∧ rol (ror x n) n = x ∧ rol x (n + 4) = rol x n ∧ ror x (n + 4) = ror x n := by
  refine ⟨?_, ?_, ?_, ?_⟩
  · induction n with
    | zero => rfl
    | succ n ih =>
      rw [rol_succ]
      show ror (ror1 (rol1 (rol x n))) n = x
      rw [(ror_rol1 _ (rol_bit n x hx 0 (by omega)).1).1, ih]
  · induction n with
    | zero => rfl
    | succ n ih =>
      rw [ror_succ]
      show rol (rol1 (ror1 (ror x n))) n = x
      rw [(ror_rol1 _ (ror_lt n x hx)).2, ih]
  · have h : ∀ x : Fin 16, rol x.val 4 = x.val := by decide
    have h4 : rol x (n + 4) = rol (rol x 4) n := rfl
    rw [h4, h ⟨x, hx⟩]
  · have h : ∀ x : Fin 16, ror x.val 4 = x.val := by decide
    have h4 : ror x (n + 4) = ror (ror x 4) n := rfl
    rw [h4, h ⟨x, hx⟩]

/-- A concrete conversion. -/
example : dotsToNominalColourPixels 5 0b10110011 hgrValue 1
    = .ok [.MED_BLUE, .MED_BLUE, .MED_BLUE, .MED_BLUE, .LIGHT_BLUE] := rfl

/-! ### C10 -/

/-- C10: each colour table is a bijection between the 16 names and 0..15 (and lookup by
value is its inverse); the DHGR pattern of every colour is its HGR pattern rotated
right once. -/
theorem C10_colour_tables :
    (∀ mode : VideoMode, (∀ c, mode.colourValue c < 16) ∧
      (∀ c d, mode.colourValue c = mode.colourValue d → c = d) ∧
      (∀ v, v < 16 → ∃ c, mode.colourValue c = v ∧ colourOf mode.colourValue v = .ok c) ∧
      (∀ v, 16 ≤ v → colourOf mode.colourValue v = .error .valueError)) ∧
    (∀ c, dhgrValue c = ror (hgrValue c) 1) := by
  refine ⟨fun mode => ⟨value_lt (isTable_mode mode), fun c d => value_inj (isTable_mode mode),
    ?_, ?_⟩, by intro c; cases c <;> rfl⟩
  · intro v hv
    obtain ⟨c, rfl⟩ := value_surj (isTable_mode mode) v hv
    exact ⟨c, rfl, colourOf_value (isTable_mode mode) c⟩
  · intro v hv
    unfold colourOf
    have : Colour.all.find? (fun c => mode.colourValue c == v) = none := by
      rw [List.find?_eq_none]
      intro c _ h
      have := value_lt (isTable_mode mode) c
      rw [beq_iff_eq.mp h] at this
      omega
    rw [this]

/-! ### C11 -/

/-- The full statement of C11: the substitution cost charged for replacing colour `x`
by `y` is the perceptual difference between their RGB values, whatever the uninitialised
matrix `dm0` contained and whatever an earlier run left in the shared cost arrays. -/
def C11Claim (mode : VideoMode) (pal : Colour → RGB) : Prop :=
  ∀ deltaE : RGB → RGB → Int, (∀ a b, deltaE a b = deltaE b a) → ∀ dm0 edp0,
    ∀ x y, mode.pixelCost deltaE pal dm0 edp0 x y = .ok (deltaE (pal x) (pal y))

/-- C11 holds for HGR, for every palette. -/
theorem C11_hgr_priced_right (pal : Colour → RGB) : C11Claim .HGR pal := by
  intro deltaE hs dm0 edp0 x y
  unfold VideoMode.pixelCost
  simp only [VideoMode.colourValue]
  rw [pixelChar_ok _ (value_lt (.inl rfl) x), pixelChar_ok _ (value_lt (.inl rfl) y)]
  show Except.ok _ = _
  rw [substituteCosts_get deltaE hs]

theorem dhgrValue_mispriced (c : Colour) : dhgrValue c = hgrValue (mispriced c) := by
  cases c <;> rfl

/-- C11, what the code does in DHGR: `x` is priced with the RGB value of another colour
unless it is black or white. -/
theorem C11_dhgr_actual (deltaE : RGB → RGB → Int) (hs : ∀ a b, deltaE a b = deltaE b a)
    (pal : Colour → RGB) (dm0 : Nat → Nat → Int) (edp0 : EditDistanceParams) :
    (∀ x y, VideoMode.DHGR.pixelCost deltaE pal dm0 edp0 x y
      = .ok (deltaE (pal (mispriced x)) (pal (mispriced y)))) ∧
    (∀ x, mispriced x = x ↔ x = .BLACK ∨ x = .WHITE) := by
  refine ⟨?_, by intro x; cases x <;> simp [mispriced]⟩
  intro x y
  unfold VideoMode.pixelCost
  simp only [VideoMode.colourValue]
  rw [dhgrValue_mispriced, dhgrValue_mispriced, pixelChar_ok _ (value_lt (.inl rfl) _),
    pixelChar_ok _ (value_lt (.inl rfl) _)]
  show Except.ok _ = _
  rw [substituteCosts_get deltaE hs]

/-- C11 is FALSE of the code in DHGR, for both shipped palettes. -/
theorem C11_dhgr_refuted : ¬ C11Claim .DHGR ntscRGB ∧ ¬ C11Claim .DHGR iigsRGB := by
  have hs : ∀ a b : RGB, (if a = b then (0 : Int) else ((a.1 + b.1 : Nat) : Int))
      = (if b = a then 0 else ((b.1 + a.1 : Nat) : Int)) := by
    intro a b
    rw [Nat.add_comm b.1 a.1]
    by_cases hab : a = b
    · rw [if_pos hab, if_pos hab.symm]
    · rw [if_neg hab, if_neg (Ne.symm hab)]
  constructor
  · intro h
    have := h (fun a b => if a = b then 0 else ((a.1 + b.1 : Nat) : Int)) hs (fun _ _ => 0) {}
      .MAGENTA .BLACK
    rw [(C11_dhgr_actual _ hs _ _ _).1] at this
    exact absurd (Except.ok.inj this) (by decide)
  · intro h
    have := h (fun a b => if a = b then 0 else ((a.1 + b.1 : Nat) : Int)) hs (fun _ _ => 0) {}
      .MAGENTA .BLACK
    rw [(C11_dhgr_actual _ hs _ _ _).1] at this
    exact absurd (Except.ok.inj this) (by decide)

end IIVision
