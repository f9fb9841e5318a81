import Verif.Props.Tables
import Verif.Proofs.Stream
import Verif.Spec.Picture

/-! What a zero distance means in dots, and what the screen shows when a frame is done. -/

namespace IIVision
open Spec

/-- Two colours of a shipped palette with the same RGB value are equal, or the two greys, whose dots
alternate. -/
theorem rgb_same (mode : VideoMode) {pal : Palette} {rgb : Colour → RGB} (hp : (pal, rgb) ∈ palettes) (c c' : Colour)
    (h : rgb c = rgb c') :
    c = c' ∨ ∀ i : Fin 4, (mode.colourValue c).testBit i = !(mode.colourValue c').testBit i ∧
      (mode.colourValue c).testBit ((i + 1) % 4) = !(mode.colourValue c).testBit i := by
  have key : ∀ x ∈ palettes, ∀ mode ∈ [VideoMode.HGR, .DHGR], ∀ c ∈ Colour.all, ∀ c' ∈ Colour.all, x.2 c = x.2 c' →
    c = c' ∨ ∀ i : Fin 4, (mode.colourValue c).testBit i = !(mode.colourValue c').testBit i ∧
      (mode.colourValue c).testBit ((i + 1) % 4) = !(mode.colourValue c).testBit i := by decide +kernel
  exact key _ hp mode (by cases mode <;> simp) c (Colour.mem_all c) c' (Colour.mem_all c') h

/-- Rows of dots that show the same RGB values. -/
structure Alike (mode : VideoMode) (rgb : Colour → RGB) (ph L : Nat) (f g : Nat → Bool) : Prop where
  at_ : ∀ n, n < L → ∃ c c', ShowsColour mode.colourValue f ph n c ∧ ShowsColour mode.colourValue g ph n c' ∧ rgb c = rgb c'

theorem Alike.window {mode : VideoMode} {pal : Palette} {rgb : Colour → RGB} (hp : (pal, rgb) ∈ palettes) {ph L : Nat}
    {f g : Nat → Bool} (h : Alike mode rgb ph L f g) {n : Nat} (hn : n < L) :
    (∀ q, n ≤ q → q < n + 4 → f q = g q) ∨ (∀ q, n ≤ q → q < n + 4 → f q = !g q) ∧ ∀ q, n ≤ q → q + 1 < n + 4 → f (q + 1) = !f q := by
  obtain ⟨c, c', h1, h2, h3⟩ := h.at_ n hn
  rcases rgb_same mode hp c c' h3 with rfl | hc
  · exact .inl fun q hq hq' => (h1 q hq hq').symm.trans (h2 q hq hq')
  · refine .inr ⟨fun q hq hq' => ?_, fun q hq hq' => ?_⟩
    · rw [← h1 q hq hq', ← h2 q hq hq']
      exact (hc ⟨(q + ph) % 4, by omega⟩).1
    · rw [← h1 q hq (by omega), ← h1 (q + 1) (by omega) hq']
      have := (hc ⟨(q + ph) % 4, by omega⟩).2
      simp only at this
      rw [show ((q + ph) % 4 + 1) % 4 = (q + 1 + ph) % 4 by omega] at this
      exact this

/-- Rows that look alike and agree in one dot agree in all. -/
theorem Alike.agree {mode : VideoMode} {pal : Palette} {rgb : Colour → RGB} (hp : (pal, rgb) ∈ palettes) {ph L : Nat}
    {f g : Nat → Bool} (h : Alike mode rgb ph L f g) {q : Nat} (hq : q < L + 3) (hL : 0 < L) (he : f q = g q) :
    ∀ r, r < L + 3 → f r = g r := by
  have hw : ∀ n, n < L → (∃ q, n ≤ q ∧ q < n + 4 ∧ f q = g q) → ∀ q, n ≤ q → q < n + 4 → f q = g q := by
    intro n hn ⟨q, h1, h2, h3⟩
    rcases h.window hp hn with h4 | ⟨h4, -⟩
    · exact h4
    · have := h4 q h1 h2
      rw [h3] at this
      cases hg : g q <;> rw [hg] at this <;> cases this
  obtain ⟨n0, hn0, h1, h2⟩ : ∃ n, n < L ∧ n ≤ q ∧ q < n + 4 := ⟨min q (L - 1), by omega, by omega, by omega⟩
  have hall : ∀ k n, n < L → (n = n0 + k ∨ n + k = n0) → ∀ q, n ≤ q → q < n + 4 → f q = g q := by
    intro k
    induction k with
    | zero =>
      intro n hn hk
      obtain rfl : n = n0 := by omega
      exact hw n hn ⟨q, h1, h2, he⟩
    | succ k ih =>
      intro n hn hk
      rcases hk with hk | hk
      · exact hw n hn ⟨n, by omega, by omega, ih (n - 1) (by omega) (.inl (by omega)) n (by omega) (by omega)⟩
      · exact hw n hn ⟨n + 1, by omega, by omega, ih (n + 1) (by omega) (.inr (by omega)) (n + 1) (by omega) (by omega)⟩
  intro r hr
  obtain ⟨n, hn, g1, g2⟩ : ∃ n, n < L ∧ n ≤ r ∧ r < n + 4 := ⟨min r (L - 1), by omega, by omega, by omega⟩
  rcases Nat.le_total n n0 with h5 | h5
  · exact hall (n0 - n) n hn (.inr (by omega)) r g1 g2
  · exact hall (n - n0) n hn (.inl (by omega)) r g1 g2

/-- Rows that look alike and do not alternate throughout are equal. -/
theorem Alike.steady {mode : VideoMode} {pal : Palette} {rgb : Colour → RGB} (hp : (pal, rgb) ∈ palettes) {ph L : Nat}
    {f g : Nat → Bool} (h : Alike mode rgb ph L f g) {q : Nat} (hq : q + 1 < L + 3) (hL : 0 < L) (he : f (q + 1) = f q) :
    ∀ r, r < L + 3 → f r = g r := by
  obtain ⟨n, hn, h1, h2⟩ : ∃ n, n < L ∧ n ≤ q ∧ q + 1 < n + 4 := ⟨min q (L - 1), by omega, by omega, by omega⟩
  rcases h.window hp hn with h4 | ⟨-, h4⟩
  · exact h.agree hp (q := q) (by omega) hL (h4 q h1 (by omega))
  · have := h4 q h1 h2
    rw [he] at this
    cases hf : f q <;> rw [hf] at this <;> cases this

theorem hasBits_winVal (mode : VideoMode) (m a : Mem) (isAux : Bool) (p : Fin 32) (o : Fin 256) :
    HasBits (BitVec.ofNat 64 (winVal mode m a isAux p o)) (window mode m a isAux p o) := by
  intro i hi
  rw [BitVec.getLsbD_ofNat, decide_eq_true hi, Bool.true_and]
  exact testBit_bitsVal _ i

/-- The dots of a window. -/
def winDot (mode : VideoMode) (m : Mem × Mem) (a : Bool) (p : Fin 32) (o : Fin 256) (n : Nat) : Bool :=
  match mode with
  | .HGR => windowDot (before (m.1 p) o) (m.1 p o) (after (m.1 p) o) n
  | .DHGR => (window .DHGR m.1 m.2 a p o).getD n false

theorem winDot_ok (mode : VideoMode) (m : Mem × Mem) {a : Bool} (hx : AuxOk mode a) (p : Fin 32) (o : Fin 256) :
    ∃ d, mode.toDots (BitVec.ofNat 64 (winVal mode m.1 m.2 a p o)) (mode.kOf a o) = .ok d ∧
      ∀ n, n < 64 → d.getLsbD n = winDot mode m a p o n := by
  have hb := hasBits_winVal mode m.1 m.2 a p o
  cases mode with
  | HGR =>
    obtain ⟨d, h1, h2⟩ := hgrToDots_window _ _ _ _ _ hb
    refine ⟨d, ?_, fun n _ => h2 n⟩
    rw [show (if (o.val % 2 == 1) = true then 1 else 0) = VideoMode.kOf .HGR a o by
      show _ = o.val % 2
      rcases Nat.mod_two_eq_zero_or_one o.val with h | h <;> simp [h]] at h1
    exact h1
  | DHGR => exact ⟨_, rfl, hb⟩

/-- Colour phase of a window. -/
def phOf (mode : VideoMode) (a : Bool) (o : Fin 256) : Nat := mode.cls.phases.getD (mode.kOf a o) 0

theorem phase_some (mode : VideoMode) (a : Bool) (o : Fin 256) : mode.cls.phases[mode.kOf a o]? = some (phOf mode a o) := by
  have h : mode.kOf a o < mode.cls.phases.length := by
    cases mode
    · show o.val % 2 < 2; omega
    · cases a
      · show 2 * (o.val % 2) + 1 < 4; omega
      · show 2 * (o.val % 2) + 0 < 4; omega
  unfold phOf
  rw [List.getD_eq_getElem?_getD, List.getElem?_eq_getElem h]
  rfl

/-- Zero distance in the loaded table: the windows look alike. -/
theorem alike_of_zero {deltaE : RGB → RGB → Int} (hd : ColourDifference deltaE) (hs : Separates deltaE)
    {dm0 : Nat → Nat → Int} {mode : VideoMode} {pal : Palette} {rgb : Colour → RGB} (hp : (pal, rgb) ∈ palettes)
    {t : EditTable} (ht : Loaded deltaE dm0 mode pal t) (m m' : Mem × Mem) {a : Bool} (hx : AuxOk mode a) (p : Fin 32)
    (o : Fin 256) : windowDist mode t m m' a p o = 0 ↔
    Alike mode rgb (phOf mode a o) mode.cls.maskedDots (winDot mode m a p o) (winDot mode m' a p o) := by
  obtain ⟨d, d1, d2⟩ := winDot_ok mode m hx p o
  obtain ⟨d', d1', d2'⟩ := winDot_ok mode m' hx p o
  obtain ⟨l, l1, l2, l3⟩ := dotsLoop_spec (isTable_mode mode) d.toNat (phOf mode a o) mode.cls.maskedDots 0 (phOf mode a o) (by omega)
  obtain ⟨l', l1', l2', l3'⟩ := dotsLoop_spec (isTable_mode mode) d'.toNat (phOf mode a o) mode.cls.maskedDots 0 (phOf mode a o) (by omega)
  have hz := C57_zero_iff_looks_same deltaE hd hs dm0 mode pal rgb hp t ht _ _ _ _ (phase_some mode a o)
    (winVal_lt mode m.1 m.2 a p o) (winVal_lt mode m'.1 m'.2 a p o) d d' l l' d1 d1' l1 l1'
  have hw : windowDist mode t m m' a p o = 0 ↔ l.map rgb = l'.map rgb := by
    rw [← hz]
    unfold windowDist
    constructor
    · intro h
      exact BitVec.eq_of_toNat_eq h
    · intro h
      rw [h]; rfl
  rw [hw]
  have hm := maskedDots_le mode
  have s1 : ∀ n (h : n < l.length), ShowsColour mode.colourValue (winDot mode m a p o) (phOf mode a o) n l[n] := by
    intro n h q hq hq'
    rw [← d2 q (by omega), l3 n h q (by omega) (by omega)]
    rfl
  have s2 : ∀ n (h : n < l'.length), ShowsColour mode.colourValue (winDot mode m' a p o) (phOf mode a o) n l'[n] := by
    intro n h q hq hq'
    rw [← d2' q (by omega), l3' n h q (by omega) (by omega)]
    rfl
  constructor
  · intro h
    refine ⟨fun n hn => ⟨l[n]'(by omega), l'[n]'(by omega), s1 n _, s2 n _, ?_⟩⟩
    have := congrArg (·[n]?) h
    simp only [List.getElem?_map, List.getElem?_eq_getElem (show n < l.length by omega),
      List.getElem?_eq_getElem (show n < l'.length by omega), Option.map_some] at this
    exact Option.some.inj this
  · intro h
    apply List.ext_getElem (by simp [l2, l2'])
    intro n h1 h2
    simp only [List.length_map] at h1 h2
    obtain ⟨c, c', e1, e2, e3⟩ := h.at_ n (by omega)
    rw [List.getElem_map, List.getElem_map, ← showsColour_unique (isTable_mode mode) e1 (s1 n h1) (fun _ _ _ => rfl),
      ← showsColour_unique (isTable_mode mode) e2 (s2 n h2) (fun _ _ _ => rfl)]
    exact e3

/-- HGR: zero distance means the same dots. -/
theorem hgr_zero {deltaE : RGB → RGB → Int} (hd : ColourDifference deltaE) (hs : Separates deltaE)
    {dm0 : Nat → Nat → Int} {pal : Palette} {rgb : Colour → RGB} (hp : (pal, rgb) ∈ palettes)
    {t : EditTable} (ht : Loaded deltaE dm0 .HGR pal t) {m m' : Mem × Mem} {p : Fin 32}
    {o : Fin 256} (h : windowDist .HGR t m m' false p o = 0) :
    ∀ n, n < 21 → windowDot (before (m.1 p) o) (m.1 p o) (after (m.1 p) o) n
      = windowDot (before (m'.1 p) o) (m'.1 p o) (after (m'.1 p) o) n := by
  have ha := (alike_of_zero hd hs hp ht m m' (a := false) (by intro h; cases h) p o).mp h
  have : ∃ q, q + 1 < 21 ∧ winDot .HGR m false p o (q + 1) = winDot .HGR m false p o q := by
    cases hb : (m.1 p o).getLsbD 7
    · refine ⟨3, by omega, ?_⟩
      simp only [winDot, windowDot, dotOf, hb]
      rfl
    · refine ⟨4, by omega, ?_⟩
      simp only [winDot, windowDot, dotOf, hb]
      rfl
  obtain ⟨q, hq, he⟩ := this
  exact ha.steady hp hq (by decide) he

/-- DHGR: zero distance means the same dots, or all dots the other way round. -/
theorem dhgr_zero {deltaE : RGB → RGB → Int} (hd : ColourDifference deltaE) (hs : Separates deltaE)
    {dm0 : Nat → Nat → Int} {pal : Palette} {rgb : Colour → RGB} (hp : (pal, rgb) ∈ palettes)
    {t : EditTable} (ht : Loaded deltaE dm0 .DHGR pal t) {m m' : Mem × Mem} {a : Bool} {p : Fin 32}
    {o : Fin 256} (h : windowDist .DHGR t m m' a p o = 0) {q : Nat} (hq : q < 13)
    (he : (window .DHGR m.1 m.2 a p o).getD q false = (window .DHGR m'.1 m'.2 a p o).getD q false) :
    window .DHGR m.1 m.2 a p o = window .DHGR m'.1 m'.2 a p o := by
  have ha := (alike_of_zero hd hs hp ht m m' (fun _ => rfl) p o).mp h
  have := ha.agree hp (q := q) hq (by decide) he
  apply List.ext_getElem (by rw [window_length, window_length])
  intro n h1 h2
  have hn : n < 13 := by rw [window_length] at h1; exact h1
  have := this n hn
  simpa [winDot, List.getD_eq_getElem?_getD, List.getElem?_eq_getElem h1, List.getElem?_eq_getElem h2] using this

/-- The bits of a byte in its own window. -/
theorem dhgr_byte_of_window {m m' : Mem × Mem} {a : Bool} {p : Fin 32} {o : Fin 256}
    (h : window .DHGR m.1 m.2 a p o = window .DHGR m'.1 m'.2 a p o)
    (h1 : (bankOf m a p o).toNat < 0x80) (h2 : (bankOf m' a p o).toNat < 0x80) : bankOf m a p o = bankOf m' a p o := by
  apply BitVec.eq_of_getLsbD_eq
  intro i hi
  by_cases h7 : i = 7
  · subst h7
    rw [BitVec.getLsbD, BitVec.getLsbD, Nat.testBit_lt_two_pow h1, Nat.testBit_lt_two_pow h2]
  · cases a <;> simp only [window, dhgrWindow, List.cons.injEq] at h <;> simp only [bankOf] <;> interval_cases i <;> simp_all

/-! ### When a frame is done -/

theorem run_cons_inv {t : EditTable} {e e1 e2 : Enc} {c : Call} {cs : List Call} {s tr : List Step}
    (h1 : e.call t c = .ok (e1, s)) (h2 : e.run t (c :: cs) = .ok (e2, tr)) : ∃ tr', e1.run t cs = .ok (e2, tr') ∧ tr = s ++ tr' := by
  unfold Enc.run at h2
  simp only [h1, bind, Except.bind] at h2
  cases hr : e1.run t cs with
  | error x => rw [hr] at h2; cases h2
  | ok x => rw [hr] at h2; cases h2; exact ⟨_, rfl, rfl⟩

theorem pulls_steps {t : EditTable} {mode : VideoMode} (m : Nat) : ∀ {e : Enc} {g : Gen} {e' : Enc} {tr : List Step},
    EInv t mode e → e.gen = some g → e.run t (List.replicate m .pull) = .ok (e', tr) →
    (∀ s ∈ tr, StepOk t mode s ∧ s.target = g.target ∧ s.isAux = g.isAux) ∧ Chain e.v tr e'.v := by
  induction m with
  | zero =>
    intro e g e' tr _ _ hr
    cases hr
    exact ⟨fun s hs => absurd hs List.not_mem_nil, rfl, fun _ => rfl⟩
  | succ m ih =>
    intro e g e' tr h hg hr
    obtain ⟨e1, s, g1, a1, a2, a3, a4, a5, a6, -, a8, a9, -, -, a12, a13, -⟩ := pull_ok h hg
    rw [List.replicate_succ] at hr
    obtain ⟨tr', hr2, rfl⟩ := run_cons_inv a1 hr
    · obtain ⟨b1, b2⟩ := ih a2 a4 hr2
      refine ⟨?_, by rw [a12], fun _ => by rw [a12], by rw [a13]; exact b2⟩
      intro s' hs'
      rcases List.mem_cons.mp hs' with rfl | hs'
      · exact ⟨a3, a8, a9⟩
      · obtain ⟨c1, c2, c3⟩ := b1 s' hs'
        exact ⟨c1, c2.trans a5, c3.trans a6⟩

/-- The other bank. -/
theorem steps_other {t : EditTable} {mode : VideoMode} {a : Bool} : ∀ (tr : List Step) {v v' : Video},
    (∀ s ∈ tr, StepOk t mode s ∧ s.isAux = a) → Chain v tr v' →
    v'.pixelmap.bank (!a) = v.pixelmap.bank (!a) ∧ ∀ m, bankOf (play m tr) (!a) = bankOf m (!a) := by
  intro tr
  induction tr with
  | nil => intro v v' _ hc; exact ⟨by rw [hc.1], fun _ => rfl⟩
  | cons s tr ih =>
    intro v v' hk hc
    obtain ⟨i1, i2⟩ := ih (fun s' hs' => hk s' (List.mem_cons_of_mem _ hs')) hc.2.2
    obtain ⟨h1, h2⟩ := hk s List.mem_cons_self
    subst h2
    cases hp : s.padding with
    | false =>
      obtain ⟨page, offset, extra, hE, -, -⟩ := h1.emit hp
      refine ⟨?_, fun m => ?_⟩
      · rw [i1, hE.bankOther, h1.midMap, hc.1]
      · exact (i2 _).trans (hE.play m).2
    | true =>
      obtain ⟨o1, -, o3, -⟩ := h1.pad hp
      refine ⟨?_, fun m => ?_⟩
      · rw [i1, o3, hc.1]
      · refine (i2 _).trans ?_
        show bankOf (playOp m s.isAux s.op) _ = _
        rw [o1]
        exact (bankOf_stores s.isAux 0 (s.target.bank s.isAux 0 0) [0, 0, 0, 0] m).2

/-- The first byte, in the player's memory: after a padding operation it is the encoder's or the target's. -/
theorem steps_first {t : EditTable} {mode : VideoMode} {a : Bool} {tgt : Bitmap} : ∀ (tr : List Step) {v v' : Video},
    (∀ s ∈ tr, StepOk t mode s ∧ s.target = tgt ∧ s.isAux = a) → Chain v tr v' → ∀ m,
    (bankOf m a 0 0 = v.pixelmap.bank a 0 0 ∨ bankOf m a 0 0 = tgt.bank a 0 0) ∨ (∃ s ∈ tr, s.padding = true) →
    bankOf (play m tr) a 0 0 = v'.pixelmap.bank a 0 0 ∨ bankOf (play m tr) a 0 0 = tgt.bank a 0 0 := by
  intro tr
  induction tr with
  | nil =>
    intro v v' _ hc m h
    rcases h with h | ⟨s, hs, -⟩
    · rw [hc.1]; exact h
    · cases hs
  | cons s tr ih =>
    intro v v' hk hc m h
    obtain ⟨h1, h2, h3⟩ := hk s List.mem_cons_self
    subst h2 h3
    refine ih (fun s' hs' => hk s' (List.mem_cons_of_mem _ hs')) hc.2.2 _ ?_
    cases hp : s.padding with
    | true =>
      obtain ⟨o1, -, o3, -⟩ := h1.pad hp
      left; right
      show bankOf (playOp m s.isAux s.op) _ 0 0 = _
      rw [o1]
      have := (bankOf_stores s.isAux 0 (s.target.bank s.isAux 0 0) [0, 0, 0, 0] m).1
      refine (congrFun (congrFun this 0) 0).trans ?_
      simp [storeAll]
    | false =>
      rcases h with h | ⟨s', hs', hp'⟩
      · left
        obtain ⟨page, offset, extra, hE, -, -⟩ := h1.emit hp
        show bankOf (playOp m s.isAux s.op) _ 0 0 = _ ∨ bankOf (playOp m s.isAux s.op) _ 0 0 = _
        rw [(hE.play m).1, hE.bank, h1.midMap, hc.1]
        unfold storeAll
        split
        · exact .inl rfl
        · exact h
      · right
        rcases List.mem_cons.mp hs' with rfl | hs'
        · rw [hp] at hp'; cases hp'
        · exact ⟨s', hs', hp'⟩

/-- Only the target's bytes are written. -/
theorem steps_bytes {t : EditTable} {mode : VideoMode} {a : Bool} {tgt : Bitmap} : ∀ (tr : List Step) {v v' : Video},
    (∀ s ∈ tr, StepOk t mode s ∧ s.target = tgt ∧ s.isAux = a) → Chain v tr v' → ∀ p o,
    v'.pixelmap.bank a p o = v.pixelmap.bank a p o ∨ ∃ p' o', v'.pixelmap.bank a p o = tgt.bank a p' o' := by
  intro tr
  induction tr with
  | nil => intro v v' _ hc p o; left; rw [hc.1]
  | cons s tr ih =>
    intro v v' hk hc p o
    obtain ⟨h1, h2, h3⟩ := hk s List.mem_cons_self
    subst h2 h3
    rcases ih (fun s' hs' => hk s' (List.mem_cons_of_mem _ hs')) hc.2.2 p o with i | i
    · rw [i]
      cases hp : s.padding with
      | true =>
        obtain ⟨-, -, o3, -⟩ := h1.pad hp
        left; rw [o3, hc.1]
      | false =>
        obtain ⟨page, offset, extra, hE, -, -⟩ := h1.emit hp
        rw [hE.bank, h1.midMap, hc.1]
        unfold storeAll
        split
        · exact .inr ⟨_, _, hE.opContent⟩
        · exact .inl rfl
    · exact .inr i

/-- A frame is started after any legal history and pulled `m` times: the other bank stays as it is, and if less
than `m` bytes looked different, then for each displayed byte, in the memories of encoder and player: it had weight zero and the
encoder has left it alone, or it has error zero; and the player has what the encoder has, except that it may have
the target's first byte. -/
theorem frame_done {mode : VideoMode} {t : EditTable} (tape : Nat → Nat) {pre : List Call} {tgt : Bitmap} {a : Bool} {m : Nat}
    (h : Legal mode (pre ++ .start tgt a :: List.replicate m .pull)) (hz : ZeroDiag mode.cls.maskedBits t) :
    ∃ e0 tr0 e tr, runNew mode t tape pre = .ok (e0, tr0) ∧
      runNew mode t tape (pre ++ .start tgt a :: List.replicate m .pull) = .ok (e, tr0 ++ tr) ∧
      EInv t mode e0 ∧ EInv t mode e ∧
      e.v.pixelmap.bank (!a) = e0.v.pixelmap.bank (!a) ∧
      bankOf (play blank (tr0 ++ tr)) (!a) = bankOf (play blank tr0) (!a) ∧
      (∀ p o, (p, o) ≠ (0, 0) → bankOf (play blank (tr0 ++ tr)) a p o = e.v.pixelmap.bank a p o) ∧
      (∀ p o, e.v.pixelmap.bank a p o = e0.v.pixelmap.bank a p o ∨ ∃ p' o', e.v.pixelmap.bank a p o = tgt.bank a p' o') ∧
      (differing mode t (banks e0.v.pixelmap) (banks tgt) a < m →
        (bankOf (play blank (tr0 ++ tr)) a 0 0 = e.v.pixelmap.bank a 0 0 ∨
          bankOf (play blank (tr0 ++ tr)) a 0 0 = tgt.bank a 0 0) ∧
        ∀ p o, Displayed o →
          (weight mode t (banks e0.v.pixelmap) (banks tgt) a p o = 0 ∧ e.v.pixelmap.bank a p o = e0.v.pixelmap.bank a p o) ∨
          (weight mode t (banks e0.v.pixelmap) (banks tgt) a p o ≠ 0 ∧
            storeError mode t (banks tgt) a p o (e.v.pixelmap.bank a p o) = 0)) := by
  obtain ⟨e0, tr0, e, tr, h1, h2, h3, h4⟩ := C20_converges mode t tape pre tgt a m h
  have hpre : Legal mode pre := by
    refine ⟨fun c hc => h.each c (by simp [hc]), ?_⟩
    intro c hc
    apply h.first
    cases pre with
    | nil => simp at hc
    | cons x xs => simpa using hc
  obtain ⟨ei, e0', tr0', i1, i2, i3, i4, i5, i6⟩ := runNew_ok (t := t) hpre tape
  rw [h1] at i2; cases i2
  obtain ⟨ei', e', tr', j1, j2, j3, j4, j5, j6⟩ := runNew_ok (t := t) h tape
  rw [h3] at j2; cases j2
  obtain ⟨e1, trs, s1, s2, -⟩ := call_ok (t := t) i3 (.start tgt a) (h.each _ (by simp)) (.inl rfl)
  have he1 : e1 = { e0 with gen := some (.notStarted tgt a) } ∧ trs = [] := by
    have : Enc.call t e0 (.start tgt a) = .ok ({ e0 with gen := some (.notStarted tgt a) }, []) := rfl
    rw [this] at s1
    cases s1; exact ⟨rfl, rfl⟩
  obtain ⟨rfl, rfl⟩ := he1
  have hr : ({ e0 with gen := some (.notStarted tgt a) } : Enc).run t (List.replicate m .pull) = .ok (e, tr) := by
    obtain ⟨tr', hr, rfl⟩ := run_cons_inv s1 h2
    exact hr
  obtain ⟨k1, k2⟩ := pulls_steps m s2 rfl hr
  obtain ⟨o1, o2⟩ := steps_other (a := a) tr (fun s hs => ⟨(k1 s hs).1, (k1 s hs).2.2⟩) k2
  have hplay : play blank (tr0 ++ tr) = play (play blank tr0) tr := List.foldl_append ..
  refine ⟨e0, tr0, e, tr, h1, h3, i3, j3, o1, ?_, ?_, steps_bytes tr k1 k2, ?_⟩
  · rw [hplay]; exact o2 _
  · exact (C17_player_agrees mode t tape _ h e _ h3).1 a
  · intro hN
    obtain ⟨-, l1, l2, l3⟩ := h4
    obtain ⟨-, l4, -⟩ := l3 hN
    refine ⟨?_, fun p o ho => ?_⟩
    · rw [hplay]
      refine steps_first tr (tgt := tgt) k1 k2 _ (.inr ?_)
      by_contra hno
      have : tr.filter (fun s => !s.padding) = tr := by
        apply List.filter_eq_self.mpr
        intro s hs
        cases hp : s.padding
        · rfl
        · exact absurd ⟨s, hs, hp⟩ hno
      rw [this, l1] at l2
      exact absurd hN (by unfold differing; omega)
    · exact l4 hz p o ho

end IIVision
