import Verif.Props.Journey
import Verif.Props.Quick
import Verif.Spec.Seen
import Verif.Proofs.Bind

/-! Lemmas for C83. -/

namespace IIVision
open Spec

/-! ### Thresholds that cannot be told apart give the same stream -/

theorem fetch_thr {M : Movie} {thr' : Nat → Nat} {aux : Bool} {c : Coder} (h : M.thr c.frameNumber ≤ c.ticks ↔ thr' c.frameNumber ≤ c.ticks) :
    Coder.fetch { M with thr := thr' } aux c = Coder.fetch M aux c := by
  unfold Coder.fetch
  show (if thr' c.frameNumber ≤ c.ticks then _ else _) = _
  by_cases hc : M.thr c.frameNumber ≤ c.ticks
  · rw [if_pos hc, if_pos (h.1 hc)]; rfl
  · rw [if_neg hc, if_neg fun x => hc (h.2 x)]

theorem iter_thr {M : Movie} {thr' : Nat → Nat} {aux : Bool} {c : Coder} {au : Int}
    (h : M.thr c.frameNumber ≤ c.ticks + 1 ↔ thr' c.frameNumber ≤ c.ticks + 1) :
    Coder.iter { M with thr := thr' } aux c au = Coder.iter M aux c au := by
  unfold Coder.iter
  rw [fetch_thr (c := { c with ticks := c.ticks + 1 }) h]
  rfl

/-- The numbers that the encoder counts. -/
structure Counts (T : Nat) (c : Coder) : Prop where
  ticks : c.ticks + c.audio.length ≤ T
  frames : c.frameNumber ≤ c.ticks

theorem next_thr {M : Movie} {thr' : Nat → Nat} {aux : Bool} {c : Coder} {T : Nat} (hT : Counts T c)
    (h : ∀ k t, k ≤ T → t ≤ T → (M.thr k ≤ t ↔ thr' k ≤ t)) :
    Coder.next { M with thr := thr' } aux c = Coder.next M aux c := by
  obtain ⟨h1, h2⟩ := hT
  unfold Coder.next
  cases hp : c.phase with
  | new => rfl
  | header =>
    simp only [if_true]
    cases ha : c.audio with
    | nil => rfl
    | cons x l =>
      simp only
      rw [ha, List.length_cons] at h1
      exact iter_thr (h _ _ (by show c.frameNumber ≤ T; omega) (by show c.ticks + 1 ≤ T; omega))
  | loop =>
    simp only [reduceCtorEq, if_false]
    cases ha : c.audio with
    | nil => rfl
    | cons x l =>
      simp only
      rw [ha, List.length_cons] at h1
      exact iter_thr (h _ _ (by show c.frameNumber ≤ T; omega) (by show c.ticks + 1 ≤ T; omega))

theorem newFrame_counts {M : Movie} {aux : Bool} {c c' : Coder} {f : Frame} (h : Coder.newFrame M aux c f = .ok c') :
    c'.ticks = c.ticks ∧ c'.audio = c.audio ∧ c'.frameNumber = c.frameNumber := by
  unfold Coder.newFrame at h
  refine bind_ok_elim h fun b h => ?_
  split at h
  · refine bind_ok_elim h fun b h => ?_
    cases h; exact ⟨rfl, rfl, rfl⟩
  · cases h; exact ⟨rfl, rfl, rfl⟩

theorem iter_counts {M : Movie} {aux : Bool} {c c' : Coder} {au : Int} {op : Opcode} (h : Coder.iter M aux c au = .ok (some (op, c'))) :
    c'.ticks = c.ticks + 1 ∧ c'.audio = c.audio ∧ c'.frameNumber ≤ c.frameNumber + 1 := by
  unfold Coder.iter at h
  cases hf : Coder.fetch M aux { c with ticks := c.ticks + 1 } with
  | error e => rw [hf] at h; cases h
  | ok o =>
    rw [hf, Except.bind_ok] at h
    cases o with
    | none => cases h
    | some c1 =>
      have e1 : c1.ticks = c.ticks + 1 ∧ c1.audio = c.audio ∧ c1.frameNumber ≤ c.frameNumber + 1 := by
        unfold Coder.fetch at hf
        split at hf
        · split at hf
          · cases hf
          · rename_i f fs hfs
            cases hn : Coder.newFrame M aux { c with ticks := c.ticks + 1, frameNumber := c.frameNumber + 1, frames := fs } f with
            | error e => rw [hn] at hf; cases hf
            | ok c2 =>
              rw [hn] at hf
              cases hf
              obtain ⟨n1, n2, n3⟩ := newFrame_counts hn
              exact ⟨n1, n2, n3.le⟩
        · cases hf; exact ⟨rfl, rfl, Nat.le_succ _⟩
      simp only at h
      cases hfl : c1.flip aux with
      | error e => rw [hfl] at h; cases h
      | ok c2 =>
        rw [hfl, Except.bind_ok] at h
        have e2 : c2.ticks = c1.ticks ∧ c2.audio = c1.audio ∧ c2.frameNumber = c1.frameNumber := by
          unfold Coder.flip at hfl
          split at hfl
          · split at hfl
            · cases hfl
            · cases hfl; exact ⟨rfl, rfl, rfl⟩
          · cases hfl; exact ⟨rfl, rfl, rfl⟩
        cases ht : c2.tickOp M au with
        | error e => rw [ht] at h; cases h
        | ok r =>
          rw [ht] at h
          cases h
          unfold Coder.tickOp at ht
          split at ht
          · cases ht
          · refine bind_ok_elim ht fun _ ht => ?_
            refine bind_ok_elim ht fun _ ht => ?_
            refine bind_ok_elim ht fun _ ht => ?_
            cases ht
            obtain ⟨a1, a2, a3⟩ := e1
            obtain ⟨b1, b2, b3⟩ := e2
            exact ⟨b1.trans a1, b2.trans a2, by show c2.frameNumber ≤ _; omega⟩

theorem next_counts {M : Movie} {aux : Bool} {c c' : Coder} {op : Opcode} {T : Nat} (hT : Counts T c) (h : Coder.next M aux c = .ok (some (op, c'))) :
    Counts T c' := by
  obtain ⟨h1, h2⟩ := hT
  unfold Coder.next at h
  cases hp : c.phase with
  | new => rw [hp] at h; cases h; exact ⟨h1, h2⟩
  | header =>
    rw [hp] at h
    simp only [if_true] at h
    cases ha : c.audio with
    | nil => rw [ha] at h; cases h
    | cons x l =>
      rw [ha] at h
      obtain ⟨i1, i2, i3⟩ := iter_counts h
      rw [ha, List.length_cons] at h1
      simp only at i1 i2 i3
      exact ⟨by rw [i1, i2]; omega, by omega⟩
  | loop =>
    rw [hp] at h
    simp only [reduceCtorEq, if_false] at h
    cases ha : c.audio with
    | nil => rw [ha] at h; cases h
    | cons x l =>
      rw [ha] at h
      obtain ⟨i1, i2, i3⟩ := iter_counts h
      rw [ha, List.length_cons] at h1
      simp only at i1 i2 i3
      exact ⟨by rw [i1, i2]; omega, by omega⟩

theorem emitLoop_thr {M : Movie} {thr' : Nat → Nat} {T : Nat} (h : ∀ k t, k ≤ T → t ≤ T → (M.thr k ≤ t ↔ thr' k ≤ t)) :
    ∀ (r : Nat) (c : Coder) (pos : Nat) (aux : Bool), Counts T c →
      Movie.emitLoop { M with thr := thr' } (Coder.next { M with thr := thr' }) r c pos aux = Movie.emitLoop M (Coder.next M) r c pos aux := by
  intro r
  induction r with
  | zero => intro c pos aux _; rfl
  | succ r ih =>
    intro c pos aux hc
    rw [Movie.emitLoop, Movie.emitLoop, next_thr hc h]
    cases hn : Coder.next M aux c with
    | error e => rfl
    | ok o =>
      rw [Except.bind_ok, Except.bind_ok]
      cases o with
      | none => rfl
      | some oc =>
        obtain ⟨op, c'⟩ := oc
        have hc' := next_counts hc hn
        simp only
        by_cases hl : M.atLimit pos = true
        · rw [if_pos hl, if_pos (show Movie.atLimit { M with thr := thr' } pos = true from hl)]; rfl
        · rw [if_neg hl, if_neg (show ¬ Movie.atLimit { M with thr := thr' } pos = true from hl)]
          show (M.ackIfDue _ _ >>= _) = _
          cases M.ackIfDue (pos + (op.emit M.addr).length) aux with
          | error e => rfl
          | ok v =>
            rw [Except.bind_ok, Except.bind_ok]
            simp only [ih c' _ _ hc']

/-- Only the frames fetched up to the end of the sound matter. -/
theorem stream_thr {M : Movie} {thr' : Nat → Nat} {T : Nat} (h : ∀ k t, k ≤ T → t ≤ T → (M.thr k ≤ t ↔ thr' k ≤ t)) {tape : Nat → Nat}
    {A : List Int} {F : List Frame} (hA : A.length ≤ T) : Movie.stream { M with thr := thr' } tape A F = M.stream tape A F := by
  unfold Movie.stream Movie.start
  show ((Video.new M.mode >>= _) >>= _) = _
  cases Video.new M.mode with
  | error e => rfl
  | ok v => exact emitLoop_thr h _ _ _ _ ⟨by simpa using hA, le_refl _⟩

/-! ### Thresholds and times -/

theorem paced_threshold {rnd : Rat → Rat} (hr : Double rnd) {n d b : Nat} (hg : GoodRates n d b) {fr tpf : Rat}
    (h1 : frameRate rnd (decText n ++ txt "/" ++ decText d) = .ok fr) (h2 : ticksPerFrame rnd b fr = .ok tpf) :
    ∃ thr', Paced thr' ∧ (∀ k t, k ≤ 2 ^ 48 → t ≤ 2 ^ 48 → (tickThreshold rnd tpf k ≤ t ↔ thr' k ≤ t)) ∧
      (∀ k t : Nat, 1 ≤ t → frameTime n d k * (1 + 1 / 2 ^ 49) ≤ soundTime b t → due thr' k ≤ t) ∧
      (∀ k t : Nat, 1 ≤ k → soundTime b t < frameTime n d k * (1 - 1 / 2 ^ 49) → t < due thr' k) := by
  have hn : (0 : Rat) < n := by exact_mod_cast hg.n1
  have hb : (0 : Rat) < b := by exact_mod_cast hg.b1
  have hq : (2 : Rat) ≤ b * d / n := by
    rw [le_div_iff₀ hn]; exact_mod_cast hg.two
  obtain ⟨q, hqd⟩ : ∃ q : Rat, q = b * d / n := ⟨_, rfl⟩
  have near : ∀ k : Nat, 1 ≤ k → k ≤ 2 ^ 48 → |rnd (tpf * rnd k) - q * k| ≤ q * k / 2 ^ 50 := by
    intro k h3 h4
    rw [hqd]; exact (threshold_near hr hg h1 h2 h3 h4).abs
  rw [← hqd] at hq
  obtain ⟨x, hx⟩ : ∃ x : Nat → Rat, x = fun k : Nat => rnd (tpf * rnd (k : Rat)) := ⟨_, rfl⟩
  have hxk : ∀ k : Nat, rnd (tpf * rnd k) = x k := fun k => by rw [hx]
  simp only [hxk] at near
  have hx0 : x 0 = 0 := by rw [hx]; simp [hr.zero]
  obtain ⟨y, hy⟩ : ∃ y : Nat → Rat, y = fun k : Nat => if q * (k : Rat) ≤ 2 ^ 49 then x k else q * k := ⟨_, rfl⟩
  have small : ∀ k : Nat, q * k ≤ 2 ^ 49 → k ≤ 2 ^ 48 := by
    intro k h
    have hk0 : (0 : Rat) ≤ k := by positivity
    have : (2 : Rat) * k ≤ q * k := by gcongr
    have h3 : (2 : Rat) * k ≤ 2 ^ 49 := le_trans this h
    have h4 : 2 * k ≤ 2 ^ 49 := by exact_mod_cast h3
    omega
  have hy0 : y 0 = 0 := by rw [hy]; simp [hx0]
  have hyq : ∀ k : Nat, 1 ≤ k → |y k - q * k| ≤ q * k / 2 ^ 50 := by
    intro k hk
    have hk0 : (0 : Rat) ≤ k := by positivity
    rw [hy]
    by_cases hc : q * k ≤ 2 ^ 49
    · simp only [if_pos hc]; exact near k hk (small k hc)
    · simp only [if_neg hc, sub_self, abs_zero]; positivity
  have hyh : ∀ k : Nat, |y k - q * k| ≤ 1 / 2 := by
    intro k
    rcases Nat.eq_zero_or_pos k with rfl | hk
    · simp [hy0]
    · by_cases hc : q * k ≤ 2 ^ 49
      · refine le_trans (hyq k hk) ?_
        rw [div_le_iff₀ (by positivity)]
        refine le_trans hc (by norm_num)
      · rw [hy]; simp only [if_neg hc, sub_self, abs_zero]; norm_num
  obtain ⟨hp, hdue⟩ := C29_float_thresholds q hq y hy0 hyh
  have key : ∀ k : Nat, frameTime n d k = q * k / b := by
    intro k
    rw [hqd]; unfold frameTime; field_simp
  refine ⟨fun k => ⌈y k⌉₊, hp, ?_, ?_, ?_⟩
  · intro k t hk ht
    unfold tickThreshold
    rw [threshold_le, Nat.ceil_le, hxk]
    by_cases hc : q * k ≤ 2 ^ 49
    · rw [hy]; simp only [if_pos hc]
    · have hyk : y k = q * k := by rw [hy]; simp only [if_neg hc]
      have hk1 : 1 ≤ k := by
        rcases Nat.eq_zero_or_pos k with rfl | hk
        · exact absurd (by norm_num) hc
        · exact hk
      have ht' : (t : Rat) ≤ 2 ^ 48 := by exact_mod_cast ht
      have h3 := (abs_le.mp (near k hk1 hk)).1
      rw [hyk]
      constructor
      · intro h; exfalso
        have : q * k * (1 - 1 / 2 ^ 50) ≤ 2 ^ 48 := by
          have : q * k * (1 - 1 / 2 ^ 50) = q * k - q * k / 2 ^ 50 := by ring
          linarith
        have h4 : (2 : Rat) ^ 49 * (1 - 1 / 2 ^ 50) ≤ q * k * (1 - 1 / 2 ^ 50) := by
          have := (not_le.mp hc).le
          gcongr
        have h5 := le_trans h4 this
        norm_num at h5
      · intro h; exact absurd (le_trans h (le_trans ht' (by norm_num))) hc
  · intro k t ht hle
    rcases Nat.eq_zero_or_pos k with rfl | hk
    · unfold due; simp only [hy0, Nat.ceil_zero]; omega
    · rw [hdue k hk]
      rw [key] at hle
      unfold soundTime at hle
      rw [div_mul_eq_mul_div, div_le_div_iff_of_pos_right hb] at hle
      have h3 := (abs_le.mp (hyq k hk)).2
      have h0 : (0 : Rat) ≤ q * k := by positivity
      have h4 : q * k / 2 ^ 50 ≤ q * k * (1 / 2 ^ 49) := by
        rw [div_eq_mul_inv]
        gcongr
        norm_num
      linarith
  · intro k t hk hlt
    by_contra hc
    have hle := (hdue k hk t).1 (not_lt.1 hc)
    rw [key] at hlt
    unfold soundTime at hlt
    rw [div_mul_eq_mul_div, div_lt_div_iff_of_pos_right hb] at hlt
    have h3 := (abs_le.mp (hyq k hk)).1
    have h0 : (0 : Rat) ≤ q * k := by positivity
    have h4 : q * k / 2 ^ 50 ≤ q * k * (1 / 2 ^ 49) := by
      rw [div_eq_mul_inv]
      gcongr
      norm_num
    linarith

/-! ### The picture -/

theorem filled_shows {m : MemoryMap} {d : List U8} (h : Shows m d) : filled d = m.pageOffset := by
  funext p o
  unfold filled
  rw [List.getD_eq_getElem?_getD, h.2.2 p o]
  rfl

theorem bitmapOf_banks {M : Movie} {f : Frame} {T : Bitmap} (h : M.bitmapOf f = .ok T) :
    T.bank false = f.main.pageOffset ∧ (M.mode = .DHGR → ∃ a, f.aux = some a ∧ T.bank true = a.pageOffset) := by
  unfold Movie.bitmapOf at h
  cases hm : M.mode with
  | HGR =>
    rw [hm] at h
    simp only at h
    rw [show HGRBitmap.new f.main = _ from hgr_new f.main] at h
    cases h
    exact ⟨rfl, fun h => (nomatch h)⟩
  | DHGR =>
    rw [hm] at h
    simp only at h
    cases ha : f.aux with
    | none => rw [ha] at h; cases h
    | some a =>
      rw [ha] at h
      simp only at h
      rw [show DHGRBitmap.new f.main a = _ from dhgr_new f.main a] at h
      cases h
      exact ⟨rfl, fun _ => ⟨a, rfl, rfl⟩⟩
/-! ### Beginnings of the stream -/

theorem ticks_mono : ∀ (l l' : List Opcode) (b : Bool), (ticksOf b l).length ≤ (ticksOf b (l ++ l')).length := by
  intro l l'
  induction l with
  | nil => intro b; exact Nat.zero_le _
  | cons o l ih => intro b; cases o <;> simp only [List.cons_append, ticksOf, List.length_cons] <;> first | exact ih _ | exact Nat.succ_le_succ (ih _)

theorem ticks_prefix {l l' m m' : List Opcode} (h : l ++ l' = m ++ m') (hlt : (ticksOf false l).length < (ticksOf false m).length) : ∃ r, l ++ r = m := by
  have p1 : l <+: l ++ l' := List.prefix_append ..
  have p2 : m <+: l ++ l' := by rw [h]; exact List.prefix_append ..
  rcases List.prefix_or_prefix_of_prefix p1 p2 with h | ⟨x, h⟩
  · exact h
  · exfalso
    have := ticks_mono m x false
    rw [h] at this
    omega

end IIVision
