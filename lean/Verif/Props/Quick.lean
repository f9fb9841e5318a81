import Verif.Props.Shown
import Verif.Proofs.Quick

/-! C67: small changes appear quickly. -/

namespace IIVision
open Spec

/-! ### The encoder -/

/-- What the encoder takes to be wrong: at most one byte more than what is wrong. -/
theorem wrong_enc {mode : VideoMode} {t : EditTable} {tape : Nat → Nat} {pre : List Call} (h : Legal mode pre) {e : Enc} {tr : List Step}
    (hr : runNew mode t tape pre = .ok (e, tr)) (tgt : Bitmap) (a : Bool) :
    wrongBytes (banks e.v.pixelmap) (banks tgt) a ≤ wrongBytes (play blank tr) (banks tgt) a + 1 := by
  refine wrong_first fun p o hz => ?_
  rw [bankOf_banks]
  exact ((C17_player_agrees mode t tape pre h e tr hr).1 a p o hz).symm

theorem sum_wrong (m m' : Mem × Mem) (a : Bool) : wrongInAll .DHGR m m' = wrongBytes m m' a + wrongBytes m m' (!a) := by
  cases a
  · rfl
  · exact Nat.add_comm ..

/-- A frame is encoded for one bank and then for the other. -/
theorem dhgr_quick {deltaE : RGB → RGB → Int} (hd : ColourDifference deltaE) (hs : Separates deltaE)
    {dm0 : Nat → Nat → Int} {pal : Palette} {rgb : Colour → RGB} (hp : (pal, rgb) ∈ palettes)
    {t : EditTable} (ht : Loaded deltaE dm0 .DHGR pal t) (tape : Nat → Nat) {pre : List Call} {tgt : Bitmap} {a : Bool} {m n : Nat}
    (h : Legal .DHGR (pre ++ .start tgt a :: List.replicate m .pull ++ .start tgt (!a) :: List.replicate n .pull)) :
    ∃ e0 tr0 e tr, runNew .DHGR t tape pre = .ok (e0, tr0) ∧
      runNew .DHGR t tape (pre ++ .start tgt a :: List.replicate m .pull ++ .start tgt (!a) :: List.replicate n .pull) = .ok (e, tr) ∧
      (2 * wrongInAll .DHGR (play blank tr0) (banks tgt) + 3 < m → 2 * wrongInAll .DHGR (play blank tr0) (banks tgt) + 3 < n →
        ∀ (y : Fin 192) (d : Fin 560), screenDot .DHGR (play blank tr) y d = screenDot .DHGR (banks tgt) y d ∨
        pal ≠ .IIGS ∧ GreyPair (screenByte (bankOf (play blank tr) (d.val / 7 % 2 == 0)) y ⟨d.val / 14, by omega⟩)
          (screenByte (bankOf (banks tgt) (d.val / 7 % 2 == 0)) y ⟨d.val / 14, by omega⟩)) := by
  have hz := loaded_zeroDiag hd hp ht
  have hpre := legal_prefix (legal_prefix h)
  obtain ⟨e0, tr0, e1, tr1, e, tr, h1, h2, h3, -, -, h4⟩ := C62_dhgr_finished deltaE hd hs dm0 pal rgb hp t ht tape pre tgt a m n h
  refine ⟨e0, tr0, e, tr, h1, h3, fun hm hn => ?_⟩
  have w1 := wrong_enc hpre h1 tgt a
  have w2 := wrong_enc hpre h1 tgt (!a)
  rw [sum_wrong _ _ a] at hm hn
  have w3 := dhgr_wrong hz (banks e0.v.pixelmap) (banks tgt) a
  have hm' : differing .DHGR t (banks e0.v.pixelmap) (banks tgt) a < m := by omega
  refine h4 hm' ?_
  have w4 := dhgr_wrong hz (banks e1.v.pixelmap) (banks tgt) (!a)
  rw [Bool.not_not] at w4
  obtain ⟨e0', tr0', e1', tr1', g1, g2, g3, -, -, g4⟩ := dhgr_frame hd hs hp ht tape (legal_prefix h)
  rw [h1] at g1; cases g1
  rw [h2] at g2; cases g2
  obtain ⟨-, e0', tr0', -, i2, i3, -⟩ := runNew_ok (t := t) hpre tape
  rw [h1] at i2; cases i2
  obtain ⟨-, e1', tr1', -, j2, j3, -⟩ := runNew_ok (t := t) (legal_prefix h) tape
  rw [h2] at j2; cases j2
  have w5 : wrongBytes (banks e1.v.pixelmap) (banks tgt) (!a) ≤ wrongBytes (banks e0.v.pixelmap) (banks tgt) (!a) :=
    wrong_mono fun p o => .inl (by rw [bankOf_banks, bankOf_banks, g3])
  have w6 : wrongBytes (banks e1.v.pixelmap) (banks tgt) a ≤ wrongBytes (banks e0.v.pixelmap) (banks tgt) a := by
    refine wrong_mono fun p o => ?_
    rw [bankOf_banks, bankOf_banks, bankOf_banks]
    by_cases ho : Displayed o
    · obtain ⟨k1, k2, -⟩ := g4 hm' p o ho
      by_cases hw : weight .DHGR t (banks e0.v.pixelmap) (banks tgt) a p o = 0
      · exact .inl (k1 hw)
      · exact .inr (k2 hw)
    · left
      have hh : screenHoles p o = true := by
        rw [screenHoles_eq]; exact decide_eq_true (by unfold Displayed at ho; omega)
      rw [i3.holes a p o hh, j3.holes a p o hh]
  omega

/-- A frame is encoded. -/
theorem hgr_quick {deltaE : RGB → RGB → Int} (hd : ColourDifference deltaE) (hs : Separates deltaE)
    {dm0 : Nat → Nat → Int} {pal : Palette} {rgb : Colour → RGB} (hp : (pal, rgb) ∈ palettes)
    {t : EditTable} (ht : Loaded deltaE dm0 .HGR pal t) (tape : Nat → Nat) {pre : List Call} {tgt : Bitmap} {m : Nat}
    (h : Legal .HGR (pre ++ .start tgt false :: List.replicate m .pull)) :
    ∃ e0 tr0 e tr, runNew .HGR t tape pre = .ok (e0, tr0) ∧
      runNew .HGR t tape (pre ++ .start tgt false :: List.replicate m .pull) = .ok (e, tr) ∧
      (3 * wrongInAll .HGR (play blank tr0) (banks tgt) + 3 < m → ∀ (y : Fin 192) (d : Fin 560),
        screenDot .HGR (play blank tr) y d = screenDot .HGR (banks tgt) y d ∨
        d = 0 ∧ hiresAddr 0 y 0 % 256 ≠ 0 ∧ (screenByte (banks tgt).1 y 0 = 0x7f ∧ screenByte (play blank tr).1 y 0 = 0xff ∨
          screenByte (banks tgt).1 y 0 = 0xff ∧ screenByte (play blank tr).1 y 0 = 0x7f)) := by
  obtain ⟨e0, tr0, e, tr, h1, h2, -, h4⟩ := C62_hgr_finished deltaE hd hs dm0 pal rgb hp t ht tape pre tgt m h
  refine ⟨e0, tr0, e, tr, h1, h2, fun hm => h4 ?_⟩
  have w1 := wrong_enc (legal_prefix h) h1 tgt false
  have w2 := hgr_wrong (loaded_zeroDiag hd hp ht) (banks e0.v.pixelmap) (banks tgt)
  unfold wrongInAll at hm
  dsimp only at hm
  omega

/-! ### Movies -/

/-- The bank of every tick of a movie: blocks of 292 operations, the first of which is the header. -/
theorem C26_tick_bank (M : Movie) (A : List Int) (F : List Frame) (hin : MovieInput M A F) (tape : Nat → Nat)
    (ops : List Opcode) (bytes : List Nat) (h : M.stream tape A F = .ok (ops, bytes)) (i : Nat) (x : Played)
    (hx : (ticksOf false ops)[i]? = some x) : x.bank = decide (M.mode = .DHGR ∧ (i + 1) / 292 % 2 = 1) := by
  obtain ⟨l, calls, e, steps, h1, h2, -, -, -, -, h7, h8, -⟩ := stream_exact hin tape
  have hall : ∀ op ∈ l, ∃ t p c os, op = .tick t p c os := by
    intro op hop
    obtain ⟨i, hi, rfl⟩ := List.getElem_of_mem hop
    have hs : i < steps.length := by omega
    obtain ⟨t, p, au, -, h, -⟩ := (h8 i _ _ (List.getElem?_eq_getElem hi) (List.getElem?_eq_getElem hs)).tick
    exact ⟨t, p, _, _, h⟩
  have hw0 : weave M.mode 0 (.header M.mode :: l) = .header M.mode :: weave M.mode 1 l := by
    rw [weave_cons, if_neg (by decide)]
  have hb1 : bankAt M.mode 1 = false := by simp [bankAt]
  have htk : ticksOf false (weave M.mode 1 l) = ticksFrom M.mode 1 l := by
    have := weave_ticks M.mode l [] 1 h2 (fun _ => rfl)
    rwa [List.append_nil, hb1] at this
  have hops : ops = .header M.mode :: weave M.mode 1 l ++ [.terminate] := by
    rw [h1] at h
    simp only [Except.ok.injEq] at h
    rw [← hw0]
    exact (congrArg Prod.fst h).symm
  have hop2 : ticksOf false ops = ticksFrom M.mode 1 l := by
    rw [hops, ← htk]
    exact ticksOf_terminate (weave M.mode 1 l) false
  rw [hop2] at hx
  have hi : i < l.length := by
    have := (List.getElem?_eq_some_iff.mp hx).1
    rwa [ticksFrom_length _ _ _ hall] at this
  obtain ⟨t, p, c, os, hl⟩ := hall _ (List.getElem_mem hi)
  rw [ticksFrom_get M.mode l 1 i t p c os hall (by rw [List.getElem?_eq_getElem hi, hl])] at hx
  simp only [Option.some.injEq] at hx
  rw [← hx, Nat.add_comm 1 i]
  rfl

/-- The frame current at a tick. -/
theorem still_shown {n : Int} {thr : Nat → Nat} (hp : Paced thr) {k l : Nat} (hk : n ∣ (k : Int)) (hd : due thr k ≤ l)
    (hnext : ∀ k', k < k' → n ∣ (k' : Int) → l < due thr k') : shown n (fetched thr l) = k := by
  obtain ⟨-, f2, f3⟩ := fetched_due hp l
  have hlt : k < fetched thr l := by
    by_contra hge
    have : due thr (fetched thr l) ≤ due thr k := by
      rcases Nat.lt_or_eq_of_le (Nat.le_of_not_lt hge) with h | h
      · exact Nat.le_of_lt (due_strict hp h)
      · rw [h]
    omega
  have hk' : n.natAbs ∣ k := Int.natAbs_dvd_natAbs.mpr hk
  unfold shown
  have h1 : k ≤ (fetched thr l - 1) / n.natAbs * n.natAbs := by
    obtain ⟨q, hq⟩ := hk'
    rcases Nat.eq_zero_or_pos n.natAbs with h0 | h0
    · rw [h0, Nat.zero_mul] at hq; omega
    · have : q ≤ (fetched thr l - 1) / n.natAbs := by
        rw [Nat.le_div_iff_mul_le h0, Nat.mul_comm]; omega
      calc k = n.natAbs * q := hq
        _ = q * n.natAbs := Nat.mul_comm ..
        _ ≤ _ := Nat.mul_le_mul_right _ this
  rcases Nat.lt_or_eq_of_le h1 with h2 | h2
  · exfalso
    have h3 : (fetched thr l - 1) / n.natAbs * n.natAbs ≤ fetched thr l - 1 := Nat.div_mul_le_self ..
    have h4 := hnext _ h2 (Int.natCast_dvd_natCast.mp ⟨((fetched thr l - 1) / n.natAbs : Nat), by push_cast; ring⟩ |> fun h => by
      exact Int.natAbs_dvd.mp (Int.natCast_dvd_natCast.mpr h))
    have h5 := f2 _ (show (fetched thr l - 1) / n.natAbs * n.natAbs < fetched thr l by omega)
    omega
  · exact h2.symm

/-- No new picture. -/
theorem still_old {n : Int} {thr : Nat → Nat} (hp : Paced thr) {k l : Nat} (hd : due thr k ≤ l)
    (hnext : ∀ k', k < k' → n ∣ (k' : Int) → l + 1 < due thr k') : ¬ (fetched thr (l + 1) ≠ fetched thr l ∧ n ∣ (fetched thr l : Int)) := by
  rintro ⟨h3, h4⟩
  have h5 : fetched thr (l + 1) = fetched thr l + 1 := by
    rw [fetched_succ] at h3 ⊢
    split at h3
    · next h6 => rw [if_pos h6]
    · exact absurd rfl h3
  have h6 := (fetched_due hp (l + 1)).2.1 (fetched thr l) (by omega)
  have h7 : k < fetched thr l := by
    by_contra hlt
    have h8 := (fetched_due hp l).2.2
    have h9 : due thr (fetched thr l) ≤ due thr k := by
      rcases Nat.lt_or_eq_of_le (Nat.le_of_not_lt hlt) with h | h
      · exact Nat.le_of_lt (due_strict hp h)
      · rw [h]
    omega
  have := hnext _ h7 h4
  omega

/-- The calls for two blocks of ticks, the first of which begins with a change of bank, while a picture is current. -/
theorem block_calls {M : Movie} {F : List Frame} (hp : Paced M.thr) {bank : Nat → Bool} {k j m n : Nat} {a : Bool} (hk : M.everyN ∣ (k : Int))
    (hd : due M.thr k ≤ j + 1) (hj : j ≠ 0) (h0 : bank (j - 1) = !a) (h1 : ∀ l, l < m → bank (j + l) = a)
    (h2 : ∀ l, l < n → bank (j + m + l) = !a) (hm : 0 < m) (hn : 0 < n)
    (hnext : ∀ k', k < k' → M.everyN ∣ (k' : Int) → j + m + n < due M.thr k')
    {f : Frame} {T : Bitmap} (hf : F[k]? = some f) (hT : M.bitmapOf f = .ok T) :
    ∃ X, X.countP isPull = 0 ∧ movieCalls M F bank (j + m + n) =
      movieCalls M F bank j ++ X ++ .start T a :: List.replicate m .pull ++ .start T (!a) :: List.replicate n .pull := by
  have ss : ∀ l b, j ≤ l → l < j + m + n → startShown M F (fetched M.thr (l + 1)) b = [.start T b] := by
    intro l b hl hl'
    refine startShown_eq ⟨f, ?_, hT⟩ b
    rw [still_shown hp hk (by omega) fun k' q1 q2 => by have := hnext k' q1 q2; omega]
    exact hf
  have e0 : ∃ X, X.countP isPull = 0 ∧ tickCalls M F bank j = X ++ [.start T a, .pull] := by
    refine ⟨if fetched M.thr (j + 1) ≠ fetched M.thr j ∧ M.everyN ∣ (fetched M.thr j : Int) then
      startShown M F (fetched M.thr (j + 1)) (bank j) ++ [.reset] else [], ?_, ?_⟩
    · split
      · rw [List.countP_append, startShown_pull]; rfl
      · rfl
    · unfold tickCalls
      rw [if_pos (show j ≠ 0 ∧ bank j ≠ bank (j - 1) from ⟨hj, by rw [h0, show bank j = a from h1 0 hm]; cases a <;> decide⟩), List.append_assoc,
        show bank j = a from h1 0 hm, ss j a (by omega) (by omega)]
      rfl
  have e1 : ∀ l, j + 1 ≤ l → l < j + 1 + (m - 1) → tickCalls M F bank l = [.pull] := by
    intro l q1 q2
    unfold tickCalls
    rw [if_neg (still_old hp (k := k) (by omega) fun k' r1 r2 => by have := hnext k' r1 r2; omega), if_neg]
    · rfl
    · rintro ⟨-, hb⟩
      obtain ⟨x, rfl⟩ : ∃ x, l = j + (x + 1) := ⟨l - j - 1, by omega⟩
      rw [h1 (x + 1) (by omega), show j + (x + 1) - 1 = j + x by omega, h1 x (by omega)] at hb
      exact hb rfl
  have e2 : tickCalls M F bank (j + m) = [.start T (!a), .pull] := by
    unfold tickCalls
    rw [if_neg (still_old hp (k := k) (by omega) fun k' r1 r2 => by have := hnext k' r1 r2; omega),
      if_pos ⟨by omega, by
        rw [show j + m - 1 = j + (m - 1) by omega, h1 (m - 1) (by omega), show bank (j + m) = !a from h2 0 hn]
        cases a <;> decide⟩,
      show bank (j + m) = !a from h2 0 hn, ss (j + m) _ (by omega) (by omega)]
    rfl
  have e3 : ∀ l, j + m + 1 ≤ l → l < j + m + 1 + (n - 1) → tickCalls M F bank l = [.pull] := by
    intro l q1 q2
    unfold tickCalls
    rw [if_neg (still_old hp (k := k) (by omega) fun k' r1 r2 => by have := hnext k' r1 r2; omega), if_neg]
    · rfl
    · rintro ⟨-, hb⟩
      obtain ⟨x, rfl⟩ : ∃ x, l = j + m + (x + 1) := ⟨l - j - m - 1, by omega⟩
      rw [h2 (x + 1) (by omega), show j + m + (x + 1) - 1 = j + m + x by omega, h2 x (by omega)] at hb
      exact hb rfl
  obtain ⟨X, x1, x2⟩ := e0
  refine ⟨X, x1, ?_⟩
  obtain ⟨m, rfl⟩ : ∃ m', m = m' + 1 := ⟨m - 1, by omega⟩
  obtain ⟨n, rfl⟩ : ∃ n', n = n' + 1 := ⟨n - 1, by omega⟩
  simp only [Nat.add_sub_cancel] at e1 e3
  rw [show j + (m + 1) + (n + 1) = j + (m + 1) + 1 + n by omega, movieCalls_still _ _ e3, movieCalls_succ, e2,
    show j + (m + 1) = j + 1 + m by omega, movieCalls_still _ _ e1, movieCalls_succ, x2, List.replicate_succ, List.replicate_succ]
  simp

/-- C67, DHGR: in a movie with a generated table let frame `k` (its number a multiple of the stride) be due by the first tick after the `q`-th ACK and stay
current for the following two blocks of 292 ticks.  If the screen differs from it in at most 144 bytes at that ACK, then after the two blocks it
shows frame `k`, dot for dot; but with the NTSC palette a byte of alternating dots may be left in the opposite phase (C62). -/
theorem C67_dhgr_small (deltaE : RGB → RGB → Int) (hd : ColourDifference deltaE) (hs : Separates deltaE)
    (dm0 : Nat → Nat → Int) (pal : Palette) (rgb : Colour → RGB) (hpal : (pal, rgb) ∈ palettes)
    (M : Movie) (hm : M.mode = .DHGR) (ht : Loaded deltaE dm0 .DHGR pal M.table) (hp : Paced M.thr)
    (A : List Int) (F : List Frame) (hin : MovieInput M A F) (tape : Nat → Nat) (ops : List Opcode) (bytes : List Nat)
    (h : M.stream tape A F = .ok (ops, bytes)) (k q : Nat) (hk : M.everyN ∣ (k : Int)) (hq : 1 ≤ q)
    (hdue : due M.thr k ≤ 292 * q) (hlen : 292 * (q + 2) - 1 ≤ (ticksOf false ops).length)
    (hnext : ∀ k', k < k' → M.everyN ∣ (k' : Int) → 292 * (q + 2) - 1 < due M.thr k') :
    ∃ f T, F[k]? = some f ∧ M.bitmapOf f = .ok T ∧
      let shows (i : Nat) := ((ticksOf false ops).take i).foldl playTick blank
      (wrongInAll .DHGR (shows (292 * q - 1)) (banks T) ≤ 144 → ∀ (y : Fin 192) (d : Fin 560),
        screenDot .DHGR (shows (292 * (q + 2) - 1)) y d = screenDot .DHGR (banks T) y d ∨
        pal ≠ .IIGS ∧ GreyPair (screenByte (bankOf (shows (292 * (q + 2) - 1)) (d.val / 7 % 2 == 0)) y ⟨d.val / 14, by omega⟩)
          (screenByte (bankOf (banks T) (d.val / 7 % 2 == 0)) y ⟨d.val / 14, by omega⟩)) := by
  obtain ⟨e, steps, h1, h2, h3, h4⟩ := C27_exact_history M A F hin tape ops bytes h
  obtain ⟨f, T, hf, hT⟩ := frame_there hp hin h (k := k) (i := 292 * (q + 2) - 1) (by omega) hlen
  refine ⟨f, T, hf, hT, ?_⟩
  dsimp only
  rw [play_ticks h3 h4, play_ticks h3 h4]
  have hbank : ∀ i, i < (ticksOf false ops).length → tickBank (ticksOf false ops) i = decide ((i + 1) / 292 % 2 = 1) := by
    intro i hi
    have := C26_tick_bank M A F hin tape ops bytes h i _ (List.getElem?_eq_getElem hi)
    unfold tickBank
    rw [List.getElem?_eq_getElem hi]
    dsimp only
    rw [this, hm]
    simp
  obtain ⟨j, hj⟩ : ∃ j, j + 1 = 292 * q := ⟨292 * q - 1, by omega⟩
  have hB : ∀ c l, c ≤ 2 → l < 292 → tickBank (ticksOf false ops) (j + 292 * c + l) = decide ((q + c) % 2 = 1) ∨ (c = 2) := by
    intro c l hc hl
    by_cases h2 : c = 2
    · exact .inr h2
    · left
      rw [hbank _ (by omega), show (j + 292 * c + l + 1) / 292 = q + c by omega]
  obtain ⟨X, x1, x2⟩ := block_calls (F := F) hp (bank := tickBank (ticksOf false ops)) (k := k) (j := j) (m := 292) (n := 292)
    (a := decide (q % 2 = 1)) hk (by omega) (by omega) (by
      rw [hbank _ (by omega), show (j - 1 + 1) / 292 = q - 1 by omega]
      rcases Nat.mod_two_eq_zero_or_one q with h | h
      · rw [show (q - 1) % 2 = 1 by omega, h]; rfl
      · rw [show (q - 1) % 2 = 0 by omega, h]; rfl)
    (fun l hl => (hB 0 l (by omega) hl).resolve_right (by omega))
    (fun l hl => by
      rw [(hB 1 l (by omega) hl).resolve_right (by omega)]
      rcases Nat.mod_two_eq_zero_or_one q with h | h
      · rw [show (q + 1) % 2 = 1 by omega, h]; rfl
      · rw [show (q + 1) % 2 = 0 by omega, h]; rfl) (by omega) (by omega)
    (fun k' r1 r2 => by have := hnext k' r1 r2; omega) hf hT
  have hi : 292 * (q + 2) - 1 = j + 292 + 292 := by omega
  rw [hi] at hlen ⊢
  rw [show 292 * q - 1 = j by omega]
  obtain ⟨e', hr⟩ := movie_prefix h2 hlen
  have hL : Legal M.mode (movieCalls M F (tickBank (ticksOf false ops)) (j + 292 + 292)) := by
    obtain ⟨post, hpost⟩ := movieCalls_add M F (tickBank (ticksOf false ops)) (j + 292 + 292) ((ticksOf false ops).length - (j + 292 + 292))
    rw [show j + 292 + 292 + ((ticksOf false ops).length - (j + 292 + 292)) = (ticksOf false ops).length by omega] at hpost
    rw [hpost] at h1
    exact legal_prefix h1
  rw [x2, hm] at hr hL
  obtain ⟨e0, tr0, e2, tr, k1, k2, k3⟩ := dhgr_quick hd hs hpal ht tape hL
  rw [k2] at hr
  simp only [Except.ok.injEq, Prod.mk.injEq] at hr
  obtain ⟨e1, k4⟩ := run_silent x1 k1
  obtain ⟨e1', k5⟩ := movie_prefix h2 (show j ≤ (ticksOf false ops).length by omega)
  rw [hm, k4] at k5
  simp only [Except.ok.injEq, Prod.mk.injEq] at k5
  rw [← hr.2, ← k5.2]
  intro hw
  exact k3 (by omega) (by omega)

/-- C67, HGR: in a movie with a generated table let frame `k` (its number a multiple of the stride) become due when the screen differs from it in `w`
bytes.  `3 w + 3` ticks later, unless another such frame has become due, the screen shows frame `k`, except for the leftmost dots of C62. -/
theorem C67_hgr_small (deltaE : RGB → RGB → Int) (hd : ColourDifference deltaE) (hs : Separates deltaE)
    (dm0 : Nat → Nat → Int) (pal : Palette) (rgb : Colour → RGB) (hpal : (pal, rgb) ∈ palettes)
    (M : Movie) (hm : M.mode = .HGR) (ht : Loaded deltaE dm0 .HGR pal M.table) (hp : Paced M.thr)
    (A : List Int) (F : List Frame) (hin : MovieInput M A F) (tape : Nat → Nat) (ops : List Opcode) (bytes : List Nat)
    (h : M.stream tape A F = .ok (ops, bytes)) (k i : Nat) (hk : M.everyN ∣ (k : Int))
    (hdue : due M.thr k ≤ i) (hi : i ≤ (ticksOf false ops).length)
    (hnext : ∀ k', k < k' → M.everyN ∣ (k' : Int) → i < due M.thr k') :
    ∃ f T, F[k]? = some f ∧ M.bitmapOf f = .ok T ∧
      let shows (i : Nat) := ((ticksOf false ops).take i).foldl playTick blank
      (due M.thr k + 3 * wrongInAll .HGR (shows (due M.thr k - 1)) (banks T) + 3 ≤ i → ∀ (y : Fin 192) (d : Fin 560),
        screenDot .HGR (shows i) y d = screenDot .HGR (banks T) y d ∨
        d = 0 ∧ hiresAddr 0 y 0 % 256 ≠ 0 ∧ (screenByte (banks T).1 y 0 = 0x7f ∧ screenByte (shows i).1 y 0 = 0xff ∨
          screenByte (banks T).1 y 0 = 0xff ∧ screenByte (shows i).1 y 0 = 0x7f)) := by
  obtain ⟨e, steps, h1, h2, h3, h4⟩ := C27_exact_history M A F hin tape ops bytes h
  obtain ⟨f, T, hf, hT⟩ := frame_there hp hin h hdue hi
  refine ⟨f, T, hf, hT, ?_⟩
  dsimp only
  rw [play_ticks h3 h4, play_ticks h3 h4]
  have hb : tickBank (ticksOf false ops) = fun _ => false := funext fun j => hgr_banks hm hin h j
  rw [hb] at h1 h2
  obtain ⟨e', hr⟩ := movie_prefix h2 hi
  have hL : Legal M.mode (movieCalls M F (fun _ => false) i) := by
    obtain ⟨post, hpost⟩ := movieCalls_add M F (fun _ => false) i ((ticksOf false ops).length - i)
    rw [show i + ((ticksOf false ops).length - i) = (ticksOf false ops).length by omega] at hpost
    rw [hpost] at h1
    exact legal_prefix h1
  rw [still_calls hp hk (by omega) hnext hf hT] at hr hL
  obtain ⟨pre', l1, l2, l3⟩ := reset_history (t := M.table) (tape := tape) hL
  rw [l2, hm] at hr
  rw [hm] at l1
  obtain ⟨e0, tr0, e2, tr, k1, k2, k3⟩ := hgr_quick hd hs hpal ht tape l1
  rw [k2] at hr
  simp only [Except.ok.injEq, Prod.mk.injEq] at hr
  rw [hm] at l3
  obtain ⟨e1, k4⟩ := l3 _ _ k1
  have hpos : 1 ≤ due M.thr k := by unfold due; omega
  obtain ⟨e1', k5⟩ := movie_prefix h2 (show due M.thr k - 1 ≤ (ticksOf false ops).length by omega)
  rw [hm, k4] at k5
  simp only [Except.ok.injEq, Prod.mk.injEq] at k5
  rw [← hr.2, ← k5.2]
  intro hw
  exact k3 (by omega)

/-- C41, C64, C67 on the Apple II: when the player has executed the first `i` ticks of the stream, the screen is what those ticks make of a blank one. -/
theorem Player.C41_screen {M : Movie} {A : List Int} {F : List Frame} (hin : MovieInput M A F) (ha : M.addr = playerAddr)
    {tape : Nat → Nat} {ops : List Opcode} {bytes : List Nat} (h : M.stream tape A F = .ok (ops, bytes))
    {e : Env} (hfile : e.file = bytes.map (BitVec.ofNat 8)) (hD : e.Delivers) (hA : e.Answers) (hR : e.NeverRefuses)
    (hO : e.StaysOpen ∨ 8192 < e.file.length) {s : Mach} (hst : Started s) (hw : s.w.works = true) (hkb : PausesEnd e s) :
    ∃ s1, s.Reaches e s1 ∧ s1.sw = Switches.For M.mode s.sw ∧ ∀ i, 1 ≤ i → i ≤ (ticksOf false ops).length →
      ∃ u done todo, ops = .header M.mode :: done ++ todo ∧ (ticksOf false done).length = i ∧ Executes e s1 done u ∧
        ∀ b, (M.mode = .HGR → b = false) → u.screen b = bankOf (((ticksOf false ops).take i).foldl playTick blank) b := by
  obtain ⟨body, s1, s2, calls, enc, steps, c1, c2, c3, c4, c5, c6, c7, c8, c9, c10, -⟩ := C41_from_start hin ha h hfile hD hA hR hO hst hw hkb
  have htk : ticksOf false ops = ticksOf false body := by rw [c1]; exact ticksOf_terminate body false
  refine ⟨s1, c2, c3, fun i h1 hi => ?_⟩
  rw [htk] at hi ⊢
  obtain ⟨-, -, u, done, todo, -, -, -, -, d1, d2, d3, -, -, d4⟩ := c10 (i - 1) (by omega)
  rw [show i - 1 + 1 = i by omega] at d2 d4
  refine ⟨u, done, todo ++ [.terminate], by rw [c1, d1]; simp, d2, d3, fun b hb => ?_⟩
  rw [d4 b hb, play_ticks c8.symm fun j x st hx hs => ?_]
  obtain ⟨q1, q2, q3, q4, -⟩ := c9 j x st hx hs
  exact ⟨q1, q2, q3, q4⟩

/-- C67, DHGR, on the Apple II: as in `C67_dhgr_small`, with the screen of the machine after the two ticks in question. -/
theorem Player.C67_machine (deltaE : RGB → RGB → Int) (hd : ColourDifference deltaE) (hs : Separates deltaE)
    (dm0 : Nat → Nat → Int) (pal : Palette) (rgb : Colour → RGB) (hpal : (pal, rgb) ∈ palettes)
    (M : Movie) (hm : M.mode = .DHGR) (ht : IIVision.Loaded deltaE dm0 .DHGR pal M.table) (hp : Paced M.thr) (ha : M.addr = playerAddr)
    (A : List Int) (F : List Frame) (hin : MovieInput M A F) (tape : Nat → Nat) (ops : List Opcode) (bytes : List Nat)
    (h : M.stream tape A F = .ok (ops, bytes)) (k q : Nat) (hk : M.everyN ∣ (k : Int)) (hq : 1 ≤ q)
    (hdue : due M.thr k ≤ 292 * q) (hlen : 292 * (q + 2) - 1 ≤ (ticksOf false ops).length)
    (hnext : ∀ k', k < k' → M.everyN ∣ (k' : Int) → 292 * (q + 2) - 1 < due M.thr k')
    {e : Env} (hfile : e.file = bytes.map (BitVec.ofNat 8)) (hD : e.Delivers) (hA : e.Answers) (hR : e.NeverRefuses)
    (hO : e.StaysOpen ∨ 8192 < e.file.length) {s : Mach} (hst : Started s) (hw : s.w.works = true) (hkb : PausesEnd e s) :
    ∃ s1 u v done done' todo f T, ops = .header M.mode :: done ++ done' ++ todo ∧ (ticksOf false done).length = 292 * q - 1 ∧
      (ticksOf false (done ++ done')).length = 292 * (q + 2) - 1 ∧
      s.Reaches e s1 ∧ s1.sw = Switches.For .DHGR s.sw ∧ Executes e s1 done u ∧ Executes e s1 (done ++ done') v ∧
      F[k]? = some f ∧ M.bitmapOf f = .ok T ∧
      (wrongInAll .DHGR u.screens (banks T) ≤ 144 → ∀ (y : Fin 192) (d : Fin 560),
        screenDot .DHGR v.screens y d = screenDot .DHGR (banks T) y d ∨
        pal ≠ .IIGS ∧ GreyPair (screenByte (bankOf v.screens (d.val / 7 % 2 == 0)) y ⟨d.val / 14, by omega⟩)
          (screenByte (bankOf (banks T) (d.val / 7 % 2 == 0)) y ⟨d.val / 14, by omega⟩)) := by
  obtain ⟨s1, c1, c2, c3⟩ := C41_screen hin ha h hfile hD hA hR hO hst hw hkb
  obtain ⟨f, T, g1, g2, g3⟩ := C67_dhgr_small deltaE hd hs dm0 pal rgb hpal M hm ht hp A F hin tape ops bytes h k q hk hq hdue hlen hnext
  obtain ⟨u, done, todo, a1, a2, a3, a4⟩ := c3 (292 * q - 1) (by omega) (by omega)
  obtain ⟨v, done2, todo2, b1, b2, b3, b4⟩ := c3 (292 * (q + 2) - 1) (by omega) hlen
  have hpre : done <+: done2 := by
    have p1 : done <+: done ++ todo := List.prefix_append ..
    have p2 : done2 <+: done ++ todo := by
      have : Opcode.header M.mode :: (done ++ todo) = .header M.mode :: (done2 ++ todo2) := by
        rw [← List.cons_append, ← List.cons_append, ← a1, ← b1]
      simp only [List.cons.injEq, true_and] at this
      rw [this]; exact List.prefix_append ..
    rcases List.prefix_or_prefix_of_prefix p1 p2 with h | ⟨x, h⟩
    · exact h
    · exfalso
      have : ∀ (l l' : List Opcode) (b : Bool), (ticksOf b l).length ≤ (ticksOf b (l ++ l')).length := by
        intro l l'
        induction l with
        | nil => intro b; exact Nat.zero_le _
        | cons o l ih => intro b; cases o <;> simp only [List.cons_append, ticksOf, List.length_cons] <;> first | exact ih _ | exact Nat.succ_le_succ (ih _)
      have := this done2 x false
      rw [h] at this
      omega
  obtain ⟨done', rfl⟩ := hpre
  have hu : u.screens = ((ticksOf false ops).take (292 * q - 1)).foldl playTick blank :=
    Prod.ext (a4 false fun _ => rfl) (a4 true fun h => by rw [hm] at h; cases h)
  have hv : v.screens = ((ticksOf false ops).take (292 * (q + 2) - 1)).foldl playTick blank :=
    Prod.ext (b4 false fun _ => rfl) (b4 true fun h => by rw [hm] at h; cases h)
  refine ⟨s1, u, v, done, done', todo2, f, T, by rw [b1]; simp, a2, b2, c1, by rw [c2, hm], a3, b3, g1, g2, ?_⟩
  rw [hu, hv]
  exact g3

/-! ### The hypotheses can be met -/

/-- C67, HGR, on the Apple II: as in `C67_hgr_small`, with the screen of the machine before and after. -/
theorem Player.C67_machine_hgr (deltaE : RGB → RGB → Int) (hd : ColourDifference deltaE) (hs : Separates deltaE)
    (dm0 : Nat → Nat → Int) (pal : Palette) (rgb : Colour → RGB) (hpal : (pal, rgb) ∈ palettes)
    (M : Movie) (hm : M.mode = .HGR) (ht : IIVision.Loaded deltaE dm0 .HGR pal M.table) (hp : Paced M.thr) (ha : M.addr = playerAddr)
    (A : List Int) (F : List Frame) (hin : MovieInput M A F) (tape : Nat → Nat) (ops : List Opcode) (bytes : List Nat)
    (h : M.stream tape A F = .ok (ops, bytes)) (k i : Nat) (hk : M.everyN ∣ (k : Int)) (hk0 : 2 ≤ due M.thr k)
    (hdue : due M.thr k ≤ i) (hi : i ≤ (ticksOf false ops).length)
    (hnext : ∀ k', k < k' → M.everyN ∣ (k' : Int) → i < due M.thr k')
    {e : Env} (hfile : e.file = bytes.map (BitVec.ofNat 8)) (hD : e.Delivers) (hA : e.Answers) (hR : e.NeverRefuses)
    (hO : e.StaysOpen ∨ 8192 < e.file.length) {s : Mach} (hst : Started s) (hw : s.w.works = true) (hkb : PausesEnd e s) :
    ∃ s1 u v done done' f T, s.Reaches e s1 ∧ s1.sw = Switches.For .HGR s.sw ∧
      (∃ todo, ops = .header M.mode :: done ++ todo) ∧ (ticksOf false done).length = due M.thr k - 1 ∧ Executes e s1 done u ∧
      (∃ todo, ops = .header M.mode :: done' ++ todo) ∧ (ticksOf false done').length = i ∧ Executes e s1 done' v ∧
      F[k]? = some f ∧ M.bitmapOf f = .ok T ∧
      (due M.thr k + 3 * wrongInAll .HGR u.screens (banks T) + 3 ≤ i → ∀ (y : Fin 192) (d : Fin 560),
        screenDot .HGR v.screens y d = screenDot .HGR (banks T) y d ∨
        d = 0 ∧ hiresAddr 0 y 0 % 256 ≠ 0 ∧ (screenByte (banks T).1 y 0 = 0x7f ∧ screenByte v.screens.1 y 0 = 0xff ∨
          screenByte (banks T).1 y 0 = 0xff ∧ screenByte v.screens.1 y 0 = 0x7f)) := by
  obtain ⟨s1, c1, c2, c3⟩ := C41_screen hin ha h hfile hD hA hR hO hst hw hkb
  obtain ⟨f, T, g1, g2, g3⟩ := C67_hgr_small deltaE hd hs dm0 pal rgb hpal M hm ht hp A F hin tape ops bytes h k i hk hdue hi hnext
  obtain ⟨u, done, todo, a1, a2, a3, a4⟩ := c3 (due M.thr k - 1) (by omega) (by omega)
  obtain ⟨v, done2, todo2, b1, b2, b3, b4⟩ := c3 i (by omega) hi
  have key : ∀ m m' : Mem × Mem, m.1 = m'.1 → (∀ y d, screenDot .HGR m y d = screenDot .HGR m' y d) ∧
      ∀ n, wrongInAll .HGR m n = wrongInAll .HGR m' n := by
    rintro ⟨m, a⟩ ⟨m', a'⟩ (rfl : m = m')
    exact ⟨fun _ _ => rfl, fun _ => rfl⟩
  obtain ⟨-, u1⟩ := key u.screens (((ticksOf false ops).take (due M.thr k - 1)).foldl playTick blank) (a4 false fun _ => rfl)
  have hv : v.screens.1 = (((ticksOf false ops).take i).foldl playTick blank).1 := b4 false fun _ => rfl
  refine ⟨s1, u, v, done, done2, f, T, c1, by rw [c2, hm], ⟨_, a1⟩, a2, a3, ⟨_, b1⟩, b2, b3, g1, g2, fun hle y d => ?_⟩
  rw [u1] at hle
  rw [(key _ _ hv).1, hv]
  exact g3 hle y d

theorem blank_ticks (l : List Played) (h : ∀ x ∈ l, x.content = 0) : l.foldl playTick blank = blank := by
  induction l with
  | nil => rfl
  | cons x l ih =>
    rw [List.foldl_cons]
    have : playTick blank x = blank := by
      unfold playTick
      rw [h x List.mem_cons_self]
      generalize x.offsets = os
      induction os with
      | nil => rfl
      | cons o os ih' =>
        rw [List.foldl_cons]
        have e : storeBank blank x.bank (Fin.ofNat 32 (x.page - 32)) o 0 = blank := by
          have g : ∀ (p : Fin 32) (o : Fin 256), Grid.set (fun _ _ => (0 : U8)) p o 0 = fun _ _ => 0 := by
            intro p o
            funext p' o'
            unfold Grid.set
            split <;> rfl
          unfold storeBank blank
          split <;> simp only [g]
        rw [e]
        exact ih'
    rw [this]
    exact ih fun y hy => h y (List.mem_cons_of_mem _ hy)

/-- Twelve and a half frames per second. -/
def sketchMovie (t : EditTable) : Movie :=
  { mode := .DHGR, everyN := 1, limit := 0, addr := playerAddr, table := t, thr := fun k => 1168 * k }

/-- A black frame, then some with a line of a hundred bytes. -/
def sketchFrames : List Frame :=
  ⟨emptyMap, some emptyMap⟩ :: List.replicate 4 ⟨⟨1, fun p o => if p.val = 3 ∧ o.val < 100 then 0x7f else 0⟩, some emptyMap⟩

/-- The hypotheses of `C67_dhgr_small` are met at the fourth ACK, where the second frame becomes due; a hundred bytes are wrong then. -/
example : ∃ (t : EditTable) (A : List Int), Loaded plainDifference (fun _ _ => 0) .DHGR .IIGS t ∧ ColourDifference plainDifference ∧
    Separates plainDifference ∧ Paced (sketchMovie t).thr ∧ MovieInput (sketchMovie t) A sketchFrames ∧
    ∀ tape, ∃ ops bytes T, (sketchMovie t).stream tape A sketchFrames = .ok (ops, bytes) ∧ (sketchMovie t).everyN ∣ ((1 : Nat) : Int) ∧
      due (sketchMovie t).thr 1 ≤ 292 * 4 ∧ 292 * (4 + 2) - 1 ≤ (ticksOf false ops).length ∧
      (∀ k' : Nat, 1 < k' → (sketchMovie t).everyN ∣ (k' : Int) → 292 * (4 + 2) - 1 < due (sketchMovie t).thr k') ∧
      (∃ f, sketchFrames[1]? = some f ∧ (sketchMovie t).bitmapOf f = .ok T) ∧
      wrongInAll .DHGR (((ticksOf false ops).take (292 * 4 - 1)).foldl playTick blank) (banks T) = 100 := by
  obtain ⟨-, edp, -, -, h, -⟩ := loaded_form plainDifference_ok.1 (fun _ _ => 0) .DHGR
    (p := .IIGS) (rgb := iigsRGB) List.mem_cons_self
  obtain ⟨t, h⟩ : ∃ t, Loaded plainDifference (fun _ _ => 0) .DHGR .IIGS t := ⟨_, h⟩
  have hP : Paced (sketchMovie t).thr := ⟨rfl, fun k => by show 1168 * k + 1 ≤ 1168 * (k + 1); omega⟩
  obtain ⟨A, hA, hA'⟩ : ∃ A : List Int, A.length = 2000 ∧ ∀ a ∈ A, a = 7 :=
    ⟨List.replicate 2000 7, List.length_replicate, fun a ha => List.eq_of_mem_replicate ha⟩
  have hI : MovieInput (sketchMovie t) A sketchFrames := by
    refine ⟨(by decide : (1 : Int) ≠ 0), le_refl _, rfl, fun a ha => by rw [hA' a ha]; decide, fun f hf => ?_⟩
    rcases List.mem_cons.mp hf with rfl | hf
    · exact ⟨rfl, fun _ => ⟨_, rfl, rfl, fun _ _ => (by decide : (0#8).toNat < 128)⟩, fun _ _ _ => (by decide : (0#8).toNat < 128)⟩
    · rw [List.eq_of_mem_replicate hf]
      refine ⟨rfl, fun _ => ⟨_, rfl, rfl, fun _ _ => (by decide : (0#8).toNat < 128)⟩, fun _ p o => ?_⟩
      dsimp only
      split <;> decide
  refine ⟨t, A, h, plainDifference_ok.1, plainDifference_ok.2, hP, hI, fun tape => ?_⟩
  obtain ⟨body, bytes, calls, e, steps, hst, h2, h3, h4, -, -, -, h8⟩ := movie_facts _ _ _ hI tape
  have hlen := (C28_audio _ _ _ hI hP tape _ _ hst).2
  have htk : ticksOf false (.header (sketchMovie t).mode :: body ++ [.terminate]) = ticksOf false body := ticksOf_terminate body false
  have hL : (ticksOf false (.header (sketchMovie t).mode :: body ++ [.terminate])).length = 2000 := by
    have hF : sketchFrames.length = 5 := rfl
    rw [hF, hA] at hlen
    generalize (ticksOf false _).length = n at hlen ⊢
    rcases hlen with h | ⟨h1, h⟩ | ⟨h, -⟩
    · exact h
    · change max (5 + 1) (1168 * 5) = n + 1 at h
      omega
    · exact absurd rfl h
  refine ⟨_, _, _, hst, ⟨1, rfl⟩, (by decide : max 2 1168 ≤ 1168), by rw [hL]; decide, ?_, ⟨_, rfl, rfl⟩, ?_⟩
  · intro k' h1 _
    show _ < max (k' + 1) (1168 * k')
    omega
  · rw [blank_ticks]
    · have c1 : allCells.countP (fun c => decide ((0 : U8) ≠ if c.1.val = 3 ∧ c.2.val < 100 then 0x7f else 0)) = 100 := by decide +kernel
      have c2 : allCells.countP (fun _ => decide ((0 : U8) ≠ 0)) = 0 := by decide +kernel
      have hW : ∀ (T : Bitmap), (∀ p o, T.bank false p o = if p.val = 3 ∧ o.val < 100 then 0x7f else 0) → (∀ p o, T.bank true p o = 0) →
          wrongInAll .DHGR blank (banks T) = 100 := by
        intro T e1 e2
        have b1 : ∀ c : Fin 32 × Fin 256, bankOf (banks T) false c.1 c.2 = if c.1.val = 3 ∧ c.2.val < 100 then 0x7f else 0 := fun c => by
          rw [bankOf_banks, e1]
        have b2 : ∀ c : Fin 32 × Fin 256, bankOf (banks T) true c.1 c.2 = 0 := fun c => by rw [bankOf_banks, e2]
        have b3 : ∀ a (c : Fin 32 × Fin 256), bankOf blank a c.1 c.2 = 0 := fun a c => by cases a <;> rfl
        simp only [wrongInAll, wrongBytes, b1, b2, b3]
        rw [c1, c2]
      exact hW _ (fun _ _ => rfl) (fun _ _ => rfl)
    · intro x hx
      rw [htk] at hx
      obtain ⟨i, hi, rfl⟩ := List.getElem_of_mem hx
      rw [List.length_take] at hi
      have hi' : i < steps.length := by omega
      rw [List.getElem_take]
      obtain ⟨-, -, ⟨f, q1, q2⟩, q3, -, -, q4, -⟩ := h8 i _ _ (List.getElem?_eq_getElem (by omega)) (List.getElem?_eq_getElem hi')
      rw [still_shown hP (k := 0) ⟨0, rfl⟩ (by show max 1 0 ≤ i + 1; omega) fun k' r1 _ => by
        show _ < max (k' + 1) (1168 * k'); omega] at q1
      obtain ⟨first, -, -, -, -, -, -, -, -, q5⟩ := C16_operation_shape _ _ _ _ h2 _ _ h3 _ (List.getElem_mem hi')
      rw [q4, q5]
      cases q1
      have hT : ∀ (T : Bitmap), (sketchMovie t).bitmapOf ⟨emptyMap, some emptyMap⟩ = .ok T → ∀ a p o, T.bank a p o = 0 := by
        intro T hT
        cases hT
        intro a p o
        cases a <;> rfl
      exact hT _ q2 _ _ _

end IIVision
