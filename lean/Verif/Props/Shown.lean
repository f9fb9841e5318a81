import Verif.Props.Picture
import Verif.Props.Movie
import Verif.Props.Connect
import Verif.Props.Fair

/-! C64: a picture that stays for half a second is shown completely. -/

namespace IIVision
open Spec

def isPull : Call → Bool
  | .pull => true
  | _ => false

/-- One step for each `next()`. -/
theorem run_length {t : EditTable} (calls : List Call) : ∀ {e e' : Enc} {tr : List Step}, e.run t calls = .ok (e', tr) →
    tr.length = calls.countP isPull := by
  induction calls with
  | nil => intro e e' tr h; cases h; rfl
  | cons c cs ih =>
    intro e e' tr h
    cases hc : e.call t c with
    | error x =>
      unfold Enc.run at h
      simp only [hc, bind, Except.bind] at h
      cases h
    | ok x =>
      obtain ⟨e1, s⟩ := x
      obtain ⟨tr', h1, rfl⟩ := run_cons_inv hc h
      have hs : s.length = if isPull c then 1 else 0 := by
        cases c with
        | start => cases hc; rfl
        | reset => cases hc; rfl
        | pull =>
          unfold Enc.call at hc
          cases hg : e.gen with
          | none => rw [hg] at hc; cases hc
          | some g =>
            rw [hg] at hc
            simp only [bind, Except.bind] at hc
            cases hn : e.v.next t e.rng g with
            | error x => rw [hn] at hc; cases hc
            | ok x => rw [hn] at hc; cases hc; rfl
      rw [List.length_append, ih h1, hs, List.countP_cons, Nat.add_comm]

theorem startShown_pull (M : Movie) (F : List Frame) (k : Nat) (b : Bool) : (startShown M F k b).countP isPull = 0 := by
  unfold startShown
  split
  · split <;> rfl
  · rfl

theorem tickCalls_pull (M : Movie) (F : List Frame) (b : Nat → Bool) (i : Nat) : (tickCalls M F b i).countP isPull = 1 := by
  unfold tickCalls
  rw [List.countP_append, List.countP_append]
  have h1 : (if fetched M.thr (i + 1) ≠ fetched M.thr i ∧ M.everyN ∣ (fetched M.thr i : Int) then
      startShown M F (fetched M.thr (i + 1)) (b i) ++ [Call.reset] else []).countP isPull = 0 := by
    split
    · rw [List.countP_append, startShown_pull]; rfl
    · rfl
  have h2 : (if i ≠ 0 ∧ b i ≠ b (i - 1) then startShown M F (fetched M.thr (i + 1)) (b i) else []).countP isPull = 0 := by
    split
    · exact startShown_pull _ _ _ _
    · rfl
  rw [h1, h2]
  rfl

theorem movieCalls_succ (M : Movie) (F : List Frame) (b : Nat → Bool) (n : Nat) :
    movieCalls M F b (n + 1) = movieCalls M F b n ++ tickCalls M F b n := by
  unfold movieCalls
  rw [List.range_succ, List.flatMap_append]
  simp

theorem movieCalls_pull (M : Movie) (F : List Frame) (b : Nat → Bool) (n : Nat) : (movieCalls M F b n).countP isPull = n := by
  induction n with
  | zero => rfl
  | succ n ih => rw [movieCalls_succ, List.countP_append, ih, tickCalls_pull]

theorem movieCalls_add (M : Movie) (F : List Frame) (b : Nat → Bool) (n m : Nat) :
    ∃ post, movieCalls M F b (n + m) = movieCalls M F b n ++ post := by
  induction m with
  | zero => exact ⟨[], by rw [List.append_nil]; rfl⟩
  | succ m ih =>
    obtain ⟨post, h⟩ := ih
    exact ⟨post ++ tickCalls M F b (n + m), by rw [← Nat.add_assoc, movieCalls_succ, h, List.append_assoc]⟩

/-- The first ticks. -/
theorem movie_prefix {M : Movie} {F : List Frame} {b : Nat → Bool} {tape : Nat → Nat} {n i : Nat} {e : Enc} {steps : List Step}
    (h : runNew M.mode M.table tape (movieCalls M F b n) = .ok (e, steps)) (hi : i ≤ n) :
    ∃ e', runNew M.mode M.table tape (movieCalls M F b i) = .ok (e', steps.take i) := by
  obtain ⟨post, hp⟩ := movieCalls_add M F b i (n - i)
  rw [show i + (n - i) = n by omega] at hp
  rw [hp] at h
  obtain ⟨e0, i1, -⟩ := init_ok M.table M.mode tape
  unfold runNew at h ⊢
  rw [i1] at h ⊢
  obtain ⟨e1, tr1, tr2, h1, h2, rfl⟩ := run_append_inv (e := e0) h
  refine ⟨e1, ?_⟩
  have := run_length _ h1
  rw [movieCalls_pull] at this
  rw [List.take_append_of_le_length (by omega), List.take_of_length_le (by omega)]
  exact h1

/-- Ticks without a new frame or bank. -/
theorem movieCalls_still {M : Movie} {F : List Frame} {b : Nat → Bool} (n m : Nat) (h : ∀ i, n ≤ i → i < n + m → tickCalls M F b i = [.pull]) :
    movieCalls M F b (n + m) = movieCalls M F b n ++ List.replicate m .pull := by
  induction m with
  | zero => simp
  | succ m ih =>
    rw [← Nat.add_assoc, movieCalls_succ, ih (fun i h1 h2 => h i h1 (by omega)), h (n + m) (by omega) (by omega), List.append_assoc,
      List.replicate_succ']

theorem run_swap {t : EditTable} {e : Enc} (T : Bitmap) (a : Bool) (l : List Call) :
    e.run t (.start T a :: .reset :: l) = e.run t (.reset :: .start T a :: l) := rfl

theorem runNew_swap {mode : VideoMode} {t : EditTable} {tape : Nat → Nat} (pre : List Call) (T : Bitmap) (a : Bool) (l : List Call) :
    runNew mode t tape (pre ++ .start T a :: .reset :: l) = runNew mode t tape (pre ++ .reset :: .start T a :: l) := by
  have key : ∀ e : Enc, e.run t (pre ++ .start T a :: .reset :: l) = e.run t (pre ++ .reset :: .start T a :: l) := by
    induction pre with
    | nil => intro e; exact run_swap T a l
    | cons c cs ih =>
      intro e
      rw [List.cons_append, List.cons_append]
      unfold Enc.run
      cases e.call t c with
      | error x => rfl
      | ok x =>
        simp only [bind, Except.bind]
        rw [ih]
  unfold runNew
  cases Enc.init mode tape with
  | error x => rfl
  | ok e => exact key e

theorem init_flags {mode : VideoMode} {tape : Nat → Nat} {e : Enc} (h : Enc.init mode tape = .ok e) :
    e.v.outOfWork = fun _ => false := by
  unfold Enc.init at h
  cases hv : Video.new mode with
  | error x => rw [hv] at h; cases h
  | ok v =>
    rw [hv] at h
    cases h
    unfold Video.new at hv
    cases mode with
    | HGR =>
      cases hb : HGRBitmap.new emptyMap with
      | error x => rw [hb] at hv; cases hv
      | ok x => rw [hb] at hv; cases hv; rfl
    | DHGR =>
      cases hb : DHGRBitmap.new emptyMap emptyMap with
      | error x => rw [hb] at hv; cases hv
      | ok x => rw [hb] at hv; cases hv; rfl

theorem runNew_first {mode : VideoMode} {t : EditTable} {tape : Nat → Nat} (T : Bitmap) (a : Bool) (l : List Call) :
    runNew mode t tape (.start T a :: .reset :: l) = runNew mode t tape (.start T a :: l) := by
  unfold runNew
  cases he : Enc.init mode tape with
  | error x => rfl
  | ok e =>
    have hf := init_flags he
    obtain ⟨⟨vm, vp, vq, va, vo⟩, g, r, sv⟩ := e
    change vo = _ at hf
    subst hf
    simp only [bind, Except.bind, Enc.run, Enc.call]
    cases Enc.run t _ l with
    | error x => rfl
    | ok x => rfl

/-- Calls that are not `next()` leave no trace. -/
theorem run_silent {t : EditTable} {mode : VideoMode} {tape : Nat → Nat} {pre X : List Call} (hX : X.countP isPull = 0) {e : Enc} {tr : List Step}
    (h : runNew mode t tape (pre ++ X) = .ok (e, tr)) : ∃ e1, runNew mode t tape pre = .ok (e1, tr) := by
  obtain ⟨e0, i1, -⟩ := init_ok t mode tape
  unfold runNew at h ⊢
  rw [i1] at h ⊢
  obtain ⟨e1, tr1, tr2, h1, h2, rfl⟩ := run_append_inv (e := e0) h
  have := run_length _ h2
  rw [hX, List.length_eq_zero_iff] at this
  rw [this, List.append_nil]
  exact ⟨e1, h1⟩

/-- Starting a frame, with the flags reset, is starting a frame in a history of the same effect. -/
theorem reset_history {mode : VideoMode} {t : EditTable} {tape : Nat → Nat} {pre : List Call} {T : Bitmap} {a : Bool} {l : List Call}
    (h : Legal mode (pre ++ .start T a :: .reset :: l)) :
    ∃ pre', Legal mode (pre' ++ .start T a :: l) ∧
      runNew mode t tape (pre ++ .start T a :: .reset :: l) = runNew mode t tape (pre' ++ .start T a :: l) ∧
      ∀ e tr, runNew mode t tape pre' = .ok (e, tr) → ∃ e1, runNew mode t tape pre = .ok (e1, tr) := by
  cases pre with
  | nil =>
    refine ⟨[], ⟨fun c hc => h.each c ?_, fun c hc => ?_⟩, runNew_first T a l, fun e tr he => ⟨e, he⟩⟩
    · simp only [List.nil_append, List.mem_cons] at hc ⊢
      tauto
    · cases hc; rfl
  | cons c cs =>
    refine ⟨c :: cs ++ [.reset], ⟨fun x hx => h.each x ?_, fun x hx => ?_⟩, ?_, fun e tr he => run_silent rfl he⟩
    · simp only [List.cons_append, List.append_assoc, List.nil_append, List.mem_append, List.mem_cons] at hx ⊢
      tauto
    · refine h.first x ?_
      simpa using hx
    · rw [runNew_swap]
      simp

/-- In HGR all ticks go to main memory. -/
theorem hgr_banks {M : Movie} (hm : M.mode = .HGR) {A : List Int} {F : List Frame} (hin : MovieInput M A F) {tape : Nat → Nat}
    {ops : List Opcode} {bytes : List Nat} (h : M.stream tape A F = .ok (ops, bytes)) (i : Nat) : tickBank (ticksOf false ops) i = false := by
  obtain ⟨body, bytes', calls, e, steps, h1, -, -, h4, -, -, -, h5, -⟩ := movie_exact M A F hin tape
  rw [h1] at h
  simp only [Except.ok.injEq, Prod.mk.injEq] at h
  obtain ⟨rfl, rfl⟩ := h
  have htk : ticksOf false (.header M.mode :: body ++ [.terminate]) = ticksOf false body := ticksOf_terminate body false
  unfold tickBank
  rw [htk]
  split
  · next x hx =>
    have hlt := (List.getElem?_eq_some_iff.mp hx).1
    obtain ⟨-, -, -, hk, hb, -⟩ := h5 i x _ hx (List.getElem?_eq_getElem (by omega))
    rw [hb]
    cases hs : (steps[i]'(by omega)).isAux with
    | false => rfl
    | true =>
      have := hk.legal.aux
      rw [hs] at this
      have := this rfl
      rw [hm] at this; cases this
  · rfl

/-- The calls while a picture is current, in HGR. -/
theorem still_calls {M : Movie} {F : List Frame} (hp : Paced M.thr) {k i : Nat} (hk : M.everyN ∣ (k : Int))
    (hd : due M.thr k ≤ i) (hnext : ∀ k', k < k' → M.everyN ∣ (k' : Int) → i < due M.thr k')
    {f : Frame} {T : Bitmap} (hf : F[k]? = some f) (hT : M.bitmapOf f = .ok T) :
    movieCalls M F (fun _ => false) i =
      movieCalls M F (fun _ => false) (due M.thr k - 1) ++ .start T false :: .reset :: List.replicate (i - (due M.thr k - 1)) .pull := by
  obtain ⟨c1, c2⟩ := C29_no_drift M.thr hp k
  have hpos : 1 ≤ due M.thr k := by unfold due; omega
  generalize hD : due M.thr k - 1 = d at *
  have hdd : due M.thr k = d + 1 := by omega
  rw [hdd] at c1 hd
  have hsh : shown M.everyN (k + 1) = k := by
    apply shown_new
    rw [show (((k + 1 : Nat) : Int) - 1) = (k : Int) by omega]
    exact Int.emod_eq_zero_of_dvd hk
  have e1 : tickCalls M F (fun _ => false) d = [.start T false, .reset, .pull] := by
    unfold tickCalls
    rw [c1, c2, if_pos ⟨by omega, hk⟩, if_neg (by simp), startShown_eq (T := T) ⟨f, by rw [hsh]; exact hf, hT⟩]
    rfl
  have e2 : ∀ j, d + 1 ≤ j → j < d + 1 + (i - (d + 1)) → tickCalls M F (fun _ => false) j = [.pull] := by
    intro j h1 h2
    unfold tickCalls
    rw [if_neg, if_neg (by simp)]
    · rfl
    · rintro ⟨h3, h4⟩
      have h5 : fetched M.thr (j + 1) = fetched M.thr j + 1 := by
        rw [fetched_succ] at h3 ⊢
        split at h3
        · next h6 => rw [if_pos h6]
        · exact absurd rfl h3
      have h6 := (fetched_due hp (j + 1)).2.1 (fetched M.thr j) (by omega)
      have h7 : k < fetched M.thr j := by
        by_contra hlt
        have h8 := (fetched_due hp j).2.2
        have h9 : due M.thr (fetched M.thr j) ≤ due M.thr k := by
          rcases Nat.lt_or_eq_of_le (Nat.le_of_not_lt hlt) with h | h
          · exact Nat.le_of_lt (due_strict hp h)
          · rw [h]
        omega
      have := hnext _ h7 h4
      omega
  obtain ⟨m, rfl⟩ : ∃ m, i = d + 1 + m := ⟨i - (d + 1), by omega⟩
  rw [Nat.add_sub_cancel_left] at e2
  rw [movieCalls_still _ _ e2, movieCalls_succ, e1, show d + 1 + m - d = m + 1 by omega, List.replicate_succ]
  simp

/-- A frame that is current at a tick of the stream exists. -/
theorem frame_there {M : Movie} (hp : Paced M.thr) {A : List Int} {F : List Frame} (hin : MovieInput M A F) {tape : Nat → Nat}
    {ops : List Opcode} {bytes : List Nat} (h : M.stream tape A F = .ok (ops, bytes)) {k i : Nat} (hd : due M.thr k ≤ i)
    (hi : i ≤ (ticksOf false ops).length) : ∃ f T, F[k]? = some f ∧ M.bitmapOf f = .ok T := by
  have hpos : 1 ≤ due M.thr k := by unfold due; omega
  have hlen : i - 1 < (ticksOf false ops).length := by omega
  obtain ⟨body, bytes', calls, e', steps', g1, -, -, g4, -, -, -, g5, -⟩ := movie_exact M A F hin tape
  have h' := h
  rw [g1] at h'
  simp only [Except.ok.injEq, Prod.mk.injEq] at h'
  obtain ⟨rfl, rfl⟩ := h'
  have htk : ticksOf false (.header M.mode :: body ++ [.terminate]) = ticksOf false body := ticksOf_terminate body false
  rw [htk] at hlen
  obtain ⟨q1, -, -⟩ := g5 (i - 1) _ _ (List.getElem?_eq_getElem hlen) (List.getElem?_eq_getElem (by omega))
  rw [show i - 1 + 1 = i by omega] at q1
  have hkF : k < F.length := by
    by_contra hge
    have := (fetched_due hp i).2.2
    have h8 : due M.thr (fetched M.thr i) ≤ due M.thr k := by
      rcases Nat.lt_or_eq_of_le (show fetched M.thr i ≤ k by omega) with h | h
      · exact Nat.le_of_lt (due_strict hp h)
      · rw [h]
    omega
  obtain ⟨T, hT, -⟩ := bitmapOf_ok (hin.frames _ (List.getElem_mem hkF))
  exact ⟨_, T, List.getElem?_eq_getElem hkF, hT⟩

/-- The player's screen after `i` ticks is what the encoder's operations give. -/
theorem play_ticks {ops : List Opcode} {steps : List Step} (h3 : (ticksOf false ops).length = steps.length)
    (h4 : ∀ (i : Nat) (x : Played) (s : Step), (ticksOf false ops)[i]? = some x → steps[i]? = some s →
        x.bank = s.isAux ∧ x.page = s.op.page ∧ x.content = s.op.content ∧ x.offsets = s.op.offsets) (i : Nat) :
    ((ticksOf false ops).take i).foldl playTick blank = play blank (steps.take i) := by
  unfold play
  refine Player.foldl_rel _ _ _ (by simp [h3]) ?_
  intro j x s hx hs m
  obtain ⟨q1, q2, q3, q4⟩ := h4 j x s (Player.take_get hx) (Player.take_get hs)
  unfold playTick playOp VideoOp.pageIx
  rw [q1, q2, q3, q4]

/-- C64: in an HGR movie with a generated table, a frame `k` whose number is a multiple of the stride; `i` ticks have been played, the last 7681
or more of them since frame `k` was due, and no other such frame has become due.  Then the screen shows frame `k`, except for the leftmost dots of C62. -/
theorem C64_hgr_shown (deltaE : RGB → RGB → Int) (hd : ColourDifference deltaE) (hs : Separates deltaE)
    (dm0 : Nat → Nat → Int) (pal : Palette) (rgb : Colour → RGB) (hpal : (pal, rgb) ∈ palettes)
    (M : Movie) (hm : M.mode = .HGR) (ht : Loaded deltaE dm0 .HGR pal M.table) (hp : Paced M.thr)
    (A : List Int) (F : List Frame) (hin : MovieInput M A F) (tape : Nat → Nat) (ops : List Opcode) (bytes : List Nat)
    (h : M.stream tape A F = .ok (ops, bytes)) (k i : Nat) (hk : M.everyN ∣ (k : Int))
    (hlong : due M.thr k + 7680 ≤ i) (hi : i ≤ (ticksOf false ops).length)
    (hnext : ∀ k', k < k' → M.everyN ∣ (k' : Int) → i < due M.thr k') :
    ∃ f T, F[k]? = some f ∧ M.bitmapOf f = .ok T ∧ ∀ (y : Fin 192) (d : Fin 560),
      let shows := ((ticksOf false ops).take i).foldl playTick blank
      screenDot .HGR shows y d = screenDot .HGR (banks T) y d ∨
      d = 0 ∧ hiresAddr 0 y 0 % 256 ≠ 0 ∧ (screenByte (banks T).1 y 0 = 0x7f ∧ screenByte shows.1 y 0 = 0xff ∨
        screenByte (banks T).1 y 0 = 0xff ∧ screenByte shows.1 y 0 = 0x7f) := by
  obtain ⟨e, steps, h1, h2, h3, h4⟩ := C27_exact_history M A F hin tape ops bytes h
  obtain ⟨f, T, hf, hT⟩ := frame_there hp hin h (k := k) (by omega) hi
  refine ⟨f, T, hf, hT, ?_⟩
  -- what the player shows
  obtain ⟨e', hr⟩ := movie_prefix h2 hi
  have hb : tickBank (ticksOf false ops) = fun _ => false := funext fun j => hgr_banks hm hin h j
  rw [play_ticks h3 h4]
  rw [hb] at hr h1
  have hL : Legal M.mode (movieCalls M F (fun _ => false) i) := by
    obtain ⟨post, hpost⟩ := movieCalls_add M F (fun _ => false) i ((ticksOf false ops).length - i)
    rw [show i + ((ticksOf false ops).length - i) = (ticksOf false ops).length by omega] at hpost
    rw [hpost] at h1
    exact legal_prefix h1
  rw [still_calls hp hk (by omega) hnext hf hT] at hr hL
  obtain ⟨pre', l1, l2, -⟩ := reset_history (t := M.table) (tape := tape) hL
  rw [l2, hm] at hr
  rw [hm] at l1
  obtain ⟨e0, tr0, e2, tr, -, k2, k3, k4⟩ := C62_hgr_finished deltaE hd hs dm0 pal rgb hpal M.table ht tape pre' T _ l1
  rw [k2] at hr
  simp only [Except.ok.injEq, Prod.mk.injEq] at hr
  rw [← hr.2]
  have hpos : 1 ≤ due M.thr k := by unfold due; omega
  exact k4 (by omega)

/-- C64, on the Apple II: the player plays the file of such a movie as in `C41_from_start`.  When it has executed the `i`-th tick,
the screen shows frame `k`. -/
theorem Player.C64_machine (deltaE : RGB → RGB → Int) (hd : ColourDifference deltaE) (hs : Separates deltaE)
    (dm0 : Nat → Nat → Int) (pal : Palette) (rgb : Colour → RGB) (hpal : (pal, rgb) ∈ palettes)
    (M : Movie) (hm : M.mode = .HGR) (ht : IIVision.Loaded deltaE dm0 .HGR pal M.table) (hp : Paced M.thr) (ha : M.addr = playerAddr)
    (A : List Int) (F : List Frame) (hin : MovieInput M A F) (tape : Nat → Nat) (ops : List Opcode) (bytes : List Nat)
    (h : M.stream tape A F = .ok (ops, bytes)) (k i : Nat) (hk : M.everyN ∣ (k : Int))
    (hlong : due M.thr k + 7680 ≤ i) (hi : i ≤ (ticksOf false ops).length)
    (hnext : ∀ k', k < k' → M.everyN ∣ (k' : Int) → i < due M.thr k')
    {e : Env} (hfile : e.file = bytes.map (BitVec.ofNat 8)) (hD : e.Delivers) (hA : e.Answers) (hR : e.NeverRefuses)
    (hO : e.StaysOpen ∨ 8192 < e.file.length) {s : Mach} (hst : Started s) (hw : s.w.works = true) (hkb : PausesEnd e s) :
    ∃ s1 u done todo f T, ops = .header M.mode :: done ++ todo ∧ (ticksOf false done).length = i ∧
      s.Reaches e s1 ∧ s1.sw = Switches.For .HGR s.sw ∧ Executes e s1 done u ∧
      F[k]? = some f ∧ M.bitmapOf f = .ok T ∧ ∀ (y : Fin 192) (d : Fin 560),
        screenDot .HGR u.screens y d = screenDot .HGR (banks T) y d ∨
        d = 0 ∧ hiresAddr 0 y 0 % 256 ≠ 0 ∧ (screenByte (banks T).1 y 0 = 0x7f ∧ screenByte u.screens.1 y 0 = 0xff ∨
          screenByte (banks T).1 y 0 = 0xff ∧ screenByte u.screens.1 y 0 = 0x7f) := by
  obtain ⟨body, s1, s2, calls, enc, steps, c1, c2, c3, c4, c5, c6, c7, c8, c9, c10, -⟩ := C41_from_start hin ha h hfile hD hA hR hO hst hw hkb
  obtain ⟨f, T, g1, g2, g3⟩ := C64_hgr_shown deltaE hd hs dm0 pal rgb hpal M hm ht hp A F hin tape ops bytes h k i hk hlong hi hnext
  have htk : ticksOf false ops = ticksOf false body := by rw [c1]; exact ticksOf_terminate body false
  rw [htk] at hi g3
  obtain ⟨-, -, u, done, todo, -, -, -, -, d1, d2, d3, -, -, d4⟩ := c10 (i - 1) (by omega)
  rw [show i - 1 + 1 = i by omega] at d2 d4
  have hplay : ((ticksOf false body).take i).foldl playTick blank = play blank (steps.take i) := by
    unfold play
    refine Player.foldl_rel _ _ _ (by simp [c8]) ?_
    intro j x s hx hs m
    obtain ⟨q1, q2, q3, q4, -⟩ := c9 j x s (Player.take_get hx) (Player.take_get hs)
    unfold playTick playOp VideoOp.pageIx
    rw [q1, q2, q3, q4]
  have h1 : u.screens.1 = (((ticksOf false body).take i).foldl playTick blank).1 := by
    rw [hplay]; exact d4 false fun _ => rfl
  refine ⟨s1, u, done, todo ++ [.terminate], f, T, by rw [c1, d1]; simp, d2, c2, by rw [c3, hm], d3, g1, g2, fun y d => ?_⟩
  have key := g3 y d
  dsimp only at key
  rw [← h1] at key
  have e2 : ∀ m m' : Mem × Mem, m.1 = m'.1 → screenDot .HGR m y d = screenDot .HGR m' y d := by
    intro m m' h; unfold screenDot; rw [h]
  rw [e2 _ u.screens h1.symm] at key
  exact key

/-- 30 frames per second, every twentieth encoded. -/
def slideShow (t : EditTable) : Movie :=
  { mode := .HGR, everyN := 20, limit := 0, addr := playerAddr, table := t, thr := fun k => 490 * k }

/-- Fifty frames of different patterns. -/
def slides : List Frame := (List.range 50).map fun i => ⟨⟨1, fun _ o => BitVec.ofNat 8 (i + 3 * o.val)⟩, none⟩

/-- The hypotheses are met: 20000 samples; frame 20 is shown completely at least from tick 17480 to tick 19599. -/
example : ∃ (t : EditTable) (A : List Int), Loaded plainDifference (fun _ _ => 0) .HGR .NTSC t ∧ ColourDifference plainDifference ∧
    Separates plainDifference ∧ Paced (slideShow t).thr ∧ MovieInput (slideShow t) A slides ∧
    ∀ tape, ∃ ops bytes, (slideShow t).stream tape A slides = .ok (ops, bytes) ∧ ∀ i, 17480 ≤ i → i ≤ 19599 →
      (slideShow t).everyN ∣ ((20 : Nat) : Int) ∧ due (slideShow t).thr 20 + 7680 ≤ i ∧ i ≤ (ticksOf false ops).length ∧
      ∀ k' : Nat, 20 < k' → (slideShow t).everyN ∣ (k' : Int) → i < due (slideShow t).thr k' := by
  obtain ⟨-, edp, -, -, h, -⟩ := loaded_form plainDifference_ok.1 (fun _ _ => 0) .HGR
    (p := .NTSC) (rgb := ntscRGB) (List.mem_cons_of_mem _ List.mem_cons_self)
  obtain ⟨t, h⟩ : ∃ t, Loaded plainDifference (fun _ _ => 0) .HGR .NTSC t := ⟨_, h⟩
  have hP : Paced (slideShow t).thr := ⟨rfl, fun k => by show 490 * k + 1 ≤ 490 * (k + 1); omega⟩
  obtain ⟨A, hA, hA'⟩ : ∃ A : List Int, A.length = 20000 ∧ ∀ a ∈ A, a = 7 :=
    ⟨List.replicate 20000 7, List.length_replicate, fun a ha => List.eq_of_mem_replicate ha⟩
  have hI : MovieInput (slideShow t) A slides := by
    refine ⟨(by decide : (20 : Int) ≠ 0), le_refl _, rfl, fun a ha => by rw [hA' a ha]; decide, fun f hf => ?_⟩
    obtain ⟨i, -, rfl⟩ := List.mem_map.mp hf
    exact ⟨rfl, fun h => (nomatch h), fun h => (nomatch h)⟩
  refine ⟨t, A, h, plainDifference_ok.1, plainDifference_ok.2, hP, hI, fun tape => ?_⟩
  obtain ⟨body, bytes, -, -, -, hst, -⟩ := movie_facts _ _ _ hI tape
  have hlen := (C28_audio _ _ _ hI hP tape _ _ hst).2
  refine ⟨_, _, hst, fun i h1 h2 => ⟨⟨1, rfl⟩, (by show max (20 + 1) (490 * 20) + 7680 ≤ i; omega), ?_, ?_⟩⟩
  · have hF : slides.length = 50 := by unfold slides; rw [List.length_map, List.length_range]
    rw [hF, hA] at hlen
    generalize (ticksOf false _).length = n at hlen ⊢
    rcases hlen with h | ⟨-, h⟩ | ⟨h, -⟩
    · omega
    · change max (50 + 1) (490 * 50) = n + 1 at h
      omega
    · exact absurd rfl h
  · rintro k' h3 ⟨q, h4⟩
    change (k' : Int) = 20 * q at h4
    show i < max (k' + 1) (490 * k')
    omega

end IIVision
