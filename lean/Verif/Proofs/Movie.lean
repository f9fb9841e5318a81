import Verif.Proofs.Stream
import Verif.Proofs.Encoder

/-! The `encode()` generator driven by the stream emitter: every tick operation is the next
operation of a legal history of the frame encoder. -/

namespace IIVision
open Spec

theorem bank_aux (mode : VideoMode) (m : Nat) : AuxOk mode (bankAt mode m) := by
  intro h
  unfold bankAt at h
  simp only [decide_eq_true_eq] at h
  exact h.1

theorem bitmapOf_ok {M : Movie} {f : Frame} (h : MovieFrame M.mode f) :
    ∃ T, M.bitmapOf f = .ok T ∧ (∀ a, AuxOk M.mode a → LegalFrame M.mode T a) ∧
      T.bank false = f.main.pageOffset := by
  unfold Movie.bitmapOf
  cases hm : M.mode with
  | HGR =>
    obtain ⟨v1, v2, v3⟩ := hgr_new_valid (m := f.main) h.main rfl
    refine ⟨_, rfl, ?_, rfl⟩
    intro a ha
    refine ⟨v1, ha, ?_⟩
    intro hd; cases hd
  | DHGR =>
    obtain ⟨a, h1, h2, h3⟩ := h.aux hm
    obtain ⟨v1, v2, v3⟩ := dhgr_new_valid (m := f.main) (a := a) h.main h2 rfl
    rw [h1]
    refine ⟨_, rfl, ?_, rfl⟩
    intro b hb
    refine ⟨v1, hb, ?_⟩
    intro _ p o
    cases b with
    | false => exact h.clean hm p o
    | true => exact h3 p o

/-- The bitmap of the frame shown after `k` fetched frames. -/
def ShownBitmap (M : Movie) (F : List Frame) (k : Nat) (T : Bitmap) : Prop :=
  ∃ f, F[shown M.everyN k]? = some f ∧ M.bitmapOf f = .ok T

/-- After `k` samples. -/
structure MInv (M : Movie) (A : List Int) (F : List Frame) (k : Nat) (c : Coder) (e : Enc) : Prop where
  phase : c.phase = if k = 0 then .header else .loop
  audio : c.audio = A.drop k
  ticks : c.ticks = k
  number : c.frameNumber = fetched M.thr k
  frames : c.frames = F.drop (fetched M.thr k)
  enough : fetched M.thr k ≤ F.length
  v : c.v = e.v
  gen : c.gen = e.gen
  rng : c.rng = e.rng
  einv : EInv M.table M.mode e
  bank : k ≠ 0 → c.lastBank = bankAt M.mode k
  cur : k ≠ 0 → ∃ T g, c.target = some T ∧ ShownBitmap M F (fetched M.thr k) T ∧
    1 ≤ fetched M.thr k ∧ e.gen = some g ∧ g.target = T ∧ g.isAux = bankAt M.mode k

/-- How the tick for sample number `k` relates to a step of the frame encoder. -/
structure TickRel (M : Movie) (A : List Int) (F : List Frame) (k : Nat) (op : Opcode) (s : Step) :
    Prop where
  enough : fetched M.thr (k + 1) ≤ F.length
  started : 1 ≤ fetched M.thr (k + 1)
  target : ShownBitmap M F (fetched M.thr (k + 1)) s.target
  bank : s.isAux = bankAt M.mode (k + 1)
  ok : StepOk M.table M.mode s
  tick : ∃ t p au, A[k]? = some au ∧ op = .tick t p s.op.content s.op.offsets ∧
    ((4 + 2 * t.val : Nat) : Int) = 2 * au + 34 ∧ 32 + p.val = s.op.page ∧ s.op.offsets.length = 4

theorem shown_new {n : Int} (k : Nat) (h' : (((k + 1 : Nat) : Int) - 1) % n = 0) :
    shown n (k + 1) = k := by
  have e : (((k + 1 : Nat) : Int) - 1) = (k : Int) := by omega
  rw [e] at h'
  have hd : n.natAbs ∣ k := by
    have := Int.dvd_of_emod_eq_zero h'
    exact Int.natAbs_dvd_natAbs.mpr this
  unfold shown
  rw [Nat.add_sub_cancel]
  exact Nat.div_mul_cancel hd

theorem shown_old {n : Int} (k : Nat) (h : (((k + 1 : Nat) : Int) - 1) % n ≠ 0) :
    1 ≤ k ∧ shown n (k + 1) = shown n k := by
  have e : (((k + 1 : Nat) : Int) - 1) = (k : Int) := by omega
  rw [e] at h
  have hd : ¬ n.natAbs ∣ k := by
    intro hd
    apply h
    apply Int.emod_eq_zero_of_dvd
    exact Int.natAbs_dvd_natAbs.mp (by simpa using hd)
  have hk : 1 ≤ k := by
    rcases Nat.eq_zero_or_pos k with h0 | h0
    · exact absurd (h0 ▸ Nat.dvd_zero _) hd
    · exact h0
  refine ⟨hk, ?_⟩
  unfold shown
  rw [Nat.add_sub_cancel]
  congr 1
  obtain ⟨j, rfl⟩ : ∃ j, k = j + 1 := ⟨k - 1, by omega⟩
  rw [Nat.add_sub_cancel]
  exact Nat.succ_div_of_not_dvd hd

theorem start_inv {t : EditTable} {mode : VideoMode} {e : Enc} (h : EInv t mode e) {T : Bitmap} {a : Bool}
    (hl : LegalFrame mode T a) : EInv t mode { e with gen := some (.notStarted T a) } :=
  ⟨h.vmode, h.valid, h.holes, h.clean, h.prio, hl⟩

theorem reset_inv {t : EditTable} {mode : VideoMode} {e : Enc} (h : EInv t mode e) :
    EInv t mode { e with v := { e.v with outOfWork := fun _ => false } } :=
  ⟨h.vmode, h.valid, h.holes, h.clean, h.prio, h.gen.congr rfl rfl rfl (fun _ => rfl)⟩

theorem fetched_succ (thr : Nat → Nat) (t : Nat) : fetched thr (t + 1) =
    if thr (fetched thr t) ≤ t + 1 then fetched thr t + 1 else fetched thr t := rfl

theorem startShown_eq {M : Movie} {F : List Frame} {k : Nat} {T : Bitmap} (h : ShownBitmap M F k T) (b : Bool) :
    startShown M F k b = [.start T b] := by
  obtain ⟨f, h1, h2⟩ := h
  unfold startShown
  rw [h1]
  simp only [h2]

/-- State between movie.py:96 and movie.py:98. -/
structure AfterFetch (M : Movie) (A : List Int) (F : List Frame) (k : Nat) (lb : Bool) (c : Coder)
    (e : Enc) : Prop where
  phase : c.phase = .loop
  audio : c.audio = A.drop (k + 1)
  ticks : c.ticks = k + 1
  number : c.frameNumber = fetched M.thr (k + 1)
  frames : c.frames = F.drop (fetched M.thr (k + 1))
  enough : fetched M.thr (k + 1) ≤ F.length
  v : c.v = e.v
  gen : c.gen = e.gen
  rng : c.rng = e.rng
  einv : EInv M.table M.mode e
  bank : c.lastBank = lb
  cur : ∃ T g, c.target = some T ∧ ShownBitmap M F (fetched M.thr (k + 1)) T ∧
    1 ≤ fetched M.thr (k + 1) ∧ e.gen = some g ∧ g.target = T ∧
    (g.isAux = lb ∨ g.isAux = bankAt M.mode (k + 1))

theorem fetch_ok {M : Movie} {A : List Int} {F : List Frame} (hin : MovieInput M A F) {k : Nat}
    {c : Coder} {e : Enc} {lb : Bool}
    (hlb : lb = if k = 0 then bankAt M.mode 1 else bankAt M.mode k)
    (h : MInv M A F k c e) :
    let c0 : Coder := { c with phase := .loop, lastBank := lb, audio := A.drop (k + 1), ticks := k + 1 }
    (M.thr (fetched M.thr k) ≤ k + 1 ∧ fetched M.thr k = F.length ∧
      Coder.fetch M (bankAt M.mode (k + 1)) c0 = .ok none) ∨
    (∃ c1 calls e1, Coder.fetch M (bankAt M.mode (k + 1)) c0 = .ok (some c1) ∧
      AfterFetch M A F k lb c1 e1 ∧ e.run M.table calls = .ok (e1, []) ∧
      (∀ x ∈ calls, x.Legal M.mode) ∧ (k = 0 → ∃ T a l, calls = .start T a :: l) ∧
      calls = if fetched M.thr (k + 1) ≠ fetched M.thr k ∧ M.everyN ∣ (fetched M.thr k : Int) then
        startShown M F (fetched M.thr (k + 1)) (bankAt M.mode (k + 1)) ++ [.reset] else []) := by
  intro c0
  have hnum : c0.frameNumber = fetched M.thr k := h.number
  have htk : c0.ticks = k + 1 := rfl
  unfold Coder.fetch
  rw [hnum, htk]
  by_cases hthr : M.thr (fetched M.thr k) ≤ k + 1
  · rw [if_pos hthr]
    have hsucc : fetched M.thr (k + 1) = fetched M.thr k + 1 := by rw [fetched_succ, if_pos hthr]
    have hfr : c0.frames = F.drop (fetched M.thr k) := h.frames
    by_cases hend : fetched M.thr k = F.length
    · left
      refine ⟨hthr, hend, ?_⟩
      rw [hfr, hend, List.drop_length]
    · right
      have hlt : fetched M.thr k < F.length := by have := h.enough; omega
      rw [hfr, List.drop_eq_getElem_cons hlt]
      simp only
      have hf : MovieFrame M.mode (F[fetched M.thr k]) := hin.frames _ (List.getElem_mem hlt)
      obtain ⟨T, hT, hleg, -⟩ := bitmapOf_ok hf
      unfold Coder.newFrame Movie.shouldEncode
      rw [if_neg hin.stride]
      simp only [bind, Except.bind, pure, Except.pure]
      cases henc : (((((fetched M.thr k + 1 : Nat) : Int) - 1) % M.everyN == 0)) with
      | true =>
        simp only [if_true, hT]
        have hz : (((fetched M.thr k + 1 : Nat) : Int) - 1) % M.everyN = 0 := by simpa using henc
        have hL := hleg (bankAt M.mode (k + 1)) (bank_aux _ _)
        have hsh : ShownBitmap M F (fetched M.thr (k + 1)) T := by
          rw [hsucc]
          refine ⟨F[fetched M.thr k], ?_, hT⟩
          rw [shown_new _ hz]
          exact List.getElem?_eq_getElem hlt
        have hdv : M.everyN ∣ (fetched M.thr k : Int) := by
          have := Int.dvd_of_emod_eq_zero hz
          rwa [show (((fetched M.thr k + 1 : Nat) : Int) - 1) = (fetched M.thr k : Int) by omega] at this
        refine ⟨_, [.start T (bankAt M.mode (k + 1)), .reset], _, rfl, ?_, rfl, ?_, ?_, ?_⟩
        · refine ⟨rfl, rfl, rfl, ?_, ?_, by omega, ?_, rfl, h.rng, reset_inv (start_inv h.einv hL), rfl, ?_⟩
          · rw [hsucc]
          · rw [hsucc]
          · show ({ c.v with outOfWork := fun _ => false } : Video) = _
            rw [h.v]
          · exact ⟨T, _, rfl, hsh, by omega, rfl, rfl, .inr rfl⟩
        · intro x hx
          simp only [List.mem_cons, List.not_mem_nil, or_false] at hx
          rcases hx with rfl | rfl
          · exact hL
          · trivial
        · intro _; exact ⟨_, _, _, rfl⟩
        · rw [if_pos ⟨by omega, hdv⟩, startShown_eq hsh]; rfl
      | false =>
        have hz : (((fetched M.thr k + 1 : Nat) : Int) - 1) % M.everyN ≠ 0 := by simpa using henc
        obtain ⟨h1, h2⟩ := shown_old _ hz
        have hk : k ≠ 0 := by
          rintro rfl
          exact absurd h1 (by simp [fetched])
        obtain ⟨T', g, t1, t2, t3, t4, t5, t6⟩ := h.cur hk
        refine ⟨_, [], e, rfl, ?_, rfl, by simp, fun h => absurd h hk, ?_⟩
        rotate_left
        · rw [if_neg]
          rintro ⟨-, hd⟩
          apply hz
          rw [show (((fetched M.thr k + 1 : Nat) : Int) - 1) = (fetched M.thr k : Int) by omega]
          exact Int.emod_eq_zero_of_dvd hd
        refine ⟨rfl, rfl, rfl, ?_, ?_, by omega, h.v, h.gen, h.rng, h.einv, rfl, ?_⟩
        · rw [hsucc]
        · rw [hsucc]
        · refine ⟨T', g, t1, ?_, by omega, t4, t5, .inl ?_⟩
          · obtain ⟨f, y1, y2⟩ := t2
            rw [hsucc]
            exact ⟨f, by rw [h2]; exact y1, y2⟩
          · rw [t6, hlb, if_neg hk]
  · rw [if_neg hthr]
    have hsucc : fetched M.thr (k + 1) = fetched M.thr k := by rw [fetched_succ, if_neg hthr]
    have hk : k ≠ 0 := by
      rintro rfl
      apply hthr
      have : fetched M.thr 0 = 0 := rfl
      rw [this, hin.thr0]; omega
    obtain ⟨T', g, t1, t2, t3, t4, t5, t6⟩ := h.cur hk
    right
    refine ⟨_, [], e, rfl, ?_, rfl, by simp, fun h => absurd h hk, by rw [if_neg (by rintro ⟨hh, -⟩; exact hh hsucc)]⟩
    refine ⟨rfl, rfl, rfl, ?_, ?_, ?_, h.v, h.gen, h.rng, h.einv, rfl, ?_⟩
    · rw [hsucc]; exact hnum
    · rw [hsucc]; exact h.frames
    · rw [hsucc]; exact h.enough
    · rw [hsucc]
      refine ⟨T', g, t1, t2, t3, t4, t5, .inl ?_⟩
      rw [t6, hlb, if_neg hk]

/-- movie.py:98-102. -/
theorem flip_ok {M : Movie} {A : List Int} {F : List Frame} (hin : MovieInput M A F) {k : Nat}
    {c : Coder} {e : Enc} {lb : Bool} (h : AfterFetch M A F k lb c e) :
    ∃ c1 calls e1, c.flip (bankAt M.mode (k + 1)) = .ok c1 ∧
      AfterFetch M A F k (bankAt M.mode (k + 1)) c1 e1 ∧ e.run M.table calls = .ok (e1, []) ∧
      (∀ x ∈ calls, x.Legal M.mode) ∧
      calls = if bankAt M.mode (k + 1) ≠ lb then startShown M F (fetched M.thr (k + 1)) (bankAt M.mode (k + 1)) else [] := by
  obtain ⟨T, g, t1, t2, t3, t4, t5, t6⟩ := h.cur
  unfold Coder.flip
  by_cases hb : bankAt M.mode (k + 1) = lb
  · rw [if_neg (by rw [h.bank]; simpa using hb)]
    refine ⟨c, [], e, rfl, ?_, rfl, by simp, by rw [if_neg (not_not.mpr hb)]⟩
    rw [hb]
    exact h
  · rw [if_pos (by rw [h.bank]; exact hb), t1]
    have hL : LegalFrame M.mode T (bankAt M.mode (k + 1)) := by
      obtain ⟨f, y1, y2⟩ := t2
      obtain ⟨T', hT, hleg, -⟩ := bitmapOf_ok (hin.frames f (List.mem_of_getElem? y1))
      rw [y2] at hT
      cases hT
      exact hleg _ (bank_aux _ _)
    refine ⟨_, [.start T (bankAt M.mode (k + 1))], _, rfl, ?_, rfl, ?_, by rw [if_pos hb, startShown_eq t2]⟩
    · exact ⟨h.phase, h.audio, h.ticks, h.number, h.frames, h.enough, h.v, rfl, h.rng,
        start_inv h.einv hL, rfl, T, _, rfl, t2, t3, rfl, rfl, .inr rfl⟩
    · intro x hx
      simp only [List.mem_cons, List.not_mem_nil, or_false] at hx
      rw [hx]; exact hL

theorem tickOpcodes_ok {au : Int} {page : Nat} (h1 : -15 ≤ au) (h2 : au ≤ 16) (h3 : 32 ≤ page)
    (h4 : page < 64) : ∃ t p, tickOpcodes (au * 2 + 34) page = .ok (t, p) ∧
      ((4 + 2 * t.val : Nat) : Int) = 2 * au + 34 ∧ 32 + p.val = page := by
  unfold tickOpcodes
  rw [if_pos (by omega)]
  refine ⟨_, _, rfl, ?_, ?_⟩
  · simp only [Fin.ofNat]
    omega
  · simp only [Fin.ofNat]
    omega

/-- Shape of every operation, from the step's facts. -/
theorem StepOk.shape {t : EditTable} {mode : VideoMode} {s : Step} (h : StepOk t mode s) :
    32 ≤ s.op.page ∧ s.op.page < 64 ∧ s.op.offsets.length = 4 := by
  cases hp : s.padding with
  | false =>
    obtain ⟨page, offset, extra, hE, -, -⟩ := h.emit hp
    have := hE.few
    have := hE.opPage
    refine ⟨by omega, by omega, ?_⟩
    rw [hE.opOffsets]
    simp
    omega
  | true =>
    rw [(h.pad hp).1]
    exact ⟨Nat.le_refl 32, (by omega : 32 < 64), rfl⟩

/-- movie.py:104-111. -/
theorem tickOp_ok {M : Movie} {A : List Int} {F : List Frame} {k : Nat}
    {c : Coder} {e : Enc} (h : AfterFetch M A F k (bankAt M.mode (k + 1)) c e) {au : Int}
    (hau : A[k]? = some au) (h1 : -15 ≤ au) (h2 : au ≤ 16) :
    ∃ op c1 e1 s, c.tickOp M au = .ok (op, c1) ∧ e.run M.table [.pull] = .ok (e1, [s]) ∧
      MInv M A F (k + 1) c1 e1 ∧ TickRel M A F k op s := by
  obtain ⟨T, g, t1, t2, t3, t4, t5, t6⟩ := h.cur
  have hga : g.isAux = bankAt M.mode (k + 1) := by rcases t6 with t6 | t6 <;> exact t6
  obtain ⟨e', s, g', a1, a2, a3, a4, a5, a6, a7, a8, a9, a10, a11, a12, a13, a14, a15, -, -⟩ :=
    pull_ok h.einv t4
  have hcall : e.call M.table .pull = (match e.v.next M.table e.rng g with
      | .error x => .error x
      | .ok (op, v, rng, g') => .ok (⟨v, some g', rng, if g.isNew then e.v else e.startV⟩,
        [⟨g.target, g.isAux, g.isNew, if g.isNew then e.v else e.startV, e.v, op, v,
          g'.isPadding⟩])) := by
    unfold Enc.call
    simp only [t4, bind, Except.bind, pure, Except.pure]
    cases e.v.next M.table e.rng g with
    | error x => rfl
    | ok x => rfl
  cases hn : e.v.next M.table e.rng g with
  | error x => rw [hcall, hn] at a1; cases a1
  | ok r =>
    obtain ⟨op, v, rng, g2⟩ := r
    rw [hcall, hn] at a1
    simp only [Except.ok.injEq, Prod.mk.injEq, List.cons.injEq, and_true] at a1
    obtain ⟨he', hs⟩ := a1
    have hsop : s.op = op := by rw [← hs]
    have hv : e'.v = v := by rw [← he']
    have hrng : e'.rng = rng := by rw [← he']
    have hgen : e'.gen = some g2 := by rw [← he']
    obtain ⟨p1, p2, p3⟩ := a3.shape
    rw [hsop] at p1 p2 p3
    obtain ⟨ti, pi, q1, q2, q3⟩ := tickOpcodes_ok (page := op.page) h1 h2 p1 p2
    refine ⟨.tick ti pi op.content op.offsets, { c with v, rng, gen := some g2 }, e', s, ?_, ?_, ?_, ?_⟩
    · unfold Coder.tickOp
      rw [h.gen, t4]
      simp only [h.v, h.rng, hn, bind, Except.bind, q1, Opcode.newTick, p3, pure, Except.pure]
      rfl
    · have hc : e.call M.table .pull = .ok (e', [s]) := by rw [hcall, hn, ← he', ← hs]
      unfold Enc.run
      simp only [hc, bind, Except.bind, Enc.run, pure, Except.pure, List.append_nil]
    · refine ⟨by simpa using h.phase, h.audio, h.ticks, h.number, h.frames, h.enough, hv.symm, ?_, hrng.symm,
        a2, fun _ => h.bank, fun _ => ?_⟩
      · rw [hgen]
      · refine ⟨T, g', t1, t2, t3, a4, a5.trans t5, ?_⟩
        rw [a6, hga]
    · refine ⟨h.enough, t3, ?_, ?_, a3, ?_⟩
      · rw [a8, t5]; exact t2
      · rw [a9, hga]
      · refine ⟨ti, pi, au, hau, ?_, q2, ?_, ?_⟩
        · rw [hsop]
        · rw [hsop]; exact q3
        · rw [hsop]; exact p3

/-- One `next()` of the encoder, after `k` samples. -/
theorem coder_step {M : Movie} {A : List Int} {F : List Frame} (hin : MovieInput M A F) {k : Nat}
    {c : Coder} {e : Enc} (h : MInv M A F k c e) :
    (A.length ≤ k ∧ Coder.next M (bankAt M.mode (k + 1)) c = .ok none) ∨
    (k < A.length ∧ M.thr (fetched M.thr k) ≤ k + 1 ∧ fetched M.thr k = F.length ∧
      Coder.next M (bankAt M.mode (k + 1)) c = .ok none) ∨
    (k < A.length ∧ ∃ op c1 calls e1 s, Coder.next M (bankAt M.mode (k + 1)) c = .ok (some (op, c1)) ∧
      e.run M.table calls = .ok (e1, [s]) ∧ MInv M A F (k + 1) c1 e1 ∧ TickRel M A F k op s ∧
      (∀ x ∈ calls, x.Legal M.mode) ∧ (k = 0 → ∃ T a l, calls = .start T a :: l) ∧
      calls = tickCalls M F (fun i => bankAt M.mode (i + 1)) k) := by
  have hbank0 : ∀ b, c.phase = .header → bankAt M.mode (k + 1) = b → k = 0 ∧ bankAt M.mode 1 = b := by
    intro b hp hb
    have := h.phase
    rw [hp] at this
    split at this
    · rename_i hk; subst hk; exact ⟨rfl, hb⟩
    · cases this
  -- the coder with the header phase left
  have hnext : Coder.next M (bankAt M.mode (k + 1)) c =
      (match A.drop k with
       | [] => .ok none
       | au :: rest => Coder.iter M (bankAt M.mode (k + 1))
          { c with phase := .loop, lastBank := (if k = 0 then bankAt M.mode 1 else bankAt M.mode k),
                   audio := rest } au) := by
    unfold Coder.next
    have hph := h.phase
    by_cases hk : k = 0
    · subst hk
      rw [if_pos rfl] at hph
      rw [hph]
      simp only [if_true, h.audio]
      cases A.drop 0 <;> rfl
    · rw [if_neg hk] at hph
      rw [hph]
      simp only [h.audio, if_neg hk, reduceCtorEq, if_false]
      cases A.drop k with
      | nil => rfl
      | cons au rest =>
        simp only
        congr 1
        rw [← h.bank hk, ← hph]
  by_cases hlen : A.length ≤ k
  · left
    refine ⟨hlen, ?_⟩
    rw [hnext, List.drop_of_length_le hlen]
  · right
    have hlt : k < A.length := by omega
    have hau : A[k]? = some A[k] := List.getElem?_eq_getElem hlt
    have hrange := hin.audio A[k] (List.getElem_mem hlt)
    rw [List.drop_eq_getElem_cons hlt] at hnext
    simp only at hnext
    rw [hnext]
    rcases fetch_ok hin rfl h with ⟨x1, x2, x3⟩ | ⟨c1, calls1, e1, x1, x2, x3, x4, x5, x6⟩
    · left
      refine ⟨hlt, x1, x2, ?_⟩
      unfold Coder.iter
      simp only [h.ticks, x3, bind, Except.bind, pure, Except.pure]
    · right
      refine ⟨hlt, ?_⟩
      obtain ⟨c2, calls2, e2, y1, y2, y3, y4, y5⟩ := flip_ok hin x2
      obtain ⟨op, c3, e3, s, z1, z2, z3, z4⟩ := tickOp_ok y2 hau hrange.1 hrange.2
      refine ⟨op, c3, calls1 ++ (calls2 ++ [.pull]), e3, s, ?_, ?_, z3, z4, ?_, ?_, ?_⟩
      · unfold Coder.iter
        simp only [h.ticks, x1, bind, Except.bind, pure, Except.pure, y1, z1]
      · exact run_append _ _ _ _ _ _ _ x3 (run_append _ _ _ _ _ _ _ y3 z2)
      · intro x hx
        simp only [List.mem_append, List.mem_cons, List.not_mem_nil, or_false] at hx
        rcases hx with hx | hx | rfl
        · exact x4 x hx
        · exact y4 x hx
        · trivial
      · intro hk
        obtain ⟨T, a, l, hl⟩ := x5 hk
        exact ⟨T, a, l ++ (calls2 ++ [.pull]), by rw [hl]; rfl⟩
      · unfold tickCalls
        rw [← x6, y5, List.append_assoc]
        congr 2
        by_cases hk : k = 0
        · subst hk
          rw [if_neg (by simp), if_neg (by simp)]
        · obtain ⟨j, rfl⟩ : ∃ j, k = j + 1 := ⟨k - 1, by omega⟩
          simp only [Nat.add_sub_cancel, if_neg hk]
          by_cases hb : bankAt M.mode (j + 1 + 1) = bankAt M.mode (j + 1)
          · rw [if_neg (not_not.mpr hb), if_neg (by rintro ⟨-, hh⟩; exact hh hb)]
          · rw [if_pos hb, if_pos ⟨hk, hb⟩]

/-- Why the stream ended after `k` samples. -/
inductive Ended (M : Movie) (A : List Int) (F : List Frame) (k : Nat) : Prop
  | audio : k = A.length → Ended M A F k
  | video : k < A.length → M.thr (fetched M.thr k) ≤ k + 1 → fetched M.thr k = F.length → Ended M A F k
  | limit : k < A.length → M.atLimit (posOf (k + 1)) = true → Ended M A F k

theorem movie_loop {M : Movie} {A : List Int} {F : List Frame} (hin : MovieInput M A F) (r : Nat) :
    ∀ {k : Nat} {c : Coder} {e : Enc}, A.length - k = r → k ≤ A.length → MInv M A F k c e →
    ∃ l c2 calls e2 steps, Pulls M (Coder.next M) (k + 1) c l c2 ∧
      Stops M (Coder.next M) (k + 1 + l.length) c2 ∧ Ended M A F (k + l.length) ∧
      k + l.length ≤ A.length ∧
      e.run M.table calls = .ok (e2, steps) ∧ steps.length = l.length ∧
      (∀ i op s, l[i]? = some op → steps[i]? = some s → TickRel M A F (k + i) op s) ∧
      (∀ x ∈ calls, x.Legal M.mode) ∧ (k = 0 → ∀ x, calls.head? = some x → x.isStart = true) ∧
      calls = (List.range' k l.length).flatMap (tickCalls M F fun i => bankAt M.mode (i + 1)) := by
  induction r with
  | zero =>
    intro k c e hr hk h
    have hkk : k = A.length := by omega
    rcases coder_step hin h with ⟨h1, h2⟩ | ⟨h1, -⟩ | ⟨h1, -⟩
    · exact ⟨[], c, [], e, [], .nil _ _, .inl h2, .audio hkk, by simpa using hk, rfl, rfl, by simp, by simp,
        by simp, rfl⟩
    · omega
    · omega
  | succ r ih =>
    intro k c e hr hk h
    rcases coder_step hin h with ⟨h1, h2⟩ | ⟨h1, h2, h3, h4⟩ | ⟨h1, op, c1, calls1, e1, s, h2, h3, h4, h5, h6, h7, h8⟩
    · omega
    · exact ⟨[], c, [], e, [], .nil _ _, .inl h4, .video h1 h2 h3, by simpa using hk, rfl, rfl, by simp,
        by simp, by simp, rfl⟩
    · cases hl : M.atLimit (posOf (k + 1)) with
      | true =>
        exact ⟨[], c, [], e, [], .nil _ _, .inr ⟨hl, _, h2⟩, .limit h1 hl, by simpa using hk, rfl, rfl,
          by simp, by simp, by simp, rfl⟩
      | false =>
        obtain ⟨l, c2, calls2, e2, steps, a1, a2, a3, a4, a5, a6, a7, a8, -, a10⟩ :=
          ih (k := k + 1) (by omega) (by omega) h4
        have hlen : (op :: l).length = l.length + 1 := rfl
        refine ⟨op :: l, c2, calls1 ++ calls2, e2, [s] ++ steps, .cons h2 hl a1, ?_, ?_, ?_,
          run_append _ _ _ _ _ _ _ h3 a5, by simp [a6], ?_, ?_, ?_, ?_⟩
        · rw [hlen, show k + 1 + (l.length + 1) = k + 1 + 1 + l.length by omega]; exact a2
        · rw [hlen, show k + (l.length + 1) = k + 1 + l.length by omega]; exact a3
        · rw [hlen]; omega
        · intro i op' s' hi hs
          cases i with
          | zero =>
            simp only [List.getElem?_cons_zero, Option.some.injEq, List.singleton_append] at hi hs
            subst hi hs
            exact h5
          | succ i =>
            simp only [List.getElem?_cons_succ, List.singleton_append] at hi hs
            have := a7 i op' s' hi hs
            rwa [show k + 1 + i = k + (i + 1) by omega] at this
        · intro x hx
          rcases List.mem_append.mp hx with hx | hx
          · exact h6 x hx
          · exact a8 x hx
        · intro hk0 x hx
          obtain ⟨T, a, l', hcl⟩ := h7 hk0
          rw [hcl] at hx
          simp only [List.cons_append, List.head?_cons, Option.some.injEq] at hx
          subst hx; rfl
        · rw [hlen, List.range'_succ, List.flatMap_cons, ← h8, ← a10]

theorem tickRel_frameOp {M : Movie} {A : List Int} {F : List Frame} {k : Nat} {op : Opcode} {s : Step}
    (h : TickRel M A F k op s) : FrameOp op := by
  obtain ⟨t, p, au, -, rfl, -, -, h4⟩ := h.tick
  exact h4

/-- The whole stream of a movie. -/
theorem stream_exact {M : Movie} {A : List Int} {F : List Frame} (hin : MovieInput M A F)
    (tape : Nat → Nat) :
    ∃ l calls e steps, M.stream tape A F = .ok (emitted M 0 (.header M.mode :: l)) ∧
      (∀ op ∈ l, FrameOp op) ∧ Ended M A F l.length ∧ l.length ≤ A.length ∧
      Legal M.mode calls ∧ runNew M.mode M.table tape calls = .ok (e, steps) ∧
      steps.length = l.length ∧
      (∀ i op s, l[i]? = some op → steps[i]? = some s → TickRel M A F i op s) ∧
      calls = movieCalls M F (fun i => bankAt M.mode (i + 1)) l.length := by
  obtain ⟨e0, i1, i2, i3, -⟩ := init_ok M.table M.mode tape
  have hv : ∃ v, Video.new M.mode = .ok v ∧ e0 = ⟨v, none, ⟨tape, 0⟩, v⟩ := by
    unfold Enc.init at i1
    cases hv : Video.new M.mode with
    | error x => rw [hv] at i1; cases i1
    | ok v => rw [hv] at i1; cases i1; exact ⟨v, rfl, rfl⟩
  obtain ⟨v, hv, he0⟩ := hv
  let c0 : Coder := { phase := .new, audio := A, frames := F, ticks := 0, frameNumber := 0, v,
                      rng := ⟨tape, 0⟩, gen := none, target := none, lastBank := false }
  let c1 : Coder := { c0 with phase := .header }
  have hinv : MInv M A F 0 c1 e0 := by
    refine ⟨rfl, rfl, rfl, rfl, rfl, Nat.zero_le _, ?_, ?_, ?_, i2, fun h => absurd rfl h, fun h => absurd rfl h⟩ <;>
      rw [he0]
  obtain ⟨l, c2, calls, e2, steps, a1, a2, a3, a4, a5, a6, a7, a8, a9, a10⟩ :=
    movie_loop hin (A.length - 0) rfl (Nat.zero_le _) hinv
  have hfo : ∀ op ∈ l, FrameOp op := by
    intro op hop
    obtain ⟨i, hi, rfl⟩ := List.getElem_of_mem hop
    have hs : i < steps.length := by omega
    exact tickRel_frameOp (a7 i _ _ (List.getElem?_eq_getElem hi) (List.getElem?_eq_getElem hs))
  simp only [Nat.zero_add] at a3 a4 a7
  refine ⟨l, calls, e2, steps, ?_, hfo, a3, a4, ⟨a8, a9 rfl⟩, ?_, a6, a7, by rw [a10, movieCalls, List.range_eq_range']⟩
  · have hhead : Coder.next M (bankAt M.mode 0) c0 = .ok (some (.header M.mode, c1)) := rfl
    have hnl : M.atLimit (posOf 0) = false := by
      unfold Movie.atLimit
      have : posOf 0 = 0 := rfl
      rw [this]
      simp only [decide_eq_false_iff_not]
      rintro ⟨h1, h2⟩
      exact h1 (Rat.le_antisymm (by simpa using h2) hin.limit)
    have hp : Pulls M (Coder.next M) 0 c0 (.header M.mode :: l) c2 := .cons hhead hnl a1
    have hst : Stops M (Coder.next M) (0 + (Opcode.header M.mode :: l).length) c2 := by
      have : 0 + (Opcode.header M.mode :: l).length = 0 + 1 + l.length := by simp; omega
      rw [this]; exact a2
    have := loop_intro M (Coder.next M) hp (n := A.length + 2) (by simp; omega) hst (by
      intro op hop
      rcases List.mem_cons.mp hop with rfl | hop
      · trivial
      · exact hfo op hop)
    unfold Movie.stream Movie.start
    rw [hv]
    simp only [bind, Except.bind, pure, Except.pure]
    have hb : bankAt M.mode 0 = false := by simp [bankAt]
    rw [hb] at this
    exact this
  · unfold runNew
    rw [i1]
    exact a5

theorem stream_ok {M : Movie} {A : List Int} {F : List Frame} (hin : MovieInput M A F)
    (tape : Nat → Nat) :
    ∃ l calls e steps, M.stream tape A F = .ok (emitted M 0 (.header M.mode :: l)) ∧
      (∀ op ∈ l, FrameOp op) ∧ Ended M A F l.length ∧ l.length ≤ A.length ∧
      Legal M.mode calls ∧ runNew M.mode M.table tape calls = .ok (e, steps) ∧
      steps.length = l.length ∧
      (∀ i op s, l[i]? = some op → steps[i]? = some s → TickRel M A F i op s) := by
  obtain ⟨l, calls, e, steps, h1, h2, h3, h4, h5, h6, h7, h8, -⟩ := stream_exact hin tape
  exact ⟨l, calls, e, steps, h1, h2, h3, h4, h5, h6, h7, h8⟩

end IIVision
