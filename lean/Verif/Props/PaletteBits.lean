import Verif.Proofs.PaletteBits
import Verif.Props.Plain
import Verif.Props.Picture

/-! C76: palette bits in double hi-res pictures. -/

namespace IIVision
open Spec

theorem alike_length {addr : AddrTable} {op op' : Opcode} (h : AlikeOpcode op op') : (op.emit addr).length = (op'.emit addr).length := by
  rcases h with rfl | ⟨t, c, rfl, rfl⟩ <;> rfl

theorem plainly_clean {M : Movie} (hm : M.mode = .DHGR) (o : Outcome) : ∀ (n : Nat) (c : Coder) (pos : Nat) (aux : Bool), c.v.mode = .DHGR →
    ∃ l l' rest, List.Forall₂ AlikeOpcode l l' ∧ (plainly M o n (cleanCoder c) pos aux).1 = bytesOf M.addr l' ++ rest ∧
      (plainly M o n c pos aux = (bytesOf M.addr l ++ rest, (plainly M o n (cleanCoder c) pos aux).2) ∨
       plainly M o n c pos aux = (bytesOf M.addr l, .raised .assertionError)) := by
  intro n
  induction n with
  | zero => intro c pos aux hv; exact ⟨[], [], [], .nil, rfl, .inl rfl⟩
  | succ n ih =>
    intro c pos aux hv
    unfold plainly
    have hif : (if (cleanCoder c).needsFrame M = true ∧ (cleanCoder c).frames = [] then o else .ends) =
        (if c.needsFrame M = true ∧ c.frames = [] then o else .ends) := by
      rw [show (cleanCoder c).needsFrame M = c.needsFrame M from rfl, show (cleanCoder c).frames = c.frames.map cleanFrame from rfl]
      simp only [List.map_eq_nil_iff]
    rw [hif]
    cases (if c.needsFrame M = true ∧ c.frames = [] then o else .ends) with
    | raises e => exact ⟨[], [], [], .nil, rfl, .inl rfl⟩
    | hangs e => exact ⟨[], [], [], .nil, rfl, .inl rfl⟩
    | ends =>
      simp only
      have h1 := coder_clean hm aux c hv
      revert h1
      cases Coder.next M aux (cleanCoder c) with
      | error e =>
        rintro (h | h)
        · rw [h]; exact ⟨[], [], [], .nil, rfl, .inl rfl⟩
        · rw [h]; exact ⟨[], [], [], .nil, rfl, .inr rfl⟩
      | ok x =>
        cases x with
        | none => intro h; simp only at h; rw [h]; exact ⟨[], [], _, .nil, rfl, .inl rfl⟩
        | some x =>
          obtain ⟨op', c1'⟩ := x
          rintro (⟨op, c1, h, rfl, hv1, ha⟩ | h)
          · rw [h]
            simp only
            by_cases hL : M.atLimit pos = true
            · rw [if_pos hL, if_pos hL]; exact ⟨[], [], _, .nil, rfl, .inl rfl⟩
            · rw [if_neg hL, if_neg hL, alike_length ha]
              cases hack : M.ackIfDue (pos + (op'.emit M.addr).length) aux with
              | error e => exact ⟨[op], [op'], [], .cons ha .nil, by simp [bytesOf], .inl (by simp [bytesOf])⟩
              | ok y =>
                obtain ⟨as, b, pos1, aux1⟩ := y
                simp only
                have hb : b = bytesOf M.addr as := by
                  unfold Movie.ackIfDue at hack
                  simp only [pyAssert, bind, Except.bind] at hack
                  split at hack
                  · split at hack
                    · cases hack
                    · cases hack; simp [bytesOf]
                  · cases hack; rfl
                obtain ⟨l, l', rest, q1, q2, q3⟩ := ih c1 pos1 aux1 hv1
                have hr : List.Forall₂ AlikeOpcode as as := List.forall₂_same.2 fun _ _ => .inl rfl
                refine ⟨op :: as ++ l, op' :: as ++ l', rest, .cons ha (List.rel_append hr q1), ?_, ?_⟩
                · rw [q2, hb]; simp [bytesOf]
                · rcases q3 with q3 | q3
                  · left; rw [q3, hb]; simp [bytesOf]
                  · right; rw [q3, hb]; simp [bytesOf]
          · rw [h]; exact ⟨[], [], _, .nil, rfl, .inr rfl⟩

/-- The encoder with its generator's palette bits removed. -/
def cleanEnc (e : Enc) : Enc := { e with gen := e.gen.map cleanGen }

theorem cleanGen_padding (g : Gen) : (cleanGen g).isPadding = g.isPadding := by cases g <;> rfl
theorem cleanGen_new (g : Gen) : (cleanGen g).isNew = g.isNew := by cases g <;> rfl
theorem cleanGen_target (g : Gen) : (cleanGen g).target = cleanBitmap g.target := by cases g <;> rfl
theorem cleanGen_aux (g : Gen) : (cleanGen g).isAux = g.isAux := by cases g <;> rfl

/-- What goes wrong: the next operation would store, first of all, a byte that has a palette bit. -/
def Cause (e : Enc) (s' : Step) : Prop :=
  s'.padding = false ∧ ∃ g, e.gen = some g ∧ StoresPaletteBit g.target g.isAux s'.op

theorem call_clean {t : EditTable} {e e1' : Enc} {c : Call} {ss' : List Step} (hm : e.v.mode = .DHGR)
    (h : (cleanEnc e).call t (cleanCall c) = .ok (e1', ss')) :
    (∃ e1 ss, e.call t c = .ok (e1, ss) ∧ e1' = cleanEnc e1 ∧ e1.v.mode = .DHGR ∧ List.Forall₂ StepAlike ss ss') ∨
    (c = .pull ∧ e.call t c = .error .assertionError ∧ ∃ s', ss' = [s'] ∧ Cause e s') := by
  cases c with
  | start T a =>
    cases h
    exact .inl ⟨_, _, rfl, rfl, hm, .nil⟩
  | reset =>
    cases h
    exact .inl ⟨_, _, rfl, rfl, hm, .nil⟩
  | pull =>
    obtain ⟨v, gen, rng, sv⟩ := e
    simp only [cleanCall, cleanEnc, Enc.call] at h hm ⊢
    cases gen with
    | none => cases h
    | some g =>
      simp only [Option.map_some] at h ⊢
      cases hn : v.next t rng (cleanGen g) with
      | error e => rw [hn] at h; cases h
      | ok x =>
        obtain ⟨op', v1, r1, g1'⟩ := x
        rw [hn, Except.bind_ok] at h
        have hh := Except.ok.inj h
        simp only [Prod.mk.injEq] at hh
        obtain ⟨rfl, rfl⟩ := hh
        obtain ⟨hm1, ⟨op, g1, hx, rfl, -, -, ha, hw⟩ | ⟨hx, hp, hs⟩⟩ := next_clean hm hn
        · left
          rw [hx]
          refine ⟨_, _, rfl, ?_, hm1, .cons ?_ .nil⟩
          · simp only [cleanGen_new, Option.map_some]
          · refine ⟨cleanGen_target g, cleanGen_aux g, cleanGen_new g, ?_, rfl, rfl, cleanGen_padding g1, ha, ?_⟩
            · simp only [cleanGen_new]
            · intro hp
              obtain ⟨w1, w2⟩ := hw hp
              exact ⟨w1, by rw [show op = op' from w1]; exact w2⟩
        · right
          rw [hx]
          exact ⟨trivial, rfl, _, rfl, hp, g, rfl, hs⟩

theorem run_clean {t : EditTable} : ∀ (calls : List Call) (e e1' : Enc) (ss' : List Step), e.v.mode = .DHGR →
    (cleanEnc e).run t (calls.map cleanCall) = .ok (e1', ss') →
    (∃ e1 ss, e.run t calls = .ok (e1, ss) ∧ e1' = cleanEnc e1 ∧ List.Forall₂ StepAlike ss ss') ∨
    (e.run t calls = .error .assertionError ∧ ∃ pre post e1 ss s' post', calls = pre ++ .pull :: post ∧ e.run t pre = .ok (e1, ss) ∧
      ∃ ss1', ss' = ss1' ++ s' :: post' ∧ List.Forall₂ StepAlike ss ss1' ∧ Cause e1 s') := by
  intro calls
  induction calls with
  | nil => intro e e1' ss' hm h; cases h; exact .inl ⟨_, _, rfl, rfl, .nil⟩
  | cons c calls ih =>
    intro e e1' ss' hm h
    rw [List.map_cons] at h
    unfold Enc.run at h
    cases hc : (cleanEnc e).call t (cleanCall c) with
    | error x => rw [hc] at h; cases h
    | ok x =>
      obtain ⟨e2', s2'⟩ := x
      rw [hc, Except.bind_ok] at h
      simp only at h
      cases hr : e2'.run t (calls.map cleanCall) with
      | error x => rw [hr] at h; cases h
      | ok y =>
        obtain ⟨e3', s3'⟩ := y
        rw [hr] at h
        cases h
        rcases call_clean hm hc with ⟨e2, s2, q1, rfl, q2, q3⟩ | ⟨rfl, q1, s', rfl, q2⟩
        · rcases ih _ _ _ q2 hr with ⟨e3, s3, p1, rfl, p2⟩ | ⟨p1, pre, post, e3, s3, s', post', rfl, p3, ss1', rfl, p4, p5⟩
          · left
            refine ⟨e3, s2 ++ s3, ?_, rfl, List.rel_append q3 p2⟩
            unfold Enc.run
            rw [q1, Except.bind_ok]; simp only; rw [p1]; rfl
          · right
            refine ⟨?_, c :: pre, post, e3, s2 ++ s3, s', post', rfl, ?_, s2' ++ ss1', by simp, List.rel_append q3 p4, p5⟩
            · unfold Enc.run
              rw [q1, Except.bind_ok]; simp only; rw [p1]; rfl
            · unfold Enc.run
              rw [q1, Except.bind_ok]; simp only; rw [p3]; rfl
        · right
          refine ⟨?_, [], calls, e, [], s', s3', rfl, rfl, [], rfl, .nil, q2⟩
          unfold Enc.run
          rw [q1]; rfl

theorem clean_valid {T : Bitmap} (h : T.Valid .DHGR) : (cleanBitmap T).Valid .DHGR := by
  obtain ⟨m, x, pk⟩ := T
  have h1 := h.auxSome
  cases x with
  | none => cases h1
  | some a =>
    refine ⟨h.mainPage, ?_, rfl, ?_⟩
    · intro b hb; cases hb; exact h.auxPage a rfl
    · have h2 : DHGRBitmap.new m a = .ok ⟨m, some a, pk⟩ := h.fresh
      have h3 := new_clean m a
      rw [h2] at h3
      exact h3

/-- **C76** (encoder): any history of valid frames, with palette bits or without.  The history for the same frames
without palette bits always works; the one with them does the same, or ends in an AssertionError at the first
operation that would store, first of all, a byte that has a palette bit. -/
theorem C76_encoder (t : EditTable) (tape : Nat → Nat) (calls : List Call)
    (hv : ∀ T a, Call.start T a ∈ calls → T.Valid .DHGR) (hf : ∀ c, calls.head? = some c → c.isStart = true) :
    ∃ e' ss', runNew .DHGR t tape (calls.map cleanCall) = .ok (e', ss') ∧
      ((∃ e ss, runNew .DHGR t tape calls = .ok (e, ss) ∧ e.v = e'.v ∧ List.Forall₂ StepAlike ss ss') ∨
       (runNew .DHGR t tape calls = .error .assertionError ∧
        ∃ pre post e ss ss1' s' post', calls = pre ++ .pull :: post ∧ runNew .DHGR t tape pre = .ok (e, ss) ∧
          ss' = ss1' ++ s' :: post' ∧ List.Forall₂ StepAlike ss ss1' ∧
          s'.padding = false ∧ ∃ g, e.gen = some g ∧ StoresPaletteBit g.target g.isAux s'.op)) := by
  have hlow : ∀ b : U8, (b &&& 0x7f#8).toNat < 0x80 := by decide +kernel
  have hL : Legal .DHGR (calls.map cleanCall) := by
    refine ⟨?_, ?_⟩
    · intro c hc
      obtain ⟨d, hd, rfl⟩ := List.mem_map.1 hc
      cases d with
      | start T a =>
        refine ⟨clean_valid (hv T a hd), fun _ => rfl, fun _ p o => ?_⟩
        cases a with
        | false => exact hlow _
        | true =>
          show (((T.aux.map cleanMap).map (·.pageOffset)).getD (fun _ _ => 0#8) p o).toNat < 0x80
          cases T.aux with
          | none => show (0#8).toNat < 0x80; decide
          | some m => exact hlow _
      | pull => trivial
      | reset => trivial
    · intro c hc
      cases calls with
      | nil => cases hc
      | cons d l =>
        cases hc
        have := hf d rfl
        cases d with
        | start T a => rfl
        | pull => cases this
        | reset => cases this
  obtain ⟨e0, e', ss', hi, hr, -⟩ := runNew_ok (t := t) hL tape
  refine ⟨e', ss', hr, ?_⟩
  obtain ⟨v, hv1, hv2⟩ := videoNew_ok .DHGR
  have hm : v.mode = .DHGR := hv2.1
  have hi' : Enc.init .DHGR tape = .ok ⟨v, none, ⟨tape, 0⟩, v⟩ := by unfold Enc.init; rw [hv1]; rfl
  unfold runNew at hr ⊢
  simp only [hi', Except.bind_ok] at hr ⊢
  rcases run_clean calls ⟨v, none, ⟨tape, 0⟩, v⟩ e' ss' hm hr with ⟨e, ss, q1, rfl, q2⟩ | ⟨q1, pre, post, e1, ss, s', post', q2, q3, ss1', q4, q5, q6, q7⟩
  · exact .inl ⟨e, ss, q1, rfl, q2⟩
  · exact .inr ⟨q1, pre, post, e1, ss, ss1', s', post', q2, q3, q4, q5, q6, q7⟩

/-- **C76** (program): DHGR, any command line and input.  Let `T'` be what the simple loop of C75 does with the
converted pictures when their palette bits are removed.  Then the program, in every interleaving of its threads, does the
same but for the palette bits of padding operations, or writes a beginning of this and raises AssertionError. -/
theorem C76_palette_bits (a : Args) (w : World) (fs : FS) (hd : a.mode = .DHGR) {A : List Int} (hA : a.audio w = .ok A) :
    ∃ c' T', (a.movie w).start w.tape A ((Args.video a w fs).1.map cleanFrame) = .ok c' ∧
      T' = plainly (a.movie w) (Args.video a w fs).2 (A.length + 2) c' 0 false ∧
      ∃ l l' rest, T'.1 = bytesOf w.addr l' ++ rest ∧ List.Forall₂ AlikeOpcode l l' ∧
        ((∀ n s, Execution a w fs n s → s.out <+: bytesOf w.addr l ++ rest ∧
            (Halted a w s → s.out = bytesOf w.addr l ++ rest ∧ s.main = T'.2.status)) ∨
         (∀ n s, Execution a w fs n s → s.out <+: bytesOf w.addr l ∧
            (Halted a w s → s.out = bytesOf w.addr l ∧ s.main = .raised .assertionError))) := by
  obtain ⟨v, hv1, hv2⟩ := videoNew_ok (a.movie w).mode
  have hmm : (a.movie w).mode = .DHGR := hd
  have hm : v.mode = .DHGR := hv2.1.trans hmm
  have hstart : ∀ F, (a.movie w).start w.tape A F = .ok
      { phase := .new, audio := A, frames := F, ticks := 0, frameNumber := 0, v, rng := ⟨w.tape, 0⟩, gen := none, target := none, lastBank := false } := by
    intro F
    unfold Movie.start
    rw [hv1]; rfl
  have h75 := C75_simple_loop a w fs
  unfold Args.plain at h75
  rw [hA, Except.bind_ok, hstart] at h75
  simp only [Except.bind_ok, pure, Except.pure] at h75
  refine ⟨_, _, hstart _, rfl, ?_⟩
  obtain ⟨l, l', rest, q1, q2, q3⟩ := plainly_clean hmm (Args.video a w fs).2 (A.length + 2)
    { phase := .new, audio := A, frames := (Args.video a w fs).1, ticks := 0, frameNumber := 0, v, rng := ⟨w.tape, 0⟩, gen := none, target := none, lastBank := false }
    0 false hm
  refine ⟨l, l', rest, q2, q1, ?_⟩
  rcases q3 with q3 | q3
  · left
    intro n s hx
    obtain ⟨g1, -, -, -, g5⟩ := h75.2 n s hx
    rw [q3] at g1 g5
    exact ⟨g1, fun hh => g5 hh⟩
  · right
    intro n s hx
    obtain ⟨g1, -, -, -, g5⟩ := h75.2 n s hx
    rw [q3] at g1 g5
    exact ⟨g1, fun hh => g5 hh⟩

theorem pull_target {mode : VideoMode} {t : EditTable} {tape : Nat → Nat} {T : Bitmap} {a : Bool} {e : Enc} {s : Step}
    (h : runNew mode t tape [.start T a, .pull] = .ok (e, [s])) : s.target = T ∧ s.isAux = a := by
  unfold runNew at h
  refine bind_ok_elim h fun e0 h => ?_
  simp only [Enc.run, Enc.call, Except.bind_ok, List.nil_append, pure, Except.pure, List.append_nil] at h
  cases hn : e0.v.next t e0.rng (.notStarted T a) with
  | error x => rw [hn] at h; cases h
  | ok x =>
    rw [hn] at h
    obtain ⟨op, v, r, g⟩ := x
    have := (Prod.mk.inj (Except.ok.inj h)).2
    rw [← (List.cons.inj this).1]
    exact ⟨rfl, rfl⟩

/-- C76: a picture full of palette bits on a blank screen raises AssertionError at once (with any table that gives different
windows a distance). -/
example (tape : Nat → Nat) : runNew .DHGR (fun _ _ => 1) tape [.start (greyFrame 0x81#8 0x81#8) false, .pull] = .error .assertionError := by
  have hv : (greyFrame 0x81#8 0x81#8).Valid .DHGR :=
    (dhgr_new_valid (m := ⟨1, fun _ _ => 0x81#8⟩) (a := ⟨1, fun _ _ => 0x81#8⟩) rfl rfl rfl).1
  obtain ⟨e', ss', h1, h2⟩ := C76_encoder (fun _ _ => 1) tape [.start (greyFrame 0x81#8 0x81#8) false, .pull]
    (by intro T a h; simp only [List.mem_cons, List.not_mem_nil, or_false] at h; rcases h with h | h <;> cases h; exact hv)
    (by intro c hc; cases hc; rfl)
  rcases h2 with ⟨e, ss, q1, -, q2⟩ | ⟨h, -⟩
  · exfalso
    have hl : LegalFrame .DHGR (cleanBitmap (greyFrame 0x81#8 0x81#8)) false :=
      ⟨clean_valid hv, fun _ => rfl, fun _ p o => by show (0x81#8 &&& 0x7f#8 : U8).toNat < 0x80; decide⟩
    obtain ⟨e0, e1, s', r1, hk, t1, t2, t3, t4, t5, t6, hblank⟩ := one_pull (t := fun _ _ => 1) hl tape
    have r2 : runNew .DHGR (fun _ _ => 1) tape ([Call.start (greyFrame 0x81#8 0x81#8) false, .pull].map cleanCall) = .ok (e1, [s']) := r1
    rw [h1] at r2
    cases r2
    obtain ⟨s, hs⟩ : ∃ s, ss = [s] := by
      cases q2 with
      | cons a b => cases b; exact ⟨_, rfl⟩
    subst hs
    cases q2 with
    | cons a _ =>
      have hpad : s'.padding = false := by
        cases hp : s'.padding with
        | false => rfl
        | true =>
          have h0 := (C19_greedy .DHGR _ tape _ (legal_one_pull hl) e' [s'] r1 s' (by simp)).1.1 hp 0 0
          unfold Step.pending Step.startPriority at h0
          rw [t3, t4, t1, t2, hblank] at h0
          have hn : 0 ≤ e0.priority false 0 0 := by
            have := hk.start.prio 0 0
            rw [t4, t2] at this
            exact this.1
          have hw : weight e0.mode (fun _ _ => 1) blank (banks (cleanBitmap (greyFrame 0x81#8 0x81#8))) false 0 0 = 1 := by
            unfold weight windowDist
            rw [if_pos (by decide)]
            rfl
          rw [hw] at h0
          simp only [if_true] at h0
          rw [if_neg (by decide)] at h0
          omega
      obtain ⟨w1, w2⟩ := a.work (a.padding.symm.trans hpad)
      obtain ⟨f, ex, g1, -, -, g2, -⟩ := C16_operation_shape .DHGR _ tape _ (legal_one_pull hl) e' [s'] r1 s' (by simp)
      refine w2 ⟨s'.op.pageIx, f, by rw [w1]; exact g1, by rw [w1, g2]; rfl, ?_⟩
      rw [show s.isAux = false from a.bank.symm.trans t2]
      rw [(pull_target q1).1]
      show 128 ≤ (0x81#8).toNat
      decide
  · exact h

/-- C76: the hypotheses of the second part are met by a picture with palette bits. -/
example : demoArgs.mode = .DHGR ∧ demoArgs.audio (demoWorld [[0x81#8], [1#8]] [.fin 8192, .fin 0, .fin (-8192), .fin 0] none) = .ok [8, 0, -8, 0] :=
  ⟨rfl, by decide +kernel⟩

end IIVision
