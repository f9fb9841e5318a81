import Verif.Proofs.Tick

/-! Pieces of executions of the player. -/

namespace IIVision.Player

/-- Bytes `r`, ..., `r + k - 1` of the file. -/
def Env.bytes (e : Env) (r k : Nat) : List U8 := (List.range k).map fun j => e.byte (r + j)

theorem bytes_zero (e : Env) (r : Nat) : e.bytes r 0 = [] := rfl

theorem bytes_add (e : Env) (r k l : Nat) : e.bytes r (k + l) = e.bytes r k ++ e.bytes (r + k) l := by
  unfold Env.bytes
  rw [List.range_add, List.map_append, List.map_map]
  congr 1
  apply List.map_congr_left
  intro j _
  show e.byte (r + (k + j)) = _
  rw [Nat.add_assoc]

theorem take_bytes (e : Env) {r k : Nat} (h : r + k ≤ e.file.length) : e.file.take r ++ e.bytes r k = e.file.take (r + k) := by
  rw [List.take_add]
  congr 1
  apply List.ext_getElem?
  intro j
  unfold Env.bytes Env.byte
  rw [List.getElem?_map, List.getElem?_take]
  by_cases hj : j < k
  · rw [if_pos hj, List.getElem?_range hj]
    rw [List.getElem?_drop, Option.map_some, List.getD_eq_getElem?_getD, List.getElem?_eq_getElem (by omega)]
    rfl
  · rw [if_neg hj, List.getElem?_eq_none (by simp; omega)]; rfl

theorem step_code {e : Env} {h : Bool} {s : Mach} {i : Instr} (hc : CodeOk h s.main)
    (hs : h = true → s.steered 0x2000 = false) (hf : symFetch h s.pc = some i) :
    s.step e = { s.env e with pc := s.pc + i.len, cycles := s.cycles + i.cycles }.exec e i := by
  unfold Mach.step
  dsimp only
  have : (s.env e).fetch = some i := symFetch_ok (h := h) hc (fun h => hs h) hf
  rw [this]
  rfl

/-! ### The keyboard strobe -/

theorem display_kept {s t : Mach} {addr : Nat} (h : s.display addr = some t) : t.kbd = s.kbd := by
  unfold Mach.display at h
  split at h <;> cases h <;> rfl

theorem read_kept {s t : Mach} {addr : Nat} {v : U8} (h : s.read addr = some (v, t)) (ha : addr ≠ 0xc010) : t.kbd = s.kbd := by
  unfold Mach.read at h
  rw [if_neg ha] at h
  iterate 7
    split at h
    · cases h; rfl
  obtain ⟨u, h1, h2⟩ := Option.map_eq_some_iff.mp h
  cases h2
  exact display_kept h1

theorem store_kept (s : Mach) (q : Nat) (v : U8) : (s.store q v).kbd = s.kbd := by
  rw [store_rest]

theorem ite_kept {c : Prop} [Decidable c] {a t : Mach} {b : Option Mach} {k : U8} (h : (if c then some a else b) = some t)
    (h1 : a.kbd = k) (h2 : b = some t → t.kbd = k) : t.kbd = k := by
  by_cases hc : c
  · rw [if_pos hc] at h; cases h; exact h1
  · rw [if_neg hc] at h; exact h2 h

theorem write_kept {s t : Mach} {addr : Nat} {v : U8} (h : s.write addr v = some t) (ha : addr ≠ 0xc010) : t.kbd = s.kbd := by
  unfold Mach.write at h
  rw [if_neg ha] at h
  refine ite_kept h (store_kept _ _ _) fun h => ?_
  iterate 10 refine ite_kept h rfl fun h => ?_
  exact display_kept h

/-- The instruction does not access the keyboard strobe (nor is it indexed). -/
def calmInstr : Instr → Bool
  | .ldaA q | .ldxA q | .ldyA q | .bitA q | .staZ q | .staA q | .stxA q | .styA q => !Nat.beq q 0xc010
  | .ldaI _ | .nop | .clc | .cmpI _ | .jmp _ | .beq _ | .bne _ | .bcs _ | .bpl _ | .ldxI _ | .ldyI _ | .adcI _ => true
  | _ => false

theorem branch_kept (s : Mach) (c : Bool) (d : Nat) : (s.branch c d).kbd = s.kbd := by
  unfold Mach.branch
  split <;> rfl

theorem exec_kept {e : Env} {s t : Mach} {i : Instr} (h : s.exec e i = some t) (hi : calmInstr i = true) : t.kbd = s.kbd := by
  have hn : ∀ {q : Nat}, (!Nat.beq q 0xc010) = true → q ≠ 0xc010 := by
    intro q hq hc
    subst hc
    exact absurd hq (by decide)
  cases i
  case ldaA q | ldxA q | ldyA q | bitA q =>
    obtain ⟨⟨v, u⟩, h1, h2⟩ := Option.map_eq_some_iff.mp h
    cases h2
    exact (read_kept h1 (hn hi) : u.kbd = s.kbd)
  case staZ q | staA q | stxA q | styA q => exact write_kept h (hn hi)
  case ldaI | nop | clc | cmpI | jmp | ldxI | ldyI | adcI => cases h; rfl
  case beq | bne | bcs | bpl => cases h; exact branch_kept _ _ _
  all_goals cases hi

theorem kept_of_fetch {e : Env} {h : Bool} {s s' : Mach} {i : Instr} (hc : CodeOk h s.main)
    (hs : h = true → s.steered 0x2000 = false) (hf : symFetch h s.pc = some i) (hi : calmInstr i = true)
    (hst : s.step e = some s') : s'.kbd = (s.env e).kbd := by
  rw [step_code hc hs hf] at hst
  have := exec_kept hst hi
  exact this

theorem sym_kept {e : Env} {h : Bool} {s0 : Mach} {r0 n : Nat} {σ σ' : Sym} {s t : Mach} (hr : Rel e h s0 r0 σ s) {i : Instr}
    (hs : symExec h n σ i = some σ') (hx : s.exec e i = some t) : t.kbd = s.kbd := by
  have nr : ∀ {α : Type} {f : V × Sym → α} {q : Nat} {x : α}, (symRead n σ q).map f = some x → q ≠ 0xc010 := by
    rintro α f q x h1 rfl
    cases h1
  have nw : ∀ {q : Nat} {v : V} {τ : Sym}, symWrite n σ q v = some τ → q ≠ 0xc010 := by
    rintro q v τ h1 rfl
    cases h1
  have ni : ∀ {q : Nat} {v : V}, symIndexed h n σ q v = some σ' → (q + (v.val e s0 r0).toNat) % 65536 ≠ 0xc010 := by
    intro q v h1
    unfold symIndexed at h1
    simp only [cond_eq_ite, Nat.blt_eq] at h1
    split at h1
    · split at h1
      · have := nw h1
        show (q + 0) % 65536 ≠ _
        omega
      · cases h1
    · split at h1
      · rename_i hc
        simp only [Bool.and_eq_true, Nat.ble_eq, Nat.blt_eq] at hc
        have := (V.val e s0 r0 v).isLt
        omega
      · cases h1
  cases i with
  | ldaA q | ldxA q | ldyA q =>
    obtain ⟨⟨v, u⟩, h1, h2⟩ := Option.map_eq_some_iff.mp hx
    cases h2
    exact (read_kept h1 (nr hs) : u.kbd = s.kbd)
  | staZ q | staA q | stxA q | styA q => exact write_kept hx (nw hs)
  | staX q => exact write_kept hx (by rw [hr.x]; exact ni hs)
  | staY q => exact write_kept hx (by rw [hr.y]; exact ni hs)
  | ldaI | nop | clc | jmp | ldxI | ldyI | adcI => cases hx; rfl
  | _ => cases hs

theorem sym_step_kept {e : Env} {h : Bool} {s0 : Mach} {r0 n : Nat} (hb : Base e h s0 r0 n) {σ σ' : Sym} {s t : Mach}
    (hr : Rel e h s0 r0 σ s) (hs : symStep h n σ = some σ') (ht : s.step e = some t) : t.kbd = (s.env e).kbd := by
  have hr := rel_env hr
  unfold Mach.step at ht
  dsimp only at ht
  generalize s.env e = u at hr ht
  unfold symStep at hs
  split at hs
  · cases hs
  · rename_i i hi
    rw [← hr.pc] at hi
    rw [symFetch_ok hr.code (fun h0 => by rw [steered_congr hr.sw]; exact hb.steer h0) hi] at ht
    dsimp only at ht
    have h1 := rel_cycles (rel_pc hr (u.pc + i.len)) i.cycles
    rw [← hr.pc] at hs
    have := sym_kept h1 hs ht
    exact this

/-- The instructions that access the keyboard strobe. -/
def StrobeAt (pc : Nat) : Prop := pc = 0x4056 ∨ pc = 0x405e ∨ pc = 0xba64 ∨ pc = 0xba6c

/-- A state in the course of reading on from byte `r`. -/
structure Within (e : Env) (s : Mach) (r : Nat) (t : Mach) : Prop where
  only : OnlyScreen s t
  log : ∃ k, r + k ≤ t.w.arrived ∧ t.w.log = s.w.log ++ e.bytes r k
  arrived : s.w.arrived ≤ t.w.arrived

theorem OnlyScreen.refl (s : Mach) : OnlyScreen s s := fun _ _ => ⟨rfl, fun _ _ => rfl⟩

theorem OnlyScreen.trans {s t u : Mach} (h1 : OnlyScreen s t) (h2 : OnlyScreen t u) : OnlyScreen s u := by
  intro q hq
  obtain ⟨a1, b1⟩ := h1 q hq
  obtain ⟨a2, b2⟩ := h2 q hq
  exact ⟨a2.trans a1, fun h3 h4 => (b2 h3 h4).trans (b1 h3 h4)⟩

/-- `n` instructions that read `k` bytes. -/
structure Hop (e : Env) (s : Mach) (r n k : Nat) (s' : Mach) : Prop where
  run : s.run e n = some s'
  steps : ∀ j, j ≤ n → ∃ t, s.run e j = some t ∧ Within e s r t
  log : s'.w.log = s.w.log ++ e.bytes r k
  kept : ∀ j t u, j < n → s.run e j = some t → t.step e = some u → u.kbd = (t.env e).kbd ∨ StrobeAt t.pc

theorem Hop.within {e : Env} {s s' : Mach} {r n k : Nat} (h : Hop e s r n k s') : Within e s r s' := by
  obtain ⟨t, h1, h2⟩ := h.steps n (Nat.le_refl _)
  rw [h.run] at h1
  cases h1
  exact h2

theorem Hop.trans {e : Env} {s s' s'' : Mach} {r n k n' k' : Nat} (h : Hop e s r n k s') (h' : Hop e s' (r + k) n' k' s'') :
    Hop e s r (n + n') (k + k') s'' := by
  refine ⟨by rw [run_add n h.run]; exact h'.run, ?_, ?_, ?_⟩
  · intro j hj
    by_cases hlt : j ≤ n
    · exact h.steps j hlt
    · obtain ⟨t, h1, h2⟩ := h'.steps (j - n) (by omega)
      refine ⟨t, ?_, h.within.only.trans h2.only, ?_, Nat.le_trans h.within.arrived h2.arrived⟩
      · rw [← h1, ← run_add n h.run, show n + (j - n) = j by omega]
      · obtain ⟨l, h3, h4⟩ := h2.log
        exact ⟨k + l, by omega, by rw [h4, h.log, bytes_add, List.append_assoc]⟩
  · rw [h'.log, h.log, bytes_add, List.append_assoc]
  · intro j t u hj h1 h2
    by_cases hlt : j < n
    · exact h.kept j t u hlt h1 h2
    · exact h'.kept (j - n) t u (by omega) (by rw [← h1, ← run_add n h.run, show n + (j - n) = j by omega]) h2

theorem Hop.trans0 {e : Env} {s s' s'' : Mach} {r n n' k' : Nat} (h : Hop e s r n 0 s') (h' : Hop e s' r n' k' s'') :
    Hop e s r (n + n') k' s'' := by
  have := h.trans (by rw [Nat.add_zero]; exact h')
  rwa [Nat.zero_add] at this

theorem only_writes (e : Env) (s0 : Mach) (r0 : Nat) (ws : List (Nat × V × V)) (h : ws.all otherOk = true) {q : Nat}
    (hq : ¬ (0x2000 ≤ q ∧ q < 0x4000)) :
    (afterWrites e s0 r0 ws).aux q = s0.aux q ∧
    (q ≠ 8 → isPatch q = false → (afterWrites e s0 r0 ws).main q = s0.main q) := by
  induction ws with
  | nil => exact ⟨rfl, fun _ _ => rfl⟩
  | cons w ws ih =>
    obtain ⟨b, o, v⟩ := w
    rw [List.all_cons, Bool.and_eq_true] at h
    obtain ⟨i1, i2⟩ := ih h.2
    have hlt := (o.val e s0 r0).isLt
    show (Mach.store _ _ _).aux q = _ ∧ (_ → _ → (Mach.store _ _ _).main q = _)
    rw [store_main, store_aux]
    dsimp only
    have h1 := h.1
    unfold otherOk at h1
    rw [Bool.or_eq_true] at h1
    rcases h1 with h1 | h1
    · have := isScr_iff.mp h1
      dsimp only at this
      rw [if_neg (by rintro ⟨rfl, -⟩; omega)]
      refine ⟨i1, fun h8 hp => ?_⟩
      rw [if_neg (by rintro ⟨rfl, -⟩; omega)]
      exact i2 h8 hp
    · rw [Bool.and_eq_true] at h1
      have ho := V.isLit_eq h1.1
      dsimp only at ho
      subst ho
      have hz : ((V.lit 0).val e s0 r0).toNat = 0 := rfl
      rw [hz, Nat.add_zero]
      have hst : (afterWrites e s0 r0 ws).steered b = false := by
        have h2 := h1.2
        rw [Bool.or_eq_true, Nat.beq_eq] at h2
        rcases h2 with h2 | h2
        · dsimp only at h2
          subst h2
          unfold Mach.steered
          simp
        · have := isPatch_range h2
          dsimp only at this
          exact steered_code _ (by omega)
      rw [if_neg (by rintro ⟨-, h3⟩; rw [hst] at h3; cases h3)]
      refine ⟨i1, fun h8 hp => ?_⟩
      rw [if_neg, i2 h8 hp]
      rintro ⟨rfl, -⟩
      have h2 := h1.2
      rw [Bool.or_eq_true, Nat.beq_eq] at h2
      rcases h2 with h2 | h2
      · exact h8 h2
      · dsimp only at h2; rw [hp] at h2; exact absurd h2 (by decide)

theorem not_isPatch {q : Nat} (h : ¬ Patched q) : isPatch q = false := by
  cases hc : isPatch q with
  | false => rfl
  | true => exact absurd ((isPatch_iff q).mp hc) h

theorem within_of_rel {e : Env} {h : Bool} {s t : Mach} {r : Nat} {σ : Sym} (hr : Rel e h s r σ t) : Within e s r t where
  only := by
    intro q hq
    obtain ⟨h1, h2⟩ := only_writes e s r σ.wr hr.wrok hq
    rw [hr.aux, hr.main]
    exact ⟨h1, fun h8 hp => h2 h8 (not_isPatch hp)⟩
  log := ⟨σ.reads, Nat.le_trans hr.avail hr.arrived, hr.log⟩
  arrived := hr.arrived

theorem symRun_next {h : Bool} {n : Nat} (k : Nat) : ∀ {σ σ' : Sym}, symRun h n k σ = some σ' → ∀ (j : Nat), j < k → ∀ {τ : Sym},
    symRun h n j σ = some τ → ∃ τ', symStep h n τ = some τ' := by
  induction k with
  | zero => intro σ σ' _ j hj; omega
  | succ k ih =>
    intro σ σ' hs j hj τ hτ
    unfold symRun at hs
    split at hs
    · cases hs
    · rename_i ρ hρ
      cases j with
      | zero => cases hτ; exact ⟨ρ, hρ⟩
      | succ j =>
        unfold symRun at hτ
        rw [hρ] at hτ
        exact ih hs j (by omega) hτ

theorem hop_of_sym {e : Env} {h : Bool} {s : Mach} {r n k : Nat} (hb : Base e h s r n) {σ σ' : Sym}
    (hr : Rel e h s r σ s) (hs : symRun h n k σ = some σ') :
    ∃ s', Hop e s r k σ'.reads s' ∧ Rel e h s r σ' s' := by
  obtain ⟨⟨s', h1, h2⟩, h3⟩ := rel_run hb k hr hs
  refine ⟨s', ⟨h1, ?_, h2.log, ?_⟩, h2⟩
  · intro j hj
    obtain ⟨τ, t, -, h4, h5⟩ := h3 j hj
    exact ⟨t, h4, within_of_rel h5⟩
  · intro j t u hj h4 h5
    obtain ⟨τ, t', a1, a2, a3⟩ := h3 j (Nat.le_of_lt hj)
    rw [h4] at a2
    cases a2
    obtain ⟨τ', a4⟩ := symRun_next k hs j hj a1
    exact .inl (sym_step_kept hb a3 a4 h5)

theorem within_refl {e : Env} {s : Mach} {r : Nat} (h : r ≤ s.w.arrived) : Within e s r s :=
  ⟨.refl _, ⟨0, h, by rw [bytes_zero, List.append_nil]⟩, Nat.le_refl _⟩

theorem hop_one {e : Env} {s s' : Mach} {r k : Nat} (hs : s.step e = some s') (ha : r + k ≤ s.w.arrived)
    (ho : OnlyScreen s s') (hl : s'.w.log = s.w.log ++ e.bytes r k) (h1 : s.w.arrived ≤ s'.w.arrived)
    (hk : s'.kbd = (s.env e).kbd ∨ StrobeAt s.pc) : Hop e s r 1 k s' := by
  have hrun : s.run e 1 = some s' := by rw [run_succ, hs]; rfl
  refine ⟨hrun, ?_, hl, ?_⟩
  · intro j hj
    obtain rfl | rfl : j = 0 ∨ j = 1 := by omega
    · exact ⟨s, rfl, within_refl (by omega)⟩
    · exact ⟨s', hrun, ho, ⟨k, by omega, hl⟩, h1⟩
  · intro j t u hj h2 h3
    obtain rfl : j = 0 := by omega
    cases h2
    rw [hs] at h3
    cases h3
    exact hk

theorem hop_of_sym_jump {e : Env} {s : Mach} {r n k j : Nat} (hb : Base e false s r n) {σ σ' : Sym}
    (hr : Rel e false s r σ s) (hs : symRun false n k σ = some σ') (hj : jumpCheck σ' j = true) :
    ∃ s', Hop e s r (k + 1) σ'.reads s' ∧ Rel e false s r
      { σ' with pc := 256 * (e.byte (r + j)).toNat + (e.byte (r + (j + 1))).toNat, cyc := σ'.cyc + 3 } s' := by
  obtain ⟨t, h1, h2⟩ := hop_of_sym hb hr hs
  obtain ⟨s', h3, h4, h4k⟩ := jump_step h2 hj
  have hrun : s.run e (k + 1) = some s' := by rw [run_add k h1.run, run_succ, h3]; rfl
  refine ⟨s', ⟨hrun, ?_, h4.log, ?_⟩, h4⟩
  · intro i hi
    by_cases hlt : i ≤ k
    · exact h1.steps i hlt
    · obtain rfl : i = k + 1 := by omega
      exact ⟨s', hrun, within_of_rel h4⟩
  · intro i u v hi h5 h6
    by_cases hlt : i < k
    · exact h1.kept i u v hlt h5 h6
    · obtain rfl : i = k := by omega
      rw [h1.run] at h5
      cases h5
      rw [h3] at h6
      cases h6
      exact .inl h4k

end IIVision.Player
