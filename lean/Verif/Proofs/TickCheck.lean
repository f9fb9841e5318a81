import Verif.Proofs.SymSound

/-! Kernel evaluation of the symbolic run of all tick opcodes. -/

namespace IIVision.Player

/-- The value written last to an operand. -/
def lookup (q : Nat) : List (Nat × V × V) → Option V
  | [] => none
  | w :: ws => bif isScr w then lookup q ws
    else bif w.2.1.isLit 0 then (bif Nat.beq w.1 q then some w.2.2 else lookup q ws) else none

theorem other_main (e : Env) (s0 : Mach) (r0 : Nat) (ws : List (Nat × V × V)) (h : ws.all otherOk = true)
    {q : Nat} (h8 : q ≠ 8) (hp : isPatch q = false) :
    (afterWrites e s0 r0 ws).main q = (afterWrites e s0 r0 (ws.filter isScr)).main q ∧
    (afterWrites e s0 r0 ws).aux q = (afterWrites e s0 r0 (ws.filter isScr)).aux q := by
  induction ws with
  | nil => exact ⟨rfl, rfl⟩
  | cons w ws ih =>
    obtain ⟨b, o, v⟩ := w
    rw [List.all_cons, Bool.and_eq_true] at h
    have ih := ih h.2
    have hst : ∀ q, (afterWrites e s0 r0 ws).steered q = (afterWrites e s0 r0 (ws.filter isScr)).steered q :=
      fun q => steered_congr (by rw [afterWrites_sw, afterWrites_sw]) q
    cases hs : isScr (b, o, v) with
    | true =>
      rw [List.filter_cons_of_pos hs]
      show (Mach.store _ _ _).main q = (Mach.store _ _ _).main q ∧ (Mach.store _ _ _).aux q = (Mach.store _ _ _).aux q
      rw [store_main, store_main, store_aux, store_aux]
      dsimp only
      rw [hst, ih.1, ih.2]
      exact ⟨rfl, rfl⟩
    | false =>
      rw [List.filter_cons_of_neg (by rw [hs]; decide)]
      have h1 := h.1
      unfold otherOk at h1
      rw [hs, Bool.false_or, Bool.and_eq_true] at h1
      have ho := V.isLit_eq h1.1
      dsimp only at ho
      subst ho
      have hne : q ≠ b + ((V.lit 0).val e s0 r0).toNat := by
        show q ≠ b + 0
        rintro rfl
        have := h1.2
        rw [Bool.or_eq_true, Nat.beq_eq] at this
        rcases this with h | h
        · exact h8 h
        · dsimp only at h
          rw [hp] at h; exact absurd h (by decide)
      show (Mach.store _ _ _).main q = _ ∧ (Mach.store _ _ _).aux q = _
      rw [store_main, store_aux]
      dsimp only
      rw [if_neg (fun h => hne h.1), if_neg (fun h => hne h.1)]
      exact ih

theorem lookup_main (e : Env) (s0 : Mach) (r0 : Nat) {q : Nat} (hq : ¬ (0x2000 ≤ q ∧ q < 0x4000))
    (hst : s0.steered q = false) (ws : List (Nat × V × V)) {v : V} (h : lookup q ws = some v) :
    (afterWrites e s0 r0 ws).main q = v.val e s0 r0 := by
  induction ws with
  | nil => cases h
  | cons w ws ih =>
    obtain ⟨b, o, u⟩ := w
    unfold lookup at h
    show (Mach.store _ _ _).main q = _
    rw [store_main]
    dsimp only
    cases hs : isScr (b, o, u) with
    | true =>
      rw [hs, cond_true] at h
      have := isScr_iff.mp hs
      dsimp only at this
      have hlt := (o.val e s0 r0).isLt
      rw [if_neg (by rintro ⟨rfl, -⟩; omega)]
      exact ih h
    | false =>
      rw [hs, cond_false] at h
      cases ho : o.isLit 0 with
      | false => rw [ho, cond_false] at h; cases h
      | true =>
        rw [ho, cond_true] at h
        have ho := V.isLit_eq ho
        subst ho
        cases hb : Nat.beq b q with
        | true =>
          rw [hb, cond_true] at h
          have hb := Nat.eq_of_beq_eq_true hb
          subst hb
          rw [if_pos ⟨rfl, by rw [steered_congr (afterWrites_sw ..)]; exact hst⟩]
          cases h; rfl
        | false =>
          rw [hb, cond_false] at h
          rw [if_neg]
          · exact ih h
          · rintro ⟨h1, -⟩
            have h1 : q = b + 0 := h1
            rw [Nat.add_zero] at h1
            subst h1
            rw [show Nat.beq q q = true from by rw [Nat.beq_eq]] at hb
            exact absurd hb (by decide)

/-- Cycles between the two clicks of the opcode with index `i` (t = 4 + 2i): t, but 21 and 39
for t = 22 and t = 40. -/
def pulse (i : Nat) : Nat := bif Nat.beq i 9 then 21 else bif Nat.beq i 18 then 39 else 4 + 2 * i

/-- Number of instructions before the jump. -/
def tickLen (i : Nat) : Nat := bif Nat.beq i 7 || Nat.beq i 16 then 18 else 17

def scrWrite (p k : Nat) (w : Nat × V × V) : Bool :=
  Nat.beq w.1 (256 * p) && w.2.1.isStr k && w.2.2.isStr 0

/-- At the jump to the next opcode. -/
def jumpCheck (σ : Sym) (k : Nat) : Bool :=
  (match codeByte false σ.pc with | some b => Nat.beq b 0x4c | none => false) &&
  isPatch (σ.pc + 1) && isPatch (σ.pc + 2) &&
  (match lookup (σ.pc + 1) σ.wr with | some v => v.isStr (k + 1) | none => false) &&
  (match lookup (σ.pc + 2) σ.wr with | some v => v.isStr k | none => false) &&
  (match σ.ptr with | .ring => true | _ => false) && σ.x.isLit 0 &&
  !σ.rdw && !σ.recv

/-- What the opcode with index `i` and page `p` must do. -/
def tickCheck (i p : Nat) : Bool :=
  match symRun false 7 (tickLen i) (symStart (sym (.opTick (4 + 2 * i) p))) with
  | none => false
  | some σ =>
    jumpCheck σ 5 && Nat.beq σ.reads 7 && Nat.beq σ.cyc 70 &&
    (match σ.clk with | [c2, c1] => Nat.beq c1 4 && Nat.beq c2 (4 + pulse i) | _ => false) &&
    (match σ.wr.filter isScr with
     | [w4, w3, w2, w1] => scrWrite p 1 w1 && scrWrite p 2 w2 && scrWrite p 3 w3 && scrWrite p 4 w4
     | _ => false)

def allTicks (p n : Nat) : Bool := (List.range n).all fun i => tickCheck i p

theorem ticks_ok : ((List.range 32).all fun j => allTicks (32 + j) 32) = true := by decide +kernel

end IIVision.Player
