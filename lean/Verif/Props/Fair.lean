import Verif.Proofs.Fair
import Verif.Props.Picture

/-! C63: no byte starves. -/

namespace IIVision
open Spec

theorem run_einv {t : EditTable} {mode : VideoMode} {e e' : Enc} {calls : List Call} {tr : List Step} (h : EInv t mode e)
    (hl : ∀ c ∈ calls, c.Legal mode) (hg : e.gen ≠ none) (hr : e.run t calls = .ok (e', tr)) : EInv t mode e' := by
  obtain ⟨e1, tr1, r1, r2, -⟩ := run_ok calls h hl (.inl hg)
  rw [r1] at hr; cases hr; exact r2

/-- C63: in any history that begins with a new frame, as long as a byte is never stored to although at the beginning of every
frame for its bank it was off by at least `w`, the number of operations for the bank is limited: the sum, over these operations, of
`w` times the number of frames begun so far is at most 8192·8192·65535 + 7680·W per frame begun, `W` being the largest distance. -/
theorem C63_no_starvation (mode : VideoMode) (t : EditTable) (tape : Nat → Nat) (W w : Nat) (hW : ∀ k i, (t k i).toNat ≤ W)
    (hs : Symmetric mode.cls.maskedBits t) (hw : 0 < w) (pre blk : List Call) (tgt : Bitmap) (a : Bool)
    (h : Legal mode (pre ++ .start tgt a :: blk)) (e0 e1 : Enc) (tr0 tr : List Step)
    (hr0 : runNew mode t tape pre = .ok (e0, tr0)) (hr : e0.run t (.start tgt a :: blk) = .ok (e1, tr))
    (b : Bool) (p : Fin 32) (o : Fin 256)
    (hn : ∀ s ∈ tr, ¬ s.stores b p o)
    (hoff : ∀ s ∈ tr, s.isAux = b → s.first = true → w ≤ weight mode t (banks s.before.pixelmap) (banks s.target) b p o) :
    w * ranked b 0 tr ≤ 8192 * 8192 * 65535 + 7680 * W * begun b tr := by
  obtain ⟨-, e0', tr0', -, h2, h3, -, -, -⟩ := runNew_ok (t := t) (legal_prefix h) tape
  rw [h2] at hr0; cases hr0
  obtain ⟨tr', hr2, rfl⟩ := run_cons_inv (e1 := { e0 with gen := some (.notStarted tgt a) }) (s := []) rfl hr
  have hB := h3.prio b
  have key := fair_run (e := { e0 with gen := some (.notStarted tgt a) }) (k := 0) (g := e0.v.priority b) (x := 8192 * 8192 * 65535)
    hW hs hw b p o blk ⟨h3.vmode, h3.valid, h3.holes, h3.clean, h3.prio, h.each (.start tgt a) (by simp)⟩ (fun c hc => h.each c (by simp [hc])) hr2
    ⟨fun _ _ => le_refl _, hB.nonneg, fun _ _ h => h, ?_, ?_⟩ (by simpa using hB.nonneg p o) hn hoff
  · exact_mod_cast key
  · have := hB.sum Finset.univ
    have hc : (Finset.univ : Finset CellIx).card = 8192 := by
      rw [Finset.card_univ, Fintype.card_prod, Fintype.card_fin, Fintype.card_fin]
    rw [hc] at this
    exact le_trans this (by norm_num)
  · intro gen hg hn
    cases hg
    exact absurd hn (by simp [Gen.isNew])

theorem begun_append (b : Bool) (l1 l2 : List Step) : begun b (l1 ++ l2) = begun b l1 + begun b l2 := List.countP_append

theorem ranked_append (b : Bool) (l1 : List Step) : ∀ (k : Nat) (l2 : List Step),
    ranked b k (l1 ++ l2) = ranked b k l1 + ranked b (k + begun b l1) l2 := by
  induction l1 with
  | nil => intro k l2; simp [ranked, begun]
  | cons s l ih =>
    intro k l2
    by_cases h : s.isAux = b
    · cases hf : s.first <;>
        simp only [List.cons_append, ranked, h, if_true, hf, Bool.false_eq_true, if_false, ih, begun, List.countP_cons, beq_self_eq_true,
          Bool.true_and, Nat.add_zero] <;> simp only [Nat.add_assoc, Nat.add_comm 1]
    · simp [List.cons_append, ranked, h, ih, begun]

/-- The operations of one frame. -/
theorem pulls_shape {t : EditTable} {mode : VideoMode} (m : Nat) : ∀ {e : Enc} {g : Gen} {e' : Enc} {tr : List Step},
    EInv t mode e → e.gen = some g → e.run t (List.replicate m .pull) = .ok (e', tr) → EInv t mode e' ∧
    (∀ b, g.isAux ≠ b → begun b tr = 0) ∧ (begun g.isAux tr = if g.isNew ∧ 0 < m then 1 else 0) ∧
    (∀ k, ranked g.isAux k tr = m * if g.isNew then k + 1 else k) := by
  induction m with
  | zero =>
    intro e g e' tr h hg hr
    cases hr
    refine ⟨h, fun _ _ => rfl, by simp [begun], fun k => by simp [ranked]⟩
  | succ m ih =>
    intro e g e' tr h hg hr
    obtain ⟨e1, s, g1, a1, a2, a3, a4, a5, a6, a7, a8, a9, a10, -, a12, a13, -⟩ := pull_ok h hg
    rw [List.replicate_succ] at hr
    obtain ⟨tr', hr2, rfl⟩ := run_cons_inv a1 hr
    obtain ⟨b0, b1, b2, b3⟩ := ih a2 a4 hr2
    rw [a6] at b1 b2 b3
    refine ⟨b0, ?_, ?_, ?_⟩
    · intro b hb
      rw [begun_append, b1 b hb]
      simp [begun, a9, hb]
    · rw [begun_append, b2, a7]
      simp [begun, List.countP_cons, a9, a10]
    · intro k
      rw [List.singleton_append, ranked, if_pos a9, a10]
      simp only [b3, a7, Bool.false_eq_true, if_false]
      rw [Nat.add_mul, Nat.one_mul, Nat.add_comm]

theorem turns_cons (f : Bitmap) (a : Bool) (n : Nat) (l : List (Bitmap × Bool × Nat)) :
    turns ((f, a, n) :: l) = .start f a :: (List.replicate n .pull ++ turns l) := by
  simp [turns]

theorem run_append_inv {t : EditTable} {cs : List Call} : ∀ {e e2 : Enc} {ds : List Call} {tr : List Step}, e.run t (cs ++ ds) = .ok (e2, tr) →
    ∃ e1 tr1 tr2, e.run t cs = .ok (e1, tr1) ∧ e1.run t ds = .ok (e2, tr2) ∧ tr = tr1 ++ tr2 := by
  induction cs with
  | nil => intro e e2 ds tr h; exact ⟨e, [], tr, rfl, h, rfl⟩
  | cons c cs ih =>
    intro e e2 ds tr h
    rw [List.cons_append] at h
    cases hc : e.call t c with
    | error x =>
      unfold Enc.run at h
      simp only [hc, bind, Except.bind] at h
      cases h
    | ok x =>
      obtain ⟨e1, s⟩ := x
      obtain ⟨tr', h1, rfl⟩ := run_cons_inv hc h
      obtain ⟨e3, u1, u2, k1, k2, rfl⟩ := ih h1
      refine ⟨e3, s ++ u1, u2, ?_, k2, by rw [List.append_assoc]⟩
      unfold Enc.run
      simp only [hc, bind, Except.bind, k1]
      rfl

/-- Operations and frames of a sequence of turns. -/
theorem turns_shape {t : EditTable} {mode : VideoMode} {m : Nat} (hm : 0 < m) (b : Bool) (segs : List (Bitmap × Bool × Nat)) :
    ∀ {e e' : Enc} {tr : List Step}, EInv t mode e → (∀ c ∈ turns segs, c.Legal mode) → (∀ x ∈ segs, x.2.1 = b → m ≤ x.2.2) →
    e.run t (turns segs) = .ok (e', tr) →
    begun b tr = segs.countP (fun x => x.2.1 == b) ∧
    ∀ k, m * (begun b tr * (2 * k + begun b tr + 1)) ≤ 2 * ranked b k tr := by
  induction segs with
  | nil =>
    intro e e' tr _ _ _ hr
    cases hr
    exact ⟨rfl, fun k => by simp [begun]⟩
  | cons x segs ih =>
    obtain ⟨f, a, n⟩ := x
    intro e e' tr h hl hx hr
    rw [turns_cons] at hr hl
    obtain ⟨tr', hr2, rfl⟩ := run_cons_inv (e1 := { e with gen := some (.notStarted f a) }) (s := []) rfl hr
    have h1 : EInv t mode { e with gen := some (.notStarted f a) } := ⟨h.vmode, h.valid, h.holes, h.clean, h.prio, hl _ List.mem_cons_self⟩
    obtain ⟨e1, u1, u2, k1, k2, rfl⟩ := run_append_inv hr2
    obtain ⟨b0, b1, b2, b3⟩ := pulls_shape n h1 rfl k1
    obtain ⟨c1, c2⟩ := ih b0 (fun c hc => hl c (by simp [hc])) (fun x hx' => hx x (List.mem_cons_of_mem _ hx')) k2
    simp only [Gen.isAux, Gen.isNew, true_and, if_true] at b1 b2 b3
    have hm' := hx _ List.mem_cons_self
    simp only at hm'
    by_cases ha : a = b
    · subst ha
      have hm' := hm' rfl
      rw [if_pos (by omega)] at b2
      refine ⟨by rw [begun_append, b2, c1]; simp [Nat.add_comm], fun k => ?_⟩
      rw [ranked_append, begun_append, b2, b3]
      have := c2 (k + 1)
      generalize begun a u2 = B at this ⊢
      have h5 : m * (k + 1) ≤ n * (k + 1) := Nat.mul_le_mul_right _ hm'
      nlinarith
    · have hb := b1 b ha
      refine ⟨by rw [begun_append, hb, c1]; simp [ha], fun k => ?_⟩
      rw [ranked_append, begun_append, hb]
      have := c2 k
      simp only [Nat.zero_add, Nat.add_zero]
      omega

/-- C63: frames for a bank, each given at least `m` operations, whatever happens in between in the other bank: after `n` of them
with `m·w·n·(n+1)` above the stated limit, every byte of the bank has been stored to, or was off by less than `w` at the
beginning of one of the frames. -/
theorem C63_turns (mode : VideoMode) (t : EditTable) (tape : Nat → Nat) (W w m : Nat) (hW : ∀ k i, (t k i).toNat ≤ W)
    (hs : Symmetric mode.cls.maskedBits t) (hw : 0 < w) (hm : 0 < m) (pre : List Call) (segs : List (Bitmap × Bool × Nat))
    (h : Legal mode (pre ++ turns segs)) (e0 e1 : Enc) (tr0 tr : List Step)
    (hr0 : runNew mode t tape pre = .ok (e0, tr0)) (hr : e0.run t (turns segs) = .ok (e1, tr))
    (b : Bool) (p : Fin 32) (o : Fin 256) (hseg : ∀ x ∈ segs, x.2.1 = b → m ≤ x.2.2)
    (hlim : let n := segs.countP fun x => x.2.1 == b
      2 * (8192 * 8192 * 65535 + 7680 * W * n) < m * w * (n * (n + 1))) :
    ∃ s ∈ tr, s.isAux = b ∧ (s.stores b p o ∨
      s.first = true ∧ weight mode t (banks s.before.pixelmap) (banks s.target) b p o < w) := by
  by_contra hno
  push Not at hno
  cases segs with
  | nil => simp at hlim
  | cons x segs =>
    obtain ⟨f, a, n⟩ := x
    obtain ⟨-, e0', tr0', -, h2, h3, -, -, -⟩ := runNew_ok (t := t) (legal_prefix h) tape
    have hr0' := hr0
    rw [h2] at hr0'; cases hr0'
    obtain ⟨c1, c2⟩ := turns_shape hm b _ h3 (fun c hc => h.each c (by simp [hc])) hseg hr
    rw [← c1] at hlim
    have c2 := c2 0
    rw [turns_cons] at hr h
    have key := C63_no_starvation mode t tape W w hW hs hw pre _ f a h e0 e1 tr0 tr hr0 hr b p o
      (fun s hs' hst => (hno s hs' hst.1).1 hst) (fun s hs' h1 h2 => (hno s hs' h1).2 h2)
    simp only at hlim
    have h5 := Nat.mul_le_mul_left w c2
    generalize ranked b 0 tr = R at *
    generalize begun b tr = B at *
    have h6 : m * w * (B * (B + 1)) = w * (m * (B * (2 * 0 + B + 1))) := by ring
    have h7 : w * (2 * R) = 2 * (w * R) := by ring
    omega

/-- C63, in round numbers and for any symmetric table: 8192 frames for the bank are enough if frames times operations per frame
times the distance reach 2^31. -/
theorem C63_round (mode : VideoMode) (t : EditTable) (tape : Nat → Nat) (w m : Nat)
    (hs : Symmetric mode.cls.maskedBits t) (pre : List Call) (segs : List (Bitmap × Bool × Nat))
    (h : Legal mode (pre ++ turns segs)) (e0 e1 : Enc) (tr0 tr : List Step)
    (hr0 : runNew mode t tape pre = .ok (e0, tr0)) (hr : e0.run t (turns segs) = .ok (e1, tr))
    (b : Bool) (p : Fin 32) (o : Fin 256) (hseg : ∀ x ∈ segs, x.2.1 = b → m ≤ x.2.2)
    (hn : 8192 ≤ segs.countP fun x => x.2.1 == b) (hlim : 2 ^ 31 ≤ (segs.countP fun x => x.2.1 == b) * m * w) :
    ∃ s ∈ tr, s.isAux = b ∧ (s.stores b p o ∨
      s.first = true ∧ weight mode t (banks s.before.pixelmap) (banks s.target) b p o < w) := by
  have hw : 0 < w := by rcases Nat.eq_zero_or_pos w with rfl | h <;> [simp at hlim; exact h]
  have hm : 0 < m := by rcases Nat.eq_zero_or_pos m with rfl | h <;> [simp at hlim; exact h]
  refine C63_turns mode t tape 65535 w m (fun k i => by have := (t k i).isLt; omega) hs hw hm pre segs h e0 e1 tr0 tr hr0 hr b p o hseg ?_
  intro n
  change 8192 ≤ n at hn
  change 2 ^ 31 ≤ n * m * w at hlim
  generalize n = n at hn hlim ⊢
  nlinarith [Nat.mul_le_mul_right (n + 1) hlim]

/-- Two pictures in turn, for both banks, 5000 operations each. -/
def turnsDemo (n : Nat) : List (Bitmap × Bool × Nat) := (List.range n).map fun i =>
  (if i % 4 < 2 then greyFrame 0x2a 0x55 else greyFrame 0x55 0x2a, i % 2 == 0, 5000)

theorem turnsDemo_legal (n : Nat) : Legal .DHGR (turns (turnsDemo n)) := by
  constructor
  · intro c hc
    unfold turns at hc
    obtain ⟨x, hx, hc⟩ := List.mem_flatMap.mp hc
    obtain ⟨i, -, rfl⟩ := List.mem_map.mp hx
    rcases List.mem_cons.mp hc with rfl | hc
    · show LegalFrame _ _ _
      dsimp only
      split
      · exact greyFrame_legal 0x2a 0x55 (by decide) (by decide) _
      · exact greyFrame_legal 0x55 0x2a (by decide) (by decide) _
    · rw [(List.mem_replicate.mp hc).2]; trivial
  · intro c hc
    cases n with
    | zero => simp [turnsDemo, turns] at hc
    | succ n =>
      unfold turnsDemo at hc
      rw [List.range_succ_eq_map, List.map_cons, turns_cons, List.head?_cons] at hc
      cases hc; rfl

theorem turnsDemo_count (n : Nat) : (turnsDemo (2 * n)).countP (fun x => x.2.1 == true) = n := by
  have key : ∀ n, (List.range (2 * n)).countP (fun i => i % 2 == 0) = n := by
    intro n
    induction n with
    | zero => rfl
    | succ n ih =>
      rw [show 2 * (n + 1) = 2 * n + 1 + 1 from rfl, List.range_succ, List.range_succ, List.countP_append, List.countP_append, ih]
      simp [show (2 * n + 1) % 2 = 1 by omega]
  unfold turnsDemo
  rw [List.countP_map]
  refine Eq.trans ?_ (key n)
  congr 1
  funext i
  simp

/-- The hypotheses are met: from half a million frames for the bank on, each of its bytes is stored to at least once, or is
right at the beginning of some frame. -/
example (t : EditTable) (ht : Symmetric 13 t) (tape : Nat → Nat) (n : Nat) (hn : 500000 ≤ n) (p : Fin 32) (o : Fin 256) :
    ∃ e tr, runNew .DHGR t tape (turns (turnsDemo (2 * n))) = .ok (e, tr) ∧
      ∃ s ∈ tr, s.isAux = true ∧ (s.stores true p o ∨
        s.first = true ∧ weight .DHGR t (banks s.before.pixelmap) (banks s.target) true p o < 1) := by
  have hL := turnsDemo_legal (2 * n)
  obtain ⟨e0, i1, -⟩ := init_ok t .DHGR tape
  obtain ⟨-, e, tr, -, h2, -⟩ := runNew_ok (t := t) hL tape
  refine ⟨e, tr, h2, ?_⟩
  have hc := turnsDemo_count n
  refine C63_round .DHGR t tape 1 5000 ht [] _ hL e0 e [] tr ?_ ?_ true p o ?_ ?_ ?_
  · unfold runNew; rw [i1]; rfl
  · unfold runNew at h2; rw [i1] at h2; exact h2
  · intro x hx _
    obtain ⟨i, -, rfl⟩ := List.mem_map.mp hx
    exact le_refl _
  · rw [hc]; omega
  · rw [hc]; omega

end IIVision
