import Verif.Proofs.Whole
import Verif.Props.Movie

/-! From the transcoder's stream to the player's screen. -/

namespace IIVision.Player

open Spec

/-! ### Streams of the transcoder are playable -/

theorem weave_bodyOp {mode : VideoMode} (l : List Opcode) : ∀ m, (∀ op ∈ l, ∃ t p c os, op = .tick t p c os ∧ os.length = 4) →
    ∀ op ∈ weave mode m l, BodyOp op := by
  induction l with
  | nil => intro m _ op h; cases h
  | cons o l ih =>
    intro m h op hop
    obtain ⟨t, p, c, os, rfl, h4⟩ := h _ List.mem_cons_self
    have ih' := ih (m + 1) fun op hm => h op (List.mem_cons_of_mem _ hm)
    rw [weave_cons] at hop
    split at hop
    · rcases List.mem_cons.mp hop with rfl | hop
      · exact h4
      · rcases List.mem_cons.mp hop with rfl | hop
        · trivial
        · exact ih' _ hop
    · rcases List.mem_cons.mp hop with rfl | hop
      · exact h4
      · exact ih' _ hop

theorem weave_end (addr : AddrTable) (mode : VideoMode) (l : List Opcode) : ∀ (m : Nat)
    (pre : List Opcode) (op : Opcode) (post : List Opcode),
    (∀ op ∈ l, FrameOp op) → weave mode m l ++ [.terminate] = pre ++ op :: post → ¬ isAck op →
    (posOf m + (bytesOf addr pre).length) % 2048 + (op.emit addr).length ≤ 2044 := by
  induction l with
  | nil =>
    intro m pre op post _ h _
    have hm := posOf_mod m
    cases pre with
    | nil =>
      simp only [weave, List.nil_append, List.cons.injEq] at h
      obtain ⟨rfl, -⟩ := h
      rw [terminate_length]
      rw [show posOf m + (bytesOf addr []).length = posOf m from rfl, hm]
      omega
    | cons x pre => simp [weave] at h
  | cons o l ih =>
    intro m pre op post hf h ha
    have hm := posOf_mod m
    have h7 := frameOp_length addr (hf o List.mem_cons_self)
    have hfl : ∀ op ∈ l, FrameOp op := fun x hx => hf x (by simp [hx])
    have first : (posOf m + (bytesOf addr []).length) % 2048 + (o.emit addr).length ≤ 2044 := by
      rw [h7, show posOf m + (bytesOf addr []).length = posOf m from rfl, hm]; omega
    rw [weave_cons] at h
    split at h
    · rename_i hq
      obtain ⟨p1, p2⟩ := posOf_succ_ack m hq
      cases pre with
      | nil =>
        simp only [List.cons_append, List.nil_append, List.cons.injEq] at h
        rw [← h.1]; exact first
      | cons x pre =>
        simp only [List.cons_append, List.cons.injEq] at h
        obtain ⟨rfl, h⟩ := h
        cases pre with
        | nil =>
          simp only [List.nil_append, List.cons.injEq] at h
          rw [← h.1] at ha
          exact absurd trivial ha
        | cons y pre =>
          simp only [List.cons_append, List.cons.injEq] at h
          obtain ⟨rfl, h⟩ := h
          have := ih (m + 1) pre op post hfl h ha
          rw [p1] at this
          rw [IIVision.bytesOf_cons, IIVision.bytesOf_cons, List.length_append, List.length_append, h7, ack_length]
          rw [show posOf m + (7 + (4 + (bytesOf addr pre).length)) = posOf m + 7 + 4 + (bytesOf addr pre).length by omega]
          exact this
    · rename_i hq
      obtain ⟨p1, p2⟩ := posOf_succ m hq
      cases pre with
      | nil =>
        simp only [List.cons_append, List.nil_append, List.cons.injEq] at h
        rw [← h.1]; exact first
      | cons x pre =>
        simp only [List.cons_append, List.cons.injEq] at h
        obtain ⟨rfl, h⟩ := h
        have := ih (m + 1) pre op post hfl h ha
        rw [p1] at this
        rw [IIVision.bytesOf_cons, List.length_append, h7]
        rw [show posOf m + (7 + (bytesOf addr pre).length) = posOf m + 7 + (bytesOf addr pre).length by omega]
        exact this

theorem weave_hgr_ack (l : List Opcode) : ∀ m, (∀ op ∈ l, FrameOp op) → ∀ a, .ack a ∈ weave .HGR m l → a = false := by
  induction l with
  | nil => intro m _ a h; cases h
  | cons o l ih =>
    intro m hf a h
    have ih' := ih (m + 1) (fun x hx => hf x (by simp [hx])) a
    have hno : o ≠ .ack a := by rintro rfl; exact hf _ List.mem_cons_self
    rw [weave_cons] at h
    split at h
    · rcases List.mem_cons.mp h with h | h
      · exact absurd h.symm hno
      · rcases List.mem_cons.mp h with h | h
        · cases h; simp [bankAt]
        · exact ih' h
    · rcases List.mem_cons.mp h with h | h
      · exact absurd h.symm hno
      · exact ih' h

theorem posOf_pad (n : Nat) : (posOf n + 2 + (2048 - (posOf n + 2) % 2048)) % 2048 = 0 := by
  have h1 := posOf_mod n
  have h2 : n % 292 < 292 := Nat.mod_lt _ (by omega)
  generalize n % 292 = r at *
  generalize posOf n = P at *
  omega

/-- The stream of a movie in the form the player needs. -/
theorem playable_of_stream {M : Movie} {A : List Int} {F : List Frame} (hin : MovieInput M A F) (ha : M.addr = playerAddr)
    {tape : Nat → Nat} {ops : List Opcode} {bytes : List Nat} (h : M.stream tape A F = .ok (ops, bytes)) :
    ∃ body, ops = .header M.mode :: body ++ [.terminate] ∧ Playable (bytes.map (BitVec.ofNat 8)) M.mode body ∧
      (M.mode = .HGR → ∀ a, .ack a ∈ body → a = false) := by
  obtain ⟨l, calls, e, steps, h1, h2, h3, h4, h5, h6, h7, h8⟩ := stream_ok hin tape
  rw [h1] at h
  obtain ⟨rfl, rfl⟩ : ops = (emitted M 0 (.header M.mode :: l)).1 ∧ bytes = (emitted M 0 (.header M.mode :: l)).2 := by
    have := Except.ok.inj h
    exact ⟨(congrArg Prod.fst this).symm, (congrArg Prod.snd this).symm⟩
  have hall : ∀ op ∈ l, ∃ t p c os, op = .tick t p c os ∧ os.length = 4 := by
    intro op hop
    have hf := h2 op hop
    obtain ⟨i, hi, rfl⟩ := List.getElem_of_mem hop
    have hs : i < steps.length := by omega
    obtain ⟨t, p, au, -, h, -⟩ := (h8 i _ _ (List.getElem?_eq_getElem hi) (List.getElem?_eq_getElem hs)).tick
    rw [h] at hf
    exact ⟨t, p, _, _, h, hf⟩
  have hfl : ∀ op ∈ (.header M.mode :: l), FrameOp op := by
    intro op hop
    rcases List.mem_cons.mp hop with rfl | hop
    · trivial
    · exact h2 op hop
  have hw0 : weave M.mode 0 (.header M.mode :: l) = .header M.mode :: weave M.mode 1 l := by
    rw [weave_cons, if_neg (by decide)]
  obtain ⟨b1, b2, b3⟩ := emitted_bytes M _ hfl
  have p1 : posOf 1 = 7 := rfl
  refine ⟨weave M.mode 1 l, ?_, ⟨weave_bodyOp l 1 hall, ⟨List.replicate (2048 - (posOf (0 + (Opcode.header M.mode :: l).length) + 2) % 2048) 0, ?_⟩, ?_, ?_, ?_⟩, ?_⟩
  · show weave M.mode 0 (.header M.mode :: l) ++ [.terminate] = _
    rw [hw0]
  · show List.map _ (bytesOf M.addr (weave M.mode 0 (.header M.mode :: l) ++ [.terminate]) ++ _) = _
    rw [hw0, ha]
  · rw [List.length_map, b2]
    exact posOf_pad _
  · intro pre a post hb
    have := (weave_layout playerAddr M.mode l 1 pre (.ack a) (post ++ [.terminate]) h2 (by rw [hb]; simp)).1.mp trivial
    rwa [p1] at this
  · intro pre op post hb hop
    have := weave_end playerAddr M.mode l 1 pre op post h2 hb (by
      intro ha
      cases op with
      | ack a => exact hop a rfl
      | _ => exact ha)
    rwa [p1] at this
  · intro hm a
    rw [hm]
    exact weave_hgr_ack l 1 h2 a

/-! ### The screen -/

theorem screens_eq {s t : Mach} (h : SameMemory s t) : s.screens = t.screens := by
  have key : ∀ (p : Fin 32) (o : Fin 256), s.main (0x2000 + 256 * p.val + o.val) = t.main (0x2000 + 256 * p.val + o.val) ∧
      s.aux (0x2000 + 256 * p.val + o.val) = t.aux (0x2000 + 256 * p.val + o.val) := by
    intro p o
    have := p.isLt
    have := o.isLt
    exact h _ (by omega) (patched_screen (by omega) (by omega))
  unfold Mach.screens
  refine Prod.ext ?_ ?_ <;> funext p o
  · exact (key p o).1
  · exact (key p o).2

theorem screens_store (s : Mach) {b : Bool} (p : Fin 32) (o : Fin 256) (c : U8)
    (hs : s.steered (256 * (32 + p.val) + o.val) = b) :
    (s.store (256 * (32 + p.val) + o.val) c).screens = storeBank s.screens b p o c := by
  have hp := p.isLt
  have ho := o.isLt
  have key : ∀ (m : Nat → U8), (fun (p' : Fin 32) (o' : Fin 256) => if 0x2000 + 256 * p'.val + o'.val = 256 * (32 + p.val) + o.val then c else
      m (0x2000 + 256 * p'.val + o'.val)) = Grid.set (fun p' o' => m (0x2000 + 256 * p'.val + o'.val)) p o c := by
    intro m
    funext p' o'
    have hp' := p'.isLt
    have ho' := o'.isLt
    unfold Grid.set
    by_cases h : p' = p ∧ o' = o
    · obtain ⟨rfl, rfl⟩ := h
      simp
      omega
    · have h1 : 0x2000 + 256 * p'.val + o'.val ≠ 256 * (32 + p.val) + o.val := by
        intro hq
        apply h
        constructor <;> apply Fin.ext <;> omega
      rw [if_neg h1]
      simp [h]
  unfold Mach.store
  rw [hs]
  cases b
  · exact Prod.ext (key s.main) rfl
  · exact Prod.ext rfl (key s.aux)

theorem screens_draw {b : Bool} (p : Fin 32) (c : U8) (os : List (Fin 256)) : ∀ (s : Mach),
    (∀ o : Fin 256, s.steered (256 * (32 + p.val) + o.val) = b) →
    (s.draw (32 + p.val) c (os.map fun o => BitVec.ofNat 8 o.val)).screens = os.foldl (fun m o => storeBank m b p o c) s.screens := by
  induction os with
  | nil => intro s _; rfl
  | cons o os ih =>
    intro s hs
    have ho : (BitVec.ofNat 8 o.val).toNat = o.val := by rw [BitVec.toNat_ofNat]; exact Nat.mod_eq_of_lt o.isLt
    have := ih (s.store (256 * (32 + p.val) + o.val) c) (by
      intro o'
      unfold Mach.steered
      rw [store_sw]
      exact hs o')
    rw [screens_store s p o c (hs o)] at this
    rw [List.foldl_cons, ← this]
    unfold Mach.draw
    rw [List.map_cons, List.foldl_cons, ho]

theorem executes_screens {e : Env} {s s' : Mach} {ops : List Opcode} (h : Executes e s ops s') :
    ((s.sw.store80 = true ∧ s.sw.hires = true) ∨ (s.sw.page2 = false ∧ ∀ a, .ack a ∈ ops → a = false)) →
    s'.screens = (ticksOf s.sw.page2 ops).foldl playTick s.screens := by
  induction h with
  | nil s => intro _; rfl
  | @tick s s' s'' t p c os ops h1 h2 h3 h4 h5 h6 h7 ih =>
    intro hb
    have hp := p.isLt
    have hs : ∀ o : Fin 256, s.steered (256 * (32 + p.val) + o.val) = s.sw.page2 := by
      intro o
      have ho := o.isLt
      unfold Mach.steered
      have e1 : decide (0x2000 ≤ 256 * (32 + p.val) + o.val) = true := decide_eq_true (by omega)
      have e2 : decide (256 * (32 + p.val) + o.val < 0x4000) = true := decide_eq_true (by omega)
      rw [e1, e2]
      rcases hb with ⟨h80, hh⟩ | ⟨hp2, -⟩
      · rw [h80, hh]; simp
      · rw [hp2]; simp
    have e1 : s'.screens = playTick s.screens ⟨4 + 2 * t.val, 32 + p.val, c, os, s.sw.page2⟩ := by
      rw [screens_eq h5, screens_draw p c os s hs]
      unfold playTick
      have : Fin.ofNat 32 (32 + p.val - 32) = p := by
        apply Fin.ext
        show (32 + p.val - 32) % 32 = p.val
        omega
      rw [this]
    rw [ih (by rw [h6]; rcases hb with h | ⟨h, h'⟩; exact .inl h; exact .inr ⟨h, fun a ha => h' a (List.mem_cons_of_mem _ ha)⟩), h6, e1]
    rfl
  | @ack s s' s'' a ops h1 h2 h3 h4 h5 ih =>
    intro hb
    rw [ih (by
      rw [h4]
      rcases hb with h | ⟨h, h'⟩
      · exact .inl h
      · exact .inr ⟨h' a List.mem_cons_self, fun a ha => h' a (List.mem_cons_of_mem _ ha)⟩), h4, screens_eq h3]
    rfl
  | @nop s s' s'' ops h1 h2 h3 h4 h5 ih =>
    intro hb
    rw [ih (by rw [h4]; rcases hb with h | ⟨h, h'⟩; exact .inl h; exact .inr ⟨h, fun a ha => h' a (List.mem_cons_of_mem _ ha)⟩), h4,
      screens_eq h3]
    rfl

theorem foldl_rel {α β γ : Type} {f : γ → α → γ} {g : γ → β → γ} (l : List α) : ∀ (l' : List β) (m : γ), l.length = l'.length →
    (∀ (i : Nat) x y, l[i]? = some x → l'[i]? = some y → ∀ m, f m x = g m y) → l.foldl f m = l'.foldl g m := by
  induction l with
  | nil => intro l' m h _; cases l' with
    | nil => rfl
    | cons y l' => cases h
  | cons x l ih =>
    intro l' m h hr
    cases l' with
    | nil => cases h
    | cons y l' =>
      rw [List.foldl_cons, List.foldl_cons, hr 0 x y rfl rfl m]
      exact ih l' _ (by simpa using h) fun i x y h1 h2 => hr (i + 1) x y h1 h2

theorem bankOf_fold {α : Type} (f : Mem × Mem → α → Mem × Mem) (b : Bool)
    (hf : ∀ m m' x, bankOf m b = bankOf m' b → bankOf (f m x) b = bankOf (f m' x) b) (l : List α) :
    ∀ m m', bankOf m b = bankOf m' b → bankOf (l.foldl f m) b = bankOf (l.foldl f m') b := by
  induction l with
  | nil => intro m m' h; exact h
  | cons x l ih => intro m m' h; exact ih _ _ (hf m m' x h)

theorem bankOf_storeBank_congr (b a : Bool) (p : Fin 32) (c : U8) (m m' : Mem × Mem) (o : Fin 256)
    (h : bankOf m b = bankOf m' b) : bankOf (storeBank m a p o c) b = bankOf (storeBank m' a p o c) b := by
  cases a <;> cases b <;> simp_all [bankOf, storeBank]

theorem bankOf_play_congr (b : Bool) (steps : List Step) (m m' : Mem × Mem) (h : bankOf m b = bankOf m' b) :
    bankOf (play m steps) b = bankOf (play m' steps) b := by
  refine bankOf_fold _ b ?_ steps m m' h
  intro m m' s h
  exact bankOf_fold _ b (fun m m' o h => bankOf_storeBank_congr b _ _ _ m m' o h) _ m m' h

theorem screens_cleared {s : Mach} (b : Bool) (h : Cleared (if b then s.aux else s.main)) : bankOf s.screens b = bankOf blank b := by
  have key : (if b then s.screen true else s.screen false) = fun _ _ => 0 := by
    funext p o
    have := p.isLt
    have := o.isLt
    cases b
    · exact h _ (by omega) (by omega)
    · exact h _ (by omega) (by omega)
  cases b <;> exact key

end IIVision.Player
