import Verif.Model.Machinery
import Verif.Proofs.Heapq
import Verif.Proofs.Bind

/-! The encoder with heap arrays and cache simulates the encoder of Model/Video.lean. -/

namespace IIVision

open Heapq (IsHeap)

/-- Both fail with the same exception or both succeed with related results. -/
def Sim {α β : Type} (R : α → β → Prop) : Except PyErr α → Except PyErr β → Prop
  | .ok a, .ok b => R a b
  | .error e, .error e' => e = e'
  | _, _ => False

theorem Sim.bind {α β γ δ : Type} {R : α → β → Prop} {S : γ → δ → Prop}
    {x : Except PyErr α} {y : Except PyErr β} {f : α → Except PyErr γ} {g : β → Except PyErr δ}
    (h : Sim R x y) (hf : ∀ a b, R a b → Sim S (f a) (g b)) : Sim S (x >>= f) (y >>= g) := by
  cases x <;> cases y
  · exact h
  · exact h.elim
  · exact h.elim
  · exact hf _ _ h

/-- The same computation on both sides. -/
theorem Sim.same {α γ δ : Type} {S : γ → δ → Prop} {x : Except PyErr α}
    {f : α → Except PyErr γ} {g : α → Except PyErr δ}
    (hf : ∀ a, x = .ok a → Sim S (f a) (g a)) : Sim S (x >>= f) (x >>= g) := by
  cases x
  · exact rfl
  · exact hf _ rfl

/-- All cached prices are right, for distinct arguments, and there are at most `M`. -/
structure Lru.Good (M : Nat) (mode : VideoMode) (t : EditTable) (c : PairCache) : Prop where
  right : ∀ e ∈ c.entries, mode.cls.bytePairDifference t e.1.2.1 e.1.2.2.1 e.1.2.2.2 = .ok e.2
  distinct : (c.entries.map (·.1)).Nodup
  small : c.entries.length ≤ M
  size : c.maxsize = M

theorem Lru.call_sim {M : Nat} {mode : VideoMode} {t : EditTable} {c : PairCache}
    (h : c.Good M mode t) (id k : Nat) (x : U64) (v : U8) :
    Sim (fun a b => a.1 = b ∧ a.2.Good M mode t)
      (c.call (id, k, x, v) (mode.cls.bytePairDifference t k x v))
      (mode.cls.bytePairDifference t k x v) := by
  unfold Lru.call
  cases hf : c.entries.find? (fun e => decide (e.1 = (id, k, x, v))) with
  | some e =>
    have hm := List.mem_of_find?_eq_some hf
    have hk := List.find?_some hf
    rw [decide_eq_true_eq] at hk
    have he := h.right e hm
    rw [hk] at he
    dsimp only at he ⊢
    rw [he]
    refine ⟨rfl, fun e' he' => ?_, ?_, ?_, h.size⟩
    · rcases List.mem_cons.mp he' with rfl | h'
      · exact h.right _ hm
      · exact h.right _ (List.mem_filter.mp h').1
    · rw [List.map_cons, List.nodup_cons]
      refine ⟨fun hin => ?_, (List.filter_sublist.map _).nodup h.distinct⟩
      obtain ⟨e', he', heq⟩ := List.mem_map.mp hin
      have := (List.mem_filter.mp he').2
      rw [decide_eq_true_eq] at this
      exact this (heq.trans hk)
    · have hlt : (c.entries.filter fun e => decide (e.1 ≠ (id, k, x, v))).length < c.entries.length := by
        refine List.length_filter_lt_length_iff_exists.mpr ⟨e, hm, ?_⟩
        simp [hk]
      exact Nat.le_trans hlt h.small
  | none =>
    dsimp only
    cases hp : mode.cls.bytePairDifference t k x v with
    | error e => exact rfl
    | ok p =>
      refine ⟨rfl, fun e' he' => ?_, ?_, ?_, h.size⟩
      · rcases List.mem_cons.mp (List.mem_of_mem_take he') with rfl | h'
        · exact hp
        · exact h.right _ h'
      · refine ((List.take_sublist _ _).map _).nodup ?_
        rw [List.map_cons, List.nodup_cons]
        refine ⟨fun hin => ?_, h.distinct⟩
        obtain ⟨e', he', heq⟩ := List.mem_map.mp hin
        have := List.find?_eq_none.mp hf e' he'
        rw [decide_eq_true_eq] at this
        exact this heq
      · rw [List.length_take, h.size]
        exact Nat.min_le_left ..

namespace Real

attribute [local irreducible] screenHoles

/-- States of the inner loop that stand for each other. -/
structure InnerRel (M : Nat) (mode : VideoMode) (t : EditTable) (a : Inner) (b : IIVision.Inner) : Prop where
  v : a.v = b.v
  kept : b.v.mode = mode
  heap : IsHeap Entry.lt a.heap
  perm : a.heap.Perm b.heap
  r : a.r = b.r
  offsets : a.offsets = b.offsets
  cache : a.cache.Good M mode t

theorem setPriority_mode (v : Video) (isAux : Bool) (g : Grid Int) :
    (v.setPriority isAux g).mode = v.mode := by
  unfold Video.setPriority; split <;> rfl

theorem innerLoop_sim (M : Nat) (mode : VideoMode) (t : EditTable) (id : Nat) (target : Bitmap)
    (isAux : Bool) (page : Fin 32) (content : U8) (offset : Fin 256) (cs : List Cand) :
    ∀ a b, InnerRel M mode t a b →
    Sim (InnerRel M mode t) (innerLoop t id target isAux page content offset cs a)
      (IIVision.innerLoop t target isAux page content offset cs b) := by
  induction cs with
  | nil => intro a b h; exact h
  | cons c cs ih =>
    rintro ⟨av, ah, ar, ao, ac⟩ ⟨bv, bh, br, bo⟩ ⟨rfl, hmode, hheap, hperm, rfl, rfl, hcache⟩
    dsimp only at hmode hheap hperm hcache
    unfold innerLoop IIVision.innerLoop
    refine Sim.same fun _ _ => ?_
    refine Sim.same fun _ _ => ?_
    refine Sim.same fun _ _ => ?_
    dsimp only
    split
    · exact ih _ _ ⟨rfl, hmode, hheap, hperm, rfl, rfl, hcache⟩
    · refine Sim.same fun k _ => ?_
      rw [hmode]
      refine Sim.bind (Lru.call_sim hcache _ _ _ _) ?_
      rintro ⟨p, cache⟩ p' ⟨rfl, hc⟩
      refine Sim.same fun pm _ => ?_
      dsimp only at hc ⊢
      by_cases hp : p ≠ 0
      · rw [if_pos hp, if_pos hp]
        obtain ⟨h1, h2⟩ := Heapq.heappush_spec Heapq.Entry.linear ah
          (⟨((-p).toNat : Int), ar.draw.1, page, c.offset⟩ : Entry) hheap
        have hrel : InnerRel M mode t
            ⟨{ (av.setPriority isAux (Grid.set (av.priority isAux) page c.offset (p.toNat : Int)))
                with pixelmap := pm },
              Heapq.heappush Entry.lt ah ⟨((-p).toNat : Int), ar.draw.1, page, c.offset⟩,
              ar.draw.2, ao ++ [c.offset], cache⟩
            ⟨{ (av.setPriority isAux (Grid.set (av.priority isAux) page c.offset (p.toNat : Int)))
                with pixelmap := pm },
              ⟨((-p).toNat : Int), ar.draw.1, page, c.offset⟩ :: bh,
              ar.draw.2, ao ++ [c.offset]⟩ :=
          ⟨rfl, by rw [← hmode]; exact setPriority_mode .., h2, h1.trans (hperm.cons _), rfl, rfl, hc⟩
        dsimp only
        split
        · exact hrel
        · exact ih _ _ hrel
      · rw [if_neg hp, if_neg hp]
        have hrel : InnerRel M mode t
            ⟨{ (av.setPriority isAux (Grid.set (av.priority isAux) page c.offset (p.toNat : Int)))
                with pixelmap := pm }, ah, ar, ao ++ [c.offset], cache⟩
            ⟨{ (av.setPriority isAux (Grid.set (av.priority isAux) page c.offset (p.toNat : Int)))
                with pixelmap := pm }, bh, ar, ao ++ [c.offset]⟩ :=
          ⟨rfl, by rw [← hmode]; exact setPriority_mode .., hheap, hperm, rfl, rfl, hc⟩
        dsimp only
        split
        · exact hrel
        · exact ih _ _ hrel

theorem computeError_eq (C : Cls) (t : EditTable) (page : Fin 32) (content : U8)
    (target : Bitmap) (dw : Fin 256 → Int) (isAux : Bool) (r : Rng) :
    computeError C t page content target dw isAux r
      = IIVision.computeError C t page content target dw isAux r := by
  unfold computeError IIVision.computeError
  cases C.computeDeltaPage t target.packed page content dw isAux with
  | error e => rfl
  | ok delta =>
    simp only [bind, Except.bind]
    generalize Rng.mapDraw _ _ _ = q
    obtain ⟨cands, r'⟩ := q
    dsimp only
    obtain ⟨h1, h2⟩ := Heapq.heapify_spec Heapq.Cand.linear cands
    rw [h1.length_eq, Heapq.drain_eq Heapq.Cand.linear _ h2 h1]

/-- Generators that stand for each other. -/
inductive GenRel : Gen → IIVision.Gen → Prop where
  | notStarted (id : Nat) (target : Bitmap) (isAux : Bool) :
    GenRel (.notStarted id target isAux) (.notStarted target isAux)
  | running (id : Nat) (target : Bitmap) (isAux : Bool) (dw : Grid Int) {h g : List Entry}
    (heap : IsHeap Entry.lt h) (perm : h.Perm g) :
    GenRel (.running id target isAux dw h) (.running target isAux dw g)
  | padding (id : Nat) (target : Bitmap) (isAux : Bool) :
    GenRel (.padding id target isAux) (.padding target isAux)

/-- Results of `next()` that stand for each other. -/
structure NextRel (M : Nat) (mode : VideoMode) (t : EditTable)
    (a : VideoOp × Video × Rng × PairCache × Gen) (b : VideoOp × Video × Rng × IIVision.Gen) :
    Prop where
  op : a.1 = b.1
  v : a.2.1 = b.2.1
  kept : b.2.1.mode = mode
  r : a.2.2.1 = b.2.2.1
  cache : a.2.2.2.1.Good M mode t
  gen : GenRel a.2.2.2.2 b.2.2.2

theorem emitCell_sim {M : Nat} {mode : VideoMode} {t : EditTable} {v : Video} (hv : v.mode = mode) (r : Rng)
    {cache : PairCache} (hc : cache.Good M mode t) (id : Nat) (target : Bitmap) (isAux : Bool)
    (dw : Grid Int) {h g : List Entry} (hh : IsHeap Entry.lt h) (hp : h.Perm g) (page : Fin 32)
    (offset : Fin 256) :
    Sim (NextRel M mode t) (emitCell t v r cache id target isAux dw h page offset)
      (IIVision.emitCell t v r target isAux dw g page offset) := by
  unfold emitCell IIVision.emitCell
  refine Sim.same fun mem _ => Sim.same fun _ _ => Sim.same fun pm _ => ?_
  dsimp only
  rw [computeError_eq]
  refine Sim.same fun q _ => ?_
  obtain ⟨cands, r'⟩ := q
  dsimp only
  refine Sim.bind (innerLoop_sim M mode t id target isAux page _ offset cands _ _
    ⟨rfl, by rw [← hv]; exact setPriority_mode .., hh, hp, rfl, rfl, hc⟩) ?_
  rintro a b ⟨e1, e2, e3, e4, e5, e6, e7⟩
  exact ⟨by rw [e6], e1, e2, e5, e7, .running _ _ _ _ e3 e4⟩

theorem finishFrame_sim {M : Nat} {mode : VideoMode} {t : EditTable} {v : Video} (hv : v.mode = mode)
    (r : Rng) {cache : PairCache} (hc : cache.Good M mode t) (id : Nat) (target : Bitmap)
    (isAux : Bool) :
    Sim (NextRel M mode t) (finishFrame v r cache id target isAux)
      (IIVision.finishFrame v r target isAux) := by
  unfold finishFrame IIVision.finishFrame
  refine Sim.same fun op _ => ?_
  exact ⟨rfl, rfl, hv, rfl, hc, .padding ..⟩

theorem outerLoop_sim {M : Nat} {mode : VideoMode} {t : EditTable} (id : Nat) (target : Bitmap)
    (isAux : Bool) (dw : Grid Int) (n : Nat) : ∀ (v : Video) (r : Rng) (cache : PairCache)
    (h g : List Entry), v.mode = mode → cache.Good M mode t → IsHeap Entry.lt h → h.Perm g →
    Sim (NextRel M mode t) (outerLoop t id target isAux dw n v r cache h)
      (IIVision.outerLoop t target isAux dw n v r g) := by
  induction n with
  | zero =>
    intro v r cache h g hv hc _ _
    exact finishFrame_sim hv r hc id target isAux
  | succ n ih =>
    intro v r cache h g hv hc hh hp
    unfold outerLoop IIVision.outerLoop
    rcases Heapq.heappop_spec Heapq.Entry.linear hh hp with ⟨-, e1, e2⟩ | ⟨x, h', g', e1, e2, hp', hh'⟩
    · rw [e1, e2]
      exact finishFrame_sim hv r hc id target isAux
    · rw [e1, e2]
      dsimp only
      refine Sim.same fun _ _ => ?_
      split
      · exact ih _ _ _ _ _ hv hc hh' hp'
      · exact emitCell_sim hv r hc id target isAux dw hh' hp' _ _

theorem startFrame_mode {t : EditTable} {v v' : Video} {r r' : Rng} {target : Bitmap}
    {isAux : Bool} {dw : Grid Int} {heap : List Entry}
    (h : startFrame t v r target isAux = .ok (v', r', dw, heap)) : v'.mode = v.mode := by
  unfold startFrame at h
  refine bind_ok_elim h fun _ h => ?_
  refine bind_ok_elim h fun _ h => ?_
  refine bind_ok_elim h fun _ h => ?_
  refine bind_ok_elim h fun _ h => ?_
  extract_lets dw prio at h
  refine bind_ok_elim h fun _ h => ?_
  clear_value prio dw
  generalize heapifyPriorities prio r = x at h
  obtain ⟨x1, x2⟩ := x
  have q := Except.ok.inj h
  rw [← (Prod.mk.inj q).1]
  unfold Video.setPriority; split <;> rfl

theorem next_sim {M : Nat} {mode : VideoMode} {t : EditTable} {v : Video} (hv : v.mode = mode) (r : Rng)
    {cache : PairCache} (hc : cache.Good M mode t) {a : Gen} {b : IIVision.Gen} (hg : GenRel a b) :
    Sim (NextRel M mode t) (next t v r cache a) (v.next t r b) := by
  cases hg with
  | notStarted id target isAux =>
    unfold next Video.next
    refine Sim.same fun q hq => ?_
    obtain ⟨v', r', dw, heap⟩ := q
    dsimp only
    obtain ⟨h1, h2⟩ := Heapq.heapify_spec Heapq.Entry.linear heap
    rw [h1.length_eq]
    exact outerLoop_sim _ _ _ _ _ _ _ _ _ _ ((startFrame_mode hq).trans hv) hc h2 h1
  | running id target isAux dw heap perm =>
    unfold next Video.next
    dsimp only
    rw [perm.length_eq]
    exact outerLoop_sim _ _ _ _ _ _ _ _ _ _ hv hc heap perm
  | padding id target isAux =>
    unfold next Video.next
    exact Sim.same fun op _ => ⟨rfl, rfl, hv, rfl, hc, .padding ..⟩

theorem GenRel.fields {a : Gen} {b : IIVision.Gen} (h : GenRel a b) :
    a.target = b.target ∧ a.isAux = b.isAux ∧ a.isNew = b.isNew ∧ a.isPadding = b.isPadding := by
  cases h <;> exact ⟨rfl, rfl, rfl, rfl⟩

/-- Encoders that stand for each other. -/
structure EncRel (M : Nat) (mode : VideoMode) (t : EditTable) (a : Enc) (b : Spec.Enc) : Prop where
  v : a.v = b.v
  kept : b.v.mode = mode
  gen : (a.gen = none ∧ b.gen = none) ∨ ∃ g g', a.gen = some g ∧ b.gen = some g' ∧ GenRel g g'
  rng : a.rng = b.rng
  startV : a.startV = b.startV
  cache : a.cache.Good M mode t

theorem call_sim {M : Nat} {mode : VideoMode} {t : EditTable} {a : Enc} {b : Spec.Enc}
    (h : EncRel M mode t a b) (c : Nat × Spec.Call) :
    Sim (fun x y => EncRel M mode t x.1 y.1 ∧ x.2 = y.2) (a.call t c) (b.call t c.2) := by
  obtain ⟨id, c⟩ := c
  cases c with
  | start target isAux =>
    exact ⟨⟨h.v, h.kept, .inr ⟨_, _, rfl, rfl, .notStarted ..⟩, h.rng, h.startV, h.cache⟩, rfl⟩
  | reset =>
    exact ⟨⟨by rw [h.v], h.kept, h.gen, h.rng, h.startV, h.cache⟩, rfl⟩
  | pull =>
    unfold Enc.call Spec.Enc.call
    dsimp only
    rcases h.gen with ⟨e1, e2⟩ | ⟨g, g', e1, e2, hg⟩
    · rw [e1, e2]; exact rfl
    · rw [e1, e2]
      dsimp only
      obtain ⟨f1, f2, f3, -⟩ := hg.fields
      rw [h.v, h.rng]
      refine Sim.bind (next_sim h.kept _ h.cache hg) ?_
      rintro ⟨op, v, r, cache, g1⟩ ⟨op', v', r', g2⟩ ⟨q1, q2, q3, q4, q5, q6⟩
      dsimp only at q1 q2 q3 q4 q5 q6
      subst q1 q2 q4
      refine ⟨⟨rfl, q3, .inr ⟨_, _, rfl, rfl, q6⟩, rfl, ?_, q5⟩, ?_⟩
      · dsimp only; rw [f3, h.startV]
      · dsimp only
        rw [f1, f2, f3, q6.fields.2.2.2, h.startV]

theorem run_sim {M : Nat} {mode : VideoMode} {t : EditTable} (cs : List (Nat × Spec.Call)) :
    ∀ (a : Enc) (b : Spec.Enc), EncRel M mode t a b →
    Sim (fun x y => EncRel M mode t x.1 y.1 ∧ x.2 = y.2) (a.run t cs) (b.run t (cs.map (·.2))) := by
  induction cs with
  | nil => intro a b h; exact ⟨h, rfl⟩
  | cons c cs ih =>
    intro a b h
    rw [List.map_cons]
    unfold Enc.run Spec.Enc.run
    refine Sim.bind (call_sim h c) ?_
    rintro ⟨a', s⟩ ⟨b', s'⟩ ⟨h', rfl⟩
    refine Sim.bind (ih a' b' h') ?_
    rintro ⟨a'', s⟩ ⟨b'', s'⟩ ⟨h'', rfl⟩
    exact ⟨h'', rfl⟩

theorem new_mode {mode : VideoMode} {v : Video} (h : Video.new mode = .ok v) : v.mode = mode := by
  unfold Video.new at h
  cases mode <;> dsimp only at h
  · revert h
    generalize HGRBitmap.new emptyMap = x
    cases x with
    | error e => intro h; cases h
    | ok b => intro h; cases h; rfl
  · revert h
    generalize DHGRBitmap.new emptyMap emptyMap = x
    cases x with
    | error e => intro h; cases h
    | ok b => intro h; cases h; rfl

theorem runNew_sim (M : Nat) (mode : VideoMode) (t : EditTable) (tape : Nat → Nat)
    (calls : List (Nat × Spec.Call)) :
    Sim (fun x y => EncRel M mode t x.1 y.1 ∧ x.2 = y.2) (runNew M mode t tape calls)
      (Spec.runNew mode t tape (calls.map (·.2))) := by
  unfold runNew Spec.runNew Spec.Enc.init
  rw [bind_assoc]
  refine Sim.same fun v hv => ?_
  exact run_sim calls _ _ ⟨rfl, new_mode hv, .inl ⟨rfl, rfl⟩, rfl, rfl, 
    fun e he => absurd he (by simp [Lru.empty]), List.nodup_nil, Nat.zero_le _, rfl⟩

end Real
end IIVision
