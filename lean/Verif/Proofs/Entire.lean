import Verif.Spec.Entire
import Verif.Props.Disk
import Verif.Props.Plain

/-! The threads and the disk of the whole program compared with a simple loop, for any encoder that uses the frames like `Coder.next`. -/

namespace IIVision
open Spec

/-- What a resumption of the encoder returns. -/
abbrev Resumed := Except PyErr (Option (Opcode × Coder))

/-- An encoder that asks for frames like `Coder.next` and makes progress. -/
structure NextLike (M : Movie) (nx : Bool → Coder → Resumed) : Prop where
  idle : ∀ {aux c}, Coder.needsFrame M c = false → ∀ X, nx aux (c.withF X) = nextF X (nx aux (c.withF []))
  exhausted : ∀ {aux c}, Coder.needsFrame M c = true → nx aux (c.withF []) = .ok none
  frame : ∀ {aux c}, Coder.needsFrame M c = true → ∀ f X, nx aux (c.withF (f :: X)) = nextF X (nx aux (c.withF [f]))
  progress : ∀ {aux c op c'}, nx aux c = .ok (some (op, c')) → c'.left + 1 = c.left

/-- The invariant that relates the threads to the loop. -/
structure WInv (M : Movie) (nx : Bool → Coder → Resumed) (G : Grabber) (fs : FS) (T : List Nat × Ending) (s : Prog) : Prop where
  ginv : GInv G fs s.g
  unstarted : s.started = false → s.g = G.start fs
  loop : s.main = .running ∨ s.main = .asking → ∃ r, s.coder.left < r ∧
    T = (s.out ++ (follow M nx (wholeVideo G fs).2 r (s.coder.withF ((wholeVideo G fs).1.drop s.g.out.length)) s.pos s.aux).1,
      (follow M nx (wholeVideo G fs).2 r (s.coder.withF ((wholeVideo G fs).1.drop s.g.out.length)) s.pos s.aux).2)
  run : s.main = .running → s.started = true → s.g.consumer = .yielded
  ask : s.main = .asking → s.started = true ∧ s.coder.needsFrame M = true ∧ (s.g.consumer = .get ∨ s.g.consumer = .join)
  fin : s.main = .finished → T = (s.out, .complete)
  raised : ∀ e, s.main = .raised e → T = (s.out, .raised e)

/-- One resumption of the encoder. -/
theorem follow_resume {M : Movie} {nx : Bool → Coder → Resumed} (hx : NextLike M nx) {o : Outcome} {r : Nat} {X Y fr : List Frame} {s : Prog} (hr : s.coder.left < r)
    (hnext : nx s.aux (s.coder.withF X) = nextF Y (nx s.aux (s.coder.withF fr)))
    (ho : (if s.coder.needsFrame M = true ∧ X = [] then o else .ends) = .ends) {T : List Nat × Ending}
    (hT : T = (s.out ++ (follow M nx o r (s.coder.withF X) s.pos s.aux).1, (follow M nx o r (s.coder.withF X) s.pos s.aux).2)) :
    ((s.resumeW M nx fr).main = .finished ∧ T = ((s.resumeW M nx fr).out, .complete)) ∨
    (∃ e, (s.resumeW M nx fr).main = .raised e ∧ T = ((s.resumeW M nx fr).out, .raised e)) ∨
    ((s.resumeW M nx fr).main = .running ∧ (∃ r', (s.resumeW M nx fr).coder.left < r' ∧
      T = ((s.resumeW M nx fr).out ++ (follow M nx o r' ((s.resumeW M nx fr).coder.withF Y) (s.resumeW M nx fr).pos (s.resumeW M nx fr).aux).1,
        (follow M nx o r' ((s.resumeW M nx fr).coder.withF Y) (s.resumeW M nx fr).pos (s.resumeW M nx fr).aux).2))) := by
  obtain ⟨r, rfl⟩ : ∃ k, r = k + 1 := ⟨r - 1, by omega⟩
  have hp : follow M nx o (r + 1) (s.coder.withF X) s.pos s.aux =
      match nx s.aux (s.coder.withF X) with
      | .error e => ([], .raised e)
      | .ok none => ((M.done s.pos).2, .complete)
      | .ok (some (op, c)) =>
        if M.atLimit s.pos then ((M.done s.pos).2, .complete)
        else
          match M.ackIfDue (s.pos + (op.emit M.addr).length) s.aux with
          | .error e => (op.emit M.addr, .raised e)
          | .ok (_, b, pos, aux) =>
            let r := follow M nx o r c pos aux
            (op.emit M.addr ++ b ++ r.1, r.2) := by
    rw [follow]
    rw [show (if (s.coder.withF X).needsFrame M = true ∧ (s.coder.withF X).frames = [] then o else Outcome.ends) = .ends from ho]
    rfl
  rw [hp, hnext] at hT
  unfold Prog.resumeW
  rw [show ({ s.coder with frames := fr } : Coder) = s.coder.withF fr from rfl]
  cases hn : nx s.aux (s.coder.withF fr) with
  | error e =>
    rw [hn] at hT
    simp only [nextF, List.append_nil] at hT
    exact .inr (.inl ⟨e, rfl, hT⟩)
  | ok oc =>
    rw [hn] at hT
    cases oc with
    | none => exact .inl ⟨rfl, hT⟩
    | some oc =>
      obtain ⟨op, c'⟩ := oc
      simp only [nextF] at hT ⊢
      have q1 := hx.progress hn
      have hleft : (s.coder.withF fr).left = s.coder.left := rfl
      by_cases hl : M.atLimit s.pos = true
      · rw [if_pos hl] at hT ⊢
        exact .inl ⟨rfl, hT⟩
      · rw [if_neg hl] at hT ⊢
        cases ha : M.ackIfDue (s.pos + (op.emit M.addr).length) s.aux with
        | error e =>
          rw [ha] at hT
          exact .inr (.inl ⟨e, rfl, hT⟩)
        | ok v =>
          obtain ⟨ops1, b1, pos1, aux1⟩ := v
          rw [ha] at hT
          refine .inr (.inr ⟨rfl, r, by simp only; omega, ?_⟩)
          simp only at hT ⊢
          rw [hT]
          simp only [List.append_assoc]

theorem resumeW_same (M : Movie) (nx : Bool → Coder → Resumed) (s : Prog) (fr : List Frame) : (s.resumeW M nx fr).g = s.g ∧ (s.resumeW M nx fr).started = s.started := by
  unfold Prog.resumeW
  split
  · exact ⟨rfl, rfl⟩
  · exact ⟨rfl, rfl⟩
  · split
    · exact ⟨rfl, rfl⟩
    · simp only
      split <;> exact ⟨rfl, rfl⟩

theorem winv_resume {M : Movie} {nx : Bool → Coder → Resumed} (hx : NextLike M nx) {G : Grabber} {fs : FS} {T : List Nat × Ending} {s : Prog} {r : Nat} {X fr : List Frame}
    (hg : GInv G fs s.g) (hu : s.started = false → s.g = G.start fs)
    (hy : s.started = true → s.g.consumer = .yielded ∨ (s.resumeW M nx fr).main = .finished) (hr : s.coder.left < r)
    (hnext : nx s.aux (s.coder.withF X) =
      nextF ((wholeVideo G fs).1.drop s.g.out.length) (nx s.aux (s.coder.withF fr)))
    (ho : (if s.coder.needsFrame M = true ∧ X = [] then (wholeVideo G fs).2 else .ends) = .ends)
    (hT : T = (s.out ++ (follow M nx (wholeVideo G fs).2 r (s.coder.withF X) s.pos s.aux).1,
      (follow M nx (wholeVideo G fs).2 r (s.coder.withF X) s.pos s.aux).2)) : WInv M nx G fs T (s.resumeW M nx fr) := by
  obtain ⟨g1, g2⟩ := resumeW_same M nx s fr
  rcases follow_resume hx hr hnext ho hT with ⟨a1, a2⟩ | ⟨e, a1, a2⟩ | ⟨a1, a2⟩
  · refine ⟨by rw [g1]; exact hg, by rw [g1, g2]; exact hu, ?_, ?_, ?_, fun _ => a2, ?_⟩
    · rw [a1]; rintro (h | h) <;> cases h
    all_goals rw [a1]; intros; contradiction
  · refine ⟨by rw [g1]; exact hg, by rw [g1, g2]; exact hu, ?_, ?_, ?_, ?_, ?_⟩
    · rw [a1]; rintro (h | h) <;> cases h
    · rw [a1]; intro h; cases h
    · rw [a1]; intro h; cases h
    · rw [a1]; intro h; cases h
    · rw [a1]; intro e' h; cases h; exact a2
  · refine ⟨by rw [g1]; exact hg, by rw [g1, g2]; exact hu, ?_, ?_, ?_, ?_, ?_⟩
    · intro _; rw [g1]; exact a2
    · intro _ hst
      rw [g2] at hst
      rw [g1]
      rcases hy hst with h | h
      · exact h
      · rw [a1] at h; cases h
    · rw [a1]; intro h; cases h
    · rw [a1]; intro h; cases h
    · rw [a1]; intro e' h; cases h

theorem winv_worker {M : Movie} {nx : Bool → Coder → Resumed} {G : Grabber} {fs : FS} {T : List Nat × Ending} {s t : Prog}
    (h : WInv M nx G fs T s) (hs : s.workerStep G = some t) : WInv M nx G fs T t := by
  unfold Prog.workerStep at hs
  split at hs
  · rename_i hst
    cases hw : G.workerStep s.g with
    | none => rw [hw] at hs; cases hs
    | some g =>
      rw [hw] at hs
      cases hs
      obtain ⟨o1, o2⟩ := worker_out hw
      refine ⟨h.ginv.worker hw, fun hn => ?_, ?_, ?_, ?_, h.fin, h.raised⟩
      · simp only at hn; rw [hst] at hn; cases hn
      · simp only; rw [o1]; exact h.loop
      · simp only; rw [o2]; exact h.run
      · simp only; rw [o2]; exact h.ask
  · cases hs

/-- When all frames there are have been used and one more is asked for. -/
theorem follow_missing {M : Movie} {nx : Bool → Coder → Resumed} (hx : NextLike M nx) {o : Outcome} {r : Nat} {c : Coder} {pos : Nat} {aux : Bool} (hr : c.left < r) (hn : c.needsFrame M = true) :
    follow M nx o r (c.withF []) pos aux =
      match o with
      | .raises e => ([], .raised e)
      | .hangs _ => ([], .waiting)
      | .ends => ((M.done pos).2, .complete) := by
  obtain ⟨r, rfl⟩ : ∃ k, r = k + 1 := ⟨r - 1, by omega⟩
  rw [follow, if_pos ⟨hn, rfl⟩]
  cases o with
  | raises e => rfl
  | hangs e => rfl
  | ends => simp only; rw [hx.exhausted hn]

theorem winv_main {M : Movie} {nx : Bool → Coder → Resumed} (hx : NextLike M nx) {G : Grabber} {fs : FS} {T : List Nat × Ending} {s t : Prog}
    (h : WInv M nx G fs T s) (hs : s.mainStepW M nx = some t) : WInv M nx G fs T t := by
  unfold Prog.mainStepW at hs
  cases hm : s.main with
  | running =>
    rw [hm] at hs
    simp only at hs
    obtain ⟨r, l1, l2⟩ := h.loop (.inl hm)
    cases hn : s.coder.needsFrame M with
    | true =>
      rw [hn, if_pos rfl] at hs
      cases hst : s.started with
      | true =>
        rw [hst, if_pos rfl] at hs
        cases hc : s.g.consumerStep with
        | none => rw [hc] at hs; cases hs
        | some g =>
          rw [hc] at hs
          cases hs
          have hy := h.run hm hst
          rcases consumer_cases h.ginv hc with ⟨c1, c2, c3⟩ | ⟨c1, -⟩ | ⟨c1, -⟩ | ⟨c1, -⟩ | ⟨c1, -⟩
          · refine ⟨h.ginv.consumerStep hc, ?_, ?_, ?_, ?_, ?_, ?_⟩
            · intro hn'; cases hn'
            · intro _; simp only; rw [c3]; exact ⟨r, l1, l2⟩
            · intro hh; cases hh
            · intro _; exact ⟨rfl, hn, .inl c2⟩
            · intro hh; cases hh
            · intro e hh; cases hh
          all_goals rw [hy] at c1; cases c1
      | false =>
        rw [hst, if_neg (by decide)] at hs
        cases hs
        have hg0 := h.unstarted hst
        refine ⟨h.ginv, ?_, ?_, ?_, ?_, ?_, ?_⟩
        · intro hn'; cases hn'
        · intro _; exact ⟨r, l1, l2⟩
        · intro hh; cases hh
        · intro _; refine ⟨rfl, hn, .inl ?_⟩; simp only; rw [hg0]; rfl
        · intro hh; cases hh
        · intro e hh; cases hh
    | false =>
      rw [hn, if_neg (by decide)] at hs
      cases hs
      refine winv_resume hx h.ginv h.unstarted (fun hst => .inl (h.run hm hst)) l1 (hx.idle hn _) ?_ l2
      rw [hn]; simp
  | asking =>
    rw [hm] at hs
    simp only at hs
    obtain ⟨r, l1, l2⟩ := h.loop (.inr hm)
    obtain ⟨hst, hn, hcons⟩ := h.ask hm
    cases hc : s.g.consumerStep with
    | none => rw [hc] at hs; cases hs
    | some g =>
      rw [hc] at hs
      have hgi := h.ginv.consumerStep hc
      rcases consumer_cases h.ginv hc with ⟨c1, -⟩ | ⟨c1, c2, c3⟩ | ⟨c1, c2, f, c3⟩ | ⟨c1, ⟨e, c2⟩, c3⟩ | ⟨c1, c2, c3⟩
      · rw [c1] at hcons; rcases hcons with hh | hh <;> cases hh
      · -- the sentinel has been found
        simp only [c2] at hs
        cases hs
        refine ⟨hgi, ?_, ?_, ?_, ?_, ?_, ?_⟩
        · intro hn'; first | cases hn' | cases hst.symm.trans hn'
        · intro _; simp only; rw [c3]; exact ⟨r, l1, l2⟩
        · intro hh; cases hh
        · intro _; exact ⟨hst, hn, .inr c2⟩
        · intro hh; cases hh
        · intro e hh; cases hh
      · -- a frame
        simp only [c2] at hs
        cases hs
        have hl : g.out.getLast?.toList = [f] := by rw [c3]; simp
        rw [hl]
        have hp := ginv_prefix hgi
        have hd : (wholeVideo G fs).1.drop s.g.out.length = f :: (wholeVideo G fs).1.drop g.out.length := by
          obtain ⟨tl, htl⟩ := hp
          rw [← htl, c3]
          simp
        rw [hd] at l2
        refine winv_resume hx (s := { s with g := g }) (X := f :: (wholeVideo G fs).1.drop g.out.length) hgi ?_ (fun _ => .inl c2) l1 (hx.frame hn f _) ?_ l2
        · intro hn'; first | cases hn' | cases hst.symm.trans hn'
        · simp
      · -- a frame that cannot be used
        simp only [c2] at hs
        cases hs
        have hw := hgi.raised e c2
        have ho : s.g.out = (wholeVideo G fs).1 := by rw [← c3]; exact congrArg Prod.fst hw
        rw [ho, List.drop_length, follow_missing hx l1 hn, show (wholeVideo G fs).2 = .raises e from (congrArg Prod.snd hw).symm] at l2
        refine ⟨hgi, ?_, ?_, ?_, ?_, ?_, ?_⟩
        · intro hn'; first | cases hn' | cases hst.symm.trans hn'
        · rintro (hh | hh) <;> cases hh
        · intro hh; cases hh
        · intro hh; cases hh
        · intro hh; cases hh
        · intro e' hh
          simp only at hh
          cases hh
          rw [l2, List.append_nil]
      · -- the end
        simp only [c2] at hs
        cases hs
        have hw := (hgi.over (.inr c2)).1
        have ho : s.g.out = (wholeVideo G fs).1 := by rw [← c3]; exact congrArg Prod.fst hw
        have hfin : (Prog.resumeW M nx { s with g := g } []).main = .finished := by
          unfold Prog.resumeW
          rw [show nx s.aux { s.coder with frames := [] } = .ok none from hx.exhausted hn]
        rw [ho, List.drop_length] at l2
        have hen : (wholeVideo G fs).2 = .ends := (congrArg Prod.snd hw).symm
        refine winv_resume hx (s := { s with g := g }) (X := []) hgi ?_ (fun _ => .inr hfin) l1 ?_ ?_ l2
        · intro hn'; first | cases hn' | cases hst.symm.trans hn'
        · simp only
          rw [hx.exhausted hn]; rfl
        · rw [hen]; simp
  | finished => rw [hm] at hs; cases hs
  | raised e => rw [hm] at hs; cases hs

theorem resumeW_weight {M : Movie} {nx : Bool → Coder → Resumed} (hx : NextLike M nx) {s : Prog} {fr : List Frame} (h : s.main.weight = 1) :
    (s.resumeW M nx fr).g = s.g ∧ (s.resumeW M nx fr).started = s.started ∧
    (s.resumeW M nx fr).coder.left + (s.resumeW M nx fr).main.weight < s.coder.left + s.main.weight := by
  unfold Prog.resumeW
  cases hn : nx s.aux { s.coder with frames := fr } with
  | error e => refine ⟨rfl, rfl, ?_⟩; rw [h]; exact Nat.lt_succ_self _
  | ok o =>
    cases o with
    | none => refine ⟨rfl, rfl, ?_⟩; rw [h]; exact Nat.lt_succ_self _
    | some oc =>
      obtain ⟨op, c'⟩ := oc
      have q1 := hx.progress hn
      have : ({ s.coder with frames := fr } : Coder).left = s.coder.left := rfl
      simp only
      split
      · refine ⟨rfl, rfl, ?_⟩; rw [h]; exact Nat.lt_succ_self _
      · split
        · refine ⟨rfl, rfl, ?_⟩; rw [h]; exact Nat.lt_succ_self _
        · refine ⟨rfl, rfl, ?_⟩; rw [h]; simp only [MainStatus.weight]; omega

theorem main_stepW_weight {M : Movie} {nx : Bool → Coder → Resumed} (hx : NextLike M nx) {G : Grabber} {s t : Prog} (hs : s.mainStepW M nx = some t) : t.weight < s.weight := by
  unfold Prog.mainStepW at hs
  cases hm : s.main with
  | running =>
    rw [hm] at hs
    simp only at hs
    split at hs
    · split at hs
      · cases hc : s.g.consumerStep with
        | none => rw [hc] at hs; cases hs
        | some g =>
          rw [hc] at hs; cases hs
          have := step_weight (G := G) (.consumer hc)
          unfold Prog.weight; simp only [hm, MainStatus.weight]; omega
      · rename_i hst
        cases hs
        unfold Prog.weight; simp only [hm, MainStatus.weight, hst, if_true]; simp
    · cases hs
      obtain ⟨a1, a2, a3⟩ := resumeW_weight hx (s := s) (fr := []) (by rw [hm]; rfl)
      unfold Prog.weight; rw [a1, a2]; omega
  | asking =>
    rw [hm] at hs
    simp only at hs
    cases hc : s.g.consumerStep with
    | none => rw [hc] at hs; cases hs
    | some g =>
      rw [hc] at hs
      have hw := step_weight (G := G) (.consumer hc)
      simp only at hs
      split at hs
      · cases hs
        obtain ⟨a1, a2, a3⟩ := resumeW_weight hx (s := { s with g := g, main := .asking }) (fr := g.out.getLast?.toList) rfl
        unfold Prog.weight; rw [a1, a2, hm]; simp only [MainStatus.weight] at a3 ⊢; omega
      · cases hs
        obtain ⟨a1, a2, a3⟩ := resumeW_weight hx (s := { s with g := g, main := .asking }) (fr := []) rfl
        unfold Prog.weight; rw [a1, a2, hm]; simp only [MainStatus.weight] at a3 ⊢; omega
      · cases hs; unfold Prog.weight; simp only [hm, MainStatus.weight]; omega
      · cases hs; unfold Prog.weight; simp only [hm]; omega
  | finished => rw [hm] at hs; cases hs
  | raised e => rw [hm] at hs; cases hs

theorem resumeW_onDisk (M : Movie) (nx : Bool → Coder → Resumed) (s : Prog) (F : List Frame) (f : FS) : (s.onDisk f).resumeW M nx F = (s.resumeW M nx F).onDisk f := by
  unfold Prog.resumeW
  show (match nx s.aux { s.coder with frames := F } with | .error e => _ | .ok none => _ | .ok (some (op, c)) => _) = _
  cases nx s.aux { s.coder with frames := F } with
  | error e => rfl
  | ok r =>
    cases r with
    | none => rfl
    | some r =>
      obtain ⟨op, c⟩ := r
      simp only
      show (if M.atLimit s.pos = true then _ else _) = _
      by_cases hl : M.atLimit s.pos = true
      · rw [if_pos hl, if_pos hl]; rfl
      · rw [if_neg hl, if_neg hl]
        show (match M.ackIfDue (s.pos + (op.emit M.addr).length) s.aux with | .error e => _ | .ok (_, b1, pos, aux) => _) = _
        cases M.ackIfDue (s.pos + (op.emit M.addr).length) s.aux <;> rfl

theorem resumeW_disk (M : Movie) (nx : Bool → Coder → Resumed) (s : Prog) (F : List Frame) : (s.resumeW M nx F).disk = s.disk := by
  have h := resumeW_onDisk M nx s F s.disk
  have h0 : s.onDisk s.disk = s := rfl
  rw [h0] at h
  rw [h]; rfl

theorem mainW_onDisk (M : Movie) (nx : Bool → Coder → Resumed) (s : Prog) (f : FS) : (s.onDisk f).mainStepW M nx = (s.mainStepW M nx).map fun t => t.onDisk f := by
  obtain ⟨g0, started, main, coder, pos, aux, out⟩ := s
  unfold Prog.mainStepW
  cases main with
  | running =>
    by_cases h1 : coder.needsFrame M = true
    · simp only [Prog.onDisk, h1, if_true]
      cases started with
      | true =>
        simp only [if_true]
        rw [consumer_fs g0 f]
        cases g0.consumerStep <;> rfl
      | false => rfl
    · simp only [Prog.onDisk, h1, Bool.false_eq_true, if_false, Option.map_some]
      congr 1
      exact resumeW_onDisk M nx ⟨g0, started, .running, coder, pos, aux, out⟩ [] f
  | asking =>
    simp only [Prog.onDisk]
    rw [consumer_fs g0 f]
    cases hc : g0.consumerStep with
    | none => rfl
    | some g =>
      obtain ⟨gf, gw, gq, gc, go⟩ := g
      simp only [Option.map_some]
      cases gc with
      | yielded =>
        simp only [Option.map_some]
        congr 1
        exact resumeW_onDisk M nx ⟨⟨gf, gw, gq, .yielded, go⟩, started, .asking, coder, pos, aux, out⟩ _ f
      | finished =>
        simp only [Option.map_some]
        congr 1
        exact resumeW_onDisk M nx ⟨⟨gf, gw, gq, .finished, go⟩, started, .asking, coder, pos, aux, out⟩ _ f
      | _ => rfl
  | finished => rfl
  | raised e => rfl

theorem mainW_disk {M : Movie} {nx : Bool → Coder → Resumed} {s t : Prog} (h : s.mainStepW M nx = some t) : t.disk = s.disk := by
  have h1 := mainW_onDisk M nx s s.disk
  have h0 : s.onDisk s.disk = s := rfl
  rw [h0, h] at h1
  have := Option.some.inj h1
  rw [this]; rfl

theorem resumeW_out {M : Movie} {nx : Bool → Coder → Resumed} (ha : ∀ c, M.addr c < 65536) (s : Prog) (F : List Frame) :
    ∃ b, (s.resumeW M nx F).out = s.out ++ b ∧ ∀ x ∈ b, x < 256 := by
  unfold Prog.resumeW
  split
  · exact ⟨[], by simp, by simp⟩
  · exact ⟨_, rfl, done_small ha _⟩
  · rename_i op c _
    split
    · exact ⟨_, rfl, done_small ha _⟩
    · simp only
      split
      · exact ⟨_, rfl, emit_small ha op⟩
      · rename_i b1 pos aux h
        refine ⟨op.emit M.addr ++ b1, by simp, ?_⟩
        intro x hx
        rcases List.mem_append.1 hx with hx | hx
        · exact emit_small ha op x hx
        · unfold Movie.ackIfDue at h
          split at h
          · simp only [bind, Except.bind, pyAssert] at h
            split at h
            · cases h
            · cases h; exact emit_small ha _ x hx
          · cases h; cases hx

theorem mainW_out {M : Movie} {nx : Bool → Coder → Resumed} (ha : ∀ c, M.addr c < 65536) {s t : Prog} (h : s.mainStepW M nx = some t) :
    ∃ b, t.out = s.out ++ b ∧ ∀ x ∈ b, x < 256 := by
  have same : ∀ t : Prog, t.out = s.out → ∃ b, t.out = s.out ++ b ∧ ∀ x ∈ b, x < 256 := fun t h => ⟨[], by simp [h], by simp⟩
  unfold Prog.mainStepW at h
  split at h
  · split at h
    · split at h
      · split at h
        · cases h; exact same _ rfl
        · cases h
      · cases h; exact same _ rfl
    · cases h; exact resumeW_out ha s _
  · split at h
    · cases h
    · rename_i g hg
      split at h
      · cases h; exact resumeW_out ha { s with g } _
      · cases h; exact resumeW_out ha { s with g } _
      · cases h; exact same _ rfl
      · cases h; exact same _ rfl
  · cases h
  · cases h

theorem mainW_worker {M : Movie} {nx : Bool → Coder → Resumed} {s t : Prog} (h : s.mainStepW M nx = some t) : t.g.worker = s.g.worker := by
  unfold Prog.mainStepW at h
  split at h
  · split at h
    · split at h
      · split at h
        · rename_i g hg
          cases h; exact consumer_worker hg
        · cases h
      · cases h; rfl
    · cases h; rw [(resumeW_same M nx s _).1]
  · split at h
    · cases h
    · rename_i g hg
      split at h
      · cases h; rw [(resumeW_same M nx { s with g } _).1]; exact consumer_worker hg
      · cases h; rw [(resumeW_same M nx { s with g } _).1]; exact consumer_worker hg
      · cases h; exact consumer_worker hg
      · cases h; exact consumer_worker hg
  · cases h
  · cases h

theorem tickOpT_withF (load : Except PyErr EditTable) (c : Coder) (au : Int) (X : List Frame) :
    Coder.tickOpT load (c.withF X) au = (Coder.tickOpT load c au).map fun r => (r.1, r.2.withF X) := by
  unfold Coder.tickOpT
  rw [show (c.withF X).gen = c.gen from rfl, show (c.withF X).v = c.v from rfl,
    show (c.withF X).rng = c.rng from rfl]
  cases c.gen with
  | none => rfl
  | some g =>
    simp only
    cases c.v.nextT load c.rng g with
    | error e => rfl
    | ok r =>
      obtain ⟨op, v, rng, g⟩ := r
      simp only [bind, Except.bind]
      cases tickOpcodes (au * 2 + 34) op.page with
      | error e => rfl
      | ok tp =>
        simp only
        cases Opcode.newTick tp.1 tp.2 op.content op.offsets with
        | error e => rfl
        | ok o => rfl

/-- What follows the fetching of a frame. -/
def Coder.restT (load : Except PyErr EditTable) (aux : Bool) (au : Int) (c : Coder) : Except PyErr (Option (Opcode × Coder)) := do
  let c ← c.flip aux
  let r ← c.tickOpT load au
  return some r

theorem restT_withF (load : Except PyErr EditTable) (aux : Bool) (au : Int) (c : Coder) (X : List Frame) :
    Coder.restT load aux au (c.withF X) = nextF X (Coder.restT load aux au c) := by
  unfold Coder.restT
  rw [flip_withF]
  cases Coder.flip aux c with
  | error e => rfl
  | ok c1 =>
    simp only [Except.map, bind, Except.bind]
    rw [tickOpT_withF]
    cases Coder.tickOpT load c1 au with
    | error e => rfl
    | ok r => rfl

theorem iterT_eq (M : Movie) (load : Except PyErr EditTable) (aux : Bool) (c : Coder) (au : Int) :
    Coder.iterT M load aux c au = (Coder.fetch M aux { c with ticks := c.ticks + 1 } >>= fun r =>
      match r with
      | none => .ok none
      | some c => Coder.restT load aux au c) := by
  unfold Coder.iterT
  refine bind_congr fun r => ?_
  cases r <;> rfl

theorem restT_same {load : Except PyErr EditTable} {aux : Bool} {c c' : Coder} {au : Int} {op : Opcode}
    (h : Coder.restT load aux au c = .ok (some (op, c'))) : SameInput c c' := by
  unfold Coder.restT at h
  cases hf : Coder.flip aux c with
  | error e => rw [hf] at h; cases h
  | ok c1 =>
    rw [hf, Except.bind_ok] at h
    have h1 : SameInput c c1 := by
      unfold Coder.flip at hf
      split at hf
      · cases ht : c.target with
        | none => rw [ht] at hf; cases hf
        | some T => rw [ht] at hf; cases hf; exact ⟨rfl, rfl, rfl, rfl⟩
      · cases hf; exact ⟨rfl, rfl, rfl, rfl⟩
    cases ht : Coder.tickOpT load c1 au with
    | error e => rw [ht] at h; cases h
    | ok r =>
      rw [ht, Except.bind_ok] at h
      have hr : r = (op, c') := by
        have := Except.ok.inj h
        exact Option.some.inj this
      subst hr
      have h2 : SameInput c1 c' := by
        unfold Coder.tickOpT at ht
        cases hg : c1.gen with
        | none => rw [hg] at ht; cases ht
        | some g =>
          rw [hg] at ht
          simp only at ht
          cases hn : c1.v.nextT load c1.rng g with
          | error e => rw [hn] at ht; cases ht
          | ok r =>
            obtain ⟨o, v, rng, g'⟩ := r
            rw [hn, Except.bind_ok] at ht
            simp only at ht
            cases htp : tickOpcodes (au * 2 + 34) o.page with
            | error e => rw [htp] at ht; cases ht
            | ok tp =>
              rw [htp, Except.bind_ok] at ht
              cases hnt : Opcode.newTick tp.1 tp.2 o.content o.offsets with
              | error e => simp [hnt, bind, Except.bind] at ht
              | ok oo =>
                simp [hnt, bind, Except.bind, pure, Except.pure] at ht
                obtain ⟨-, rfl⟩ := ht
                exact ⟨rfl, rfl, rfl, rfl⟩
      obtain ⟨a1, a2, a3, a4⟩ := h1
      obtain ⟨b1, b2, b3, b4⟩ := h2
      exact ⟨b1.trans a1, b2.trans a2, b3.trans a3, b4.trans a4⟩

theorem nextT_cons {M : Movie} {load : Except PyErr EditTable} {aux : Bool} {c : Coder} {au : Int} {rest : List Int} (hp : c.phase ≠ .new)
    (ha : c.audio = au :: rest) : Coder.nextT M load aux c = Coder.iterT M load aux (c.entered aux rest) au := by
  obtain ⟨ph, audio, frames, ticks, fn, v, rng, gen, target, lb⟩ := c
  simp only at ha hp
  subst ha
  cases ph with
  | new => exact absurd rfl hp
  | header => rfl
  | loop => rfl

theorem nextT_nil {M : Movie} {load : Except PyErr EditTable} {aux : Bool} {c : Coder} (hp : c.phase ≠ .new)
    (ha : c.audio = []) : Coder.nextT M load aux c = .ok none := by
  obtain ⟨ph, audio, frames, ticks, fn, v, rng, gen, target, lb⟩ := c
  simp only at ha hp
  subst ha
  cases ph with
  | new => exact absurd rfl hp
  | header => rfl
  | loop => rfl

/-- Nothing is asked of the frames. -/
theorem nextT_idle {M : Movie} {load : Except PyErr EditTable} {aux : Bool} {c : Coder} (h : c.needsFrame M = false) (X : List Frame) :
    Coder.nextT M load aux (c.withF X) = nextF X (Coder.nextT M load aux (c.withF [])) := by
  rcases no_needs_cases h with hp | ⟨hp, ha⟩ | ⟨hp, ⟨au, rest, ha⟩, ht⟩
  · obtain ⟨ph, audio, frames, ticks, fn, v, rng, gen, target, lb⟩ := c
    simp only at hp
    subst hp
    rfl
  · rw [nextT_nil (c := c.withF X) hp ha, nextT_nil (c := c.withF []) hp ha]; rfl
  · rw [nextT_cons (c := c.withF X) hp ha, nextT_cons (c := c.withF []) hp ha, iterT_eq, iterT_eq, entered_withF, entered_withF]
    have hf : ∀ Y, Coder.fetch M aux { (c.entered aux rest).withF Y with ticks := ((c.entered aux rest).withF Y).ticks + 1 } =
        .ok (some ({ (c.entered aux rest) with ticks := (c.entered aux rest).ticks + 1 }.withF Y)) := by
      intro Y
      unfold Coder.fetch
      rw [if_neg]
      · rfl
      · show ¬ M.thr (c.entered aux rest).frameNumber ≤ (c.entered aux rest).ticks + 1
        rw [entered_number, entered_ticks]; exact ht
    rw [hf, hf, Except.bind_ok, Except.bind_ok]
    simp only
    rw [restT_withF, restT_withF]
    cases Coder.restT load aux au { (c.entered aux rest) with ticks := (c.entered aux rest).ticks + 1 } with
    | error e => rfl
    | ok r => cases r <;> rfl

/-- A frame is due but there is none. -/
theorem nextT_exhausted {M : Movie} {load : Except PyErr EditTable} {aux : Bool} {c : Coder} (h : c.needsFrame M = true) :
    Coder.nextT M load aux (c.withF []) = .ok none := by
  obtain ⟨hp, ⟨au, rest, ha⟩, ht⟩ := needs_cases h
  rw [nextT_cons (c := c.withF []) hp ha, iterT_eq, entered_withF]
  have hf : Coder.fetch M aux { (c.entered aux rest).withF [] with ticks := ((c.entered aux rest).withF []).ticks + 1 } = .ok none := by
    unfold Coder.fetch
    rw [if_pos]
    · rfl
    · show M.thr (c.entered aux rest).frameNumber ≤ (c.entered aux rest).ticks + 1
      rw [entered_number, entered_ticks]; exact ht
  rw [hf]
  rfl

/-- A frame is due and taken. -/
theorem nextT_frame {M : Movie} {load : Except PyErr EditTable} {aux : Bool} {c : Coder} (h : c.needsFrame M = true) (f : Frame) (X : List Frame) :
    Coder.nextT M load aux (c.withF (f :: X)) = nextF X (Coder.nextT M load aux (c.withF [f])) := by
  obtain ⟨hp, ⟨au, rest, ha⟩, ht⟩ := needs_cases h
  rw [nextT_cons (c := c.withF (f :: X)) hp ha, nextT_cons (c := c.withF [f]) hp ha, iterT_eq, iterT_eq,
    entered_withF, entered_withF]
  have hf : ∀ Y, Coder.fetch M aux { (c.entered aux rest).withF (f :: Y) with
        ticks := ((c.entered aux rest).withF (f :: Y)).ticks + 1 } =
      (Coder.newFrame M aux { (c.entered aux rest) with
        ticks := (c.entered aux rest).ticks + 1, frameNumber := (c.entered aux rest).frameNumber + 1 } f).map
          fun c => some (c.withF Y) := by
    intro Y
    unfold Coder.fetch
    rw [if_pos]
    · show (Coder.newFrame M aux (Coder.withF Y { (c.entered aux rest) with
        ticks := (c.entered aux rest).ticks + 1, frameNumber := (c.entered aux rest).frameNumber + 1 }) f >>= fun c => .ok (some c)) = _
      rw [newFrame_withF]
      cases Coder.newFrame M aux _ f <;> rfl
    · show M.thr (c.entered aux rest).frameNumber ≤ (c.entered aux rest).ticks + 1
      rw [entered_number, entered_ticks]; exact ht
  rw [hf, hf]
  cases Coder.newFrame M aux _ f with
  | error e => rfl
  | ok c1 =>
    simp only [Except.map, bind, Except.bind]
    rw [restT_withF, restT_withF]
    cases Coder.restT load aux au c1 with
    | error e => rfl
    | ok r => cases r <;> rfl

/-- Progress of the encoder. -/
theorem nextT_progress {M : Movie} {load : Except PyErr EditTable} {aux : Bool} {c c' : Coder} {op : Opcode}
    (h : Coder.nextT M load aux c = .ok (some (op, c'))) :
    c'.left + 1 = c.left ∧ c'.frameNumber = c.frameNumber + (if c.needsFrame M then 1 else 0) := by
  by_cases hp : c.phase = .new
  · have hn : c.needsFrame M = false := by unfold Coder.needsFrame; rw [hp]
    obtain ⟨ph, audio, frames, ticks, fn, v, rng, gen, target, lb⟩ := c
    simp only at hp
    subst hp
    unfold Coder.nextT at h
    simp only at h
    cases h
    rw [hn]
    simp [Coder.left]
    omega
  · cases ha : c.audio with
    | nil => rw [nextT_nil hp ha] at h; cases h
    | cons au rest =>
      rw [nextT_cons hp ha, iterT_eq] at h
      have e1 : (c.entered aux rest).phase ≠ .new := by
        unfold Coder.entered
        split
        · intro h; cases h
        · exact hp
      have e2 : (c.entered aux rest).audio = rest := rfl
      have hl : c.left = rest.length + 1 := by unfold Coder.left; rw [if_neg hp, ha]; simp
      unfold Coder.fetch at h
      simp only [entered_number, entered_ticks] at h
      by_cases ht : M.thr c.frameNumber ≤ c.ticks + 1
      · have hn : c.needsFrame M = true := by
          unfold Coder.needsFrame
          split
          · rename_i h1; exact absurd h1 hp
          · rw [ha]; simpa using ht
        rw [if_pos ht] at h
        cases hf : (c.entered aux rest).frames with
        | nil => rw [hf] at h; cases h
        | cons f fs =>
          rw [hf] at h
          simp only at h
          cases hnf : Coder.newFrame M aux { (c.entered aux rest) with
              ticks := c.ticks + 1, frameNumber := c.frameNumber + 1, frames := fs } f with
          | error e => rw [hnf] at h; cases h
          | ok c1 =>
            rw [hnf] at h
            obtain ⟨a1, a2, a3, a4⟩ := newFrame_same hnf
            obtain ⟨b1, b2, b3, b4⟩ := restT_same (c := c1) h
            rw [hn, b4, a4]
            refine ⟨?_, by simp⟩
            unfold Coder.left at hl ⊢
            rw [b1, a1, b2, a2]
            simp only [if_neg e1, e2]
            omega
      · have hn : c.needsFrame M = false := by
          unfold Coder.needsFrame
          split
          · rfl
          · rw [ha]; simpa using ht
        rw [if_neg ht] at h
        obtain ⟨b1, b2, b3, b4⟩ := restT_same (c := { (c.entered aux rest) with ticks := c.ticks + 1, frameNumber := c.frameNumber }) h
        rw [hn, b4]
        refine ⟨?_, by simp⟩
        unfold Coder.left at hl ⊢
        rw [b1, b2]
        simp only [if_neg e1, e2]
        omega

theorem nextT_like (M : Movie) (load : Except PyErr EditTable) : NextLike M (Coder.nextT M load) :=
  ⟨nextT_idle, nextT_exhausted, nextT_frame, fun h => (nextT_progress h).1⟩

end IIVision
