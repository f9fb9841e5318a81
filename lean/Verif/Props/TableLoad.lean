import Verif.Spec.TableLoad
import Verif.Props.Options
import Verif.Props.Tables

/-! The transcoder reading its edit distance table from the data directory. -/

namespace IIVision
open Spec

attribute [local irreducible] screenHoles allCells

theorem startFrameT_ok (t : EditTable) (v : Video) (r : Rng) (T : Bitmap) (a : Bool) : startFrameT (.ok t) v r T a = startFrame t v r T a := by
  unfold startFrameT startFrame
  rfl

theorem nextT_gen (t : EditTable) (v : Video) (r : Rng) (g : Gen) : v.nextT (.ok t) r g = v.next t r g := by
  cases g with
  | notStarted T a =>
    show (startFrameT (.ok t) v r T a >>= _) = (startFrame t v r T a >>= _)
    rw [startFrameT_ok]
    rfl
  | running => rfl
  | padding => rfl

theorem tickOpT_ok (M : Movie) (c : Coder) (au : Int) : c.tickOpT (.ok M.table) au = c.tickOp M au := by
  unfold Coder.tickOpT Coder.tickOp
  cases c.gen with
  | none => rfl
  | some g => simp only [nextT_gen]

theorem nextT_ok (M : Movie) (aux : Bool) (c : Coder) : Coder.nextT M (.ok M.table) aux c = Coder.next M aux c := by
  have hi : ∀ c au, Coder.iterT M (.ok M.table) aux c au = Coder.iter M aux c au := by
    intro c au
    unfold Coder.iterT Coder.iter
    simp only [tickOpT_ok]
    rfl
  unfold Coder.nextT Coder.next
  cases c.phase with
  | new => rfl
  | header => simp only [if_true]; cases c.audio with
    | nil => rfl
    | cons x l => exact hi _ _
  | loop =>
    have hph : ¬ (Phase.loop = Phase.header) := fun h => nomatch h
    simp only [if_neg hph]
    cases c.audio with
    | nil => rfl
    | cons x l => exact hi _ _

theorem resumeT_ok (M : Movie) (s : Prog) (fr : List Frame) : s.resumeT M (.ok M.table) fr = s.resume M fr := by
  unfold Prog.resumeT Prog.resume
  rw [nextT_ok]
  rfl

theorem mainStepT_ok (M : Movie) (s : Prog) : s.mainStepT M (.ok M.table) = s.mainStep M := by
  unfold Prog.mainStepT Prog.mainStep
  simp only [resumeT_ok]
  rfl

theorem stepsT_ok {M : Movie} {G : Grabber} {n : Nat} {s t : Prog} : Prog.StepsT M G (.ok M.table) n s t ↔ Prog.Steps M G n s t := by
  constructor
  · intro h
    induction h with
    | zero => exact .zero _
    | succ _ h ih =>
      cases h with
      | worker h => exact .succ ih (.worker h)
      | main h => exact .succ ih (.main (mainStepT_ok M _ ▸ h))
  · intro h
    induction h with
    | zero => exact .zero _
    | succ _ h ih =>
      cases h with
      | worker h => exact .succ ih (.worker h)
      | main h => exact .succ ih (.main ((mainStepT_ok M _).symm ▸ h))

/-- The table of the movie plays no role when it is read from a file. -/
theorem stepsT_table {M : Movie} {G : Grabber} {load : Except PyErr EditTable} (t : EditTable) {n : Nat} {s u : Prog} :
    Prog.StepsT M G load n s u ↔ Prog.StepsT { M with table := t } G load n s u := by
  have hm : ∀ s : Prog, s.mainStepT M load = s.mainStepT { M with table := t } load := fun s => rfl
  constructor
  · intro h
    induction h with
    | zero => exact .zero _
    | succ _ h ih =>
      cases h with
      | worker h => exact .succ ih (.worker h)
      | main h => exact .succ ih (.main (hm _ ▸ h))
  · intro h
    induction h with
    | zero => exact .zero _
    | succ _ h ih =>
      cases h with
      | worker h => exact .succ ih (.worker h)
      | main h => exact .succ ih (.main ((hm _).symm ▸ h))

theorem file_name (mode : VideoMode) (p : Palette) : mode.dataFileRead p = txt "transcoder/data/" ++ mode.name ++ txt "_palette_" ++
    (match p with | .UNKNOWN => txt "-1" | .IIGS => txt "0" | .NTSC => txt "5") ++ txt "_edit_distance.npz" := by
  unfold VideoMode.dataFileRead
  have h : intText p.value = (match p with | .UNKNOWN => txt "-1" | .IIGS => txt "0" | .NTSC => txt "5") := by
    cases p with
    | UNKNOWN => show (45 :: decText 1) = _; rw [decText_small 1 (by omega)]; rfl
    | IIGS => exact intText_shipped.1
    | NTSC => exact intText_shipped.2
  rw [h]

theorem load_cases (files : List (Text × EditTable)) (mode : VideoMode) (p : Palette) :
    (HasTable files mode p ∧ ∃ t, mode.loadEditDistances files p = .ok t) ∨
    (¬ HasTable files mode p ∧ mode.loadEditDistances files p = .error .fileNotFound) := by
  unfold VideoMode.loadEditDistances HasTable
  rw [file_name]
  generalize txt "transcoder/data/" ++ mode.name ++ txt "_palette_" ++
    (match p with | .UNKNOWN => txt "-1" | .IIGS => txt "0" | .NTSC => txt "5") ++ txt "_edit_distance.npz" = name
  cases hf : files.find? fun f => f.1 == name with
  | some f =>
    refine .inl ⟨⟨f, List.mem_of_find?_eq_some hf, ?_⟩, _, rfl⟩
    have := List.find?_some hf
    simpa using this
  | none =>
    refine .inr ⟨?_, rfl⟩
    rintro ⟨f, hm, hn⟩
    have := List.find?_eq_none.1 hf f hm
    simp [hn] at this

/-- **C79.** If there is a data file for the mode and the palette, the program behaves, in every interleaving, as C60 to C75 say of one that has had its table (which is the one in the file, and
mirrored: C11, C57) from the beginning. -/
theorem C79_loaded (a : Args) (w : World) (files : List (Text × EditTable)) (fs : FS) (h : HasTable files a.mode a.palette) :
    ∃ t, a.mode.loadEditDistances files a.palette = .ok t ∧
      ∀ n s, Loading a w files fs n s ↔ Execution a { w with table := t } fs n s := by
  rcases load_cases files a.mode a.palette with ⟨-, t, ht⟩ | ⟨hn, -⟩
  · refine ⟨t, ht, fun n s => ?_⟩
    unfold Loading Execution
    rw [ht]
    constructor
    · rintro ⟨s0, h0, h1⟩
      exact ⟨s0, h0, stepsT_ok.1 ((stepsT_table t).1 h1)⟩
    · rintro ⟨s0, h0, h1⟩
      exact ⟨s0, h0, (stepsT_table t).2 (stepsT_ok (M := a.movie { w with table := t }).2 h1)⟩
  · exact absurd h hn

/-! ### No table -/

/-- The first picture on a black screen: nothing before the reading of the table fails. -/
theorem tickOpT_missing {mode : VideoMode} {v : Video} (hv : Video.new mode = .ok v) (e : PyErr) (c : Coder) (au : Int) (T : Bitmap)
    (hc : c.v.pixelmap = v.pixelmap) (hg : c.gen = some (.notStarted T false)) : c.tickOpT (.error e) au = .error e := by
  obtain ⟨v', h1, -, -, hz, -⟩ := videoNew_ok mode
  cases h1.symm.trans hv
  unfold Coder.tickOpT
  rw [hg]
  have hs : startFrameT (.error e) c.v c.rng T false = .error e := by
    unfold startFrameT sourceMemory targetMemory
    have : decide (∀ p o, screenHoles p o = true → c.v.pixelmap.main.pageOffset p o = 0) = true := by
      rw [decide_eq_true_eq]
      intro p o _
      rw [hc]
      exact hz false p o
    rw [if_neg (by decide), if_neg (fun h => nomatch h.2), Except.bind_ok]
    generalize decide (∀ p o, screenHoles p o = true → c.v.pixelmap.main.pageOffset p o = 0) = b at this ⊢
    subst this
    rfl
  show ((startFrameT (.error e) c.v c.rng T false >>= _) >>= _) = _
  rw [hs]
  rfl

theorem bitmapOf_total {M : Movie} {f : Frame} (h : M.mode = .DHGR → f.aux ≠ none) : ∃ T, M.bitmapOf f = .ok T := by
  unfold Movie.bitmapOf
  cases hm : M.mode with
  | HGR => exact ⟨_, rfl⟩
  | DHGR =>
    cases ha : f.aux with
    | none => exact absurd ha (h hm)
    | some x => exact ⟨_, rfl⟩

/-- The invariant for a missing table. -/
structure FInv (M : Movie) (G : Grabber) (fs : FS) (A : List Int) (v0 : Video) (e : PyErr) (s : Prog) : Prop where
  ginv : GInv G fs s.g
  unstarted : s.started = false → s.g = G.start fs
  state :
    (s.main = .running ∧ s.started = false ∧ s.coder.phase = .new ∧ s.pos = 0 ∧ s.out = [] ∧ s.coder.frameNumber = 0 ∧
      s.coder.ticks = 0 ∧ s.coder.audio = A ∧ s.aux = false ∧ s.coder.v = v0) ∨
    (s.main = .running ∧ s.started = false ∧ s.coder.phase = .header ∧ s.out = Opcode.emit M.addr (.header M.mode) ∧
      s.coder.frameNumber = 0 ∧ s.coder.ticks = 0 ∧ s.coder.audio = A ∧ s.aux = false ∧ s.coder.v = v0) ∨
    (s.main = .asking ∧ s.started = true ∧ s.coder.phase = .header ∧ s.out = Opcode.emit M.addr (.header M.mode) ∧
      s.coder.frameNumber = 0 ∧ s.coder.ticks = 0 ∧ s.coder.audio = A ∧ s.aux = false ∧ s.coder.v = v0 ∧ s.g.consumer = .get ∧ s.g.out = []) ∨
    (s.main = .raised e ∧ s.out = Opcode.emit M.addr (.header M.mode))

theorem finv_step {M : Movie} {G : Grabber} {fs : FS} {A : List Int} {v0 : Video} {e : PyErr} (hnew : Video.new M.mode = .ok v0)
    (hz : M.everyN ≠ 0) (hl : 0 ≤ M.limit) (ht : M.thr 0 = 0) (hA : A ≠ []) (hmode : G.mode = M.mode)
    (hv : (wholeVideo G fs).1 ≠ []) {s t : Prog} (hi : FInv M G fs A v0 e s) (h : Prog.StepT M G (.error e) s t) :
    FInv M G fs A v0 e t ∧ t.weight < s.weight := by
  cases h with
  | worker hw =>
    refine ⟨?_, prog_step_weight (M := M) (.worker hw)⟩
    unfold Prog.workerStep at hw
    cases hst : s.started with
    | false => rw [hst] at hw; cases hw
    | true =>
      rw [hst, if_pos rfl] at hw
      cases hg : G.workerStep s.g with
      | none => rw [hg] at hw; cases hw
      | some g =>
        rw [hg] at hw
        cases hw
        obtain ⟨o1, o2⟩ := worker_out hg
        refine ⟨hi.ginv.worker hg, fun h => (by cases h), ?_⟩
        rcases hi.state with ⟨-, h, -⟩ | ⟨-, h, -⟩ | ⟨a1, a2, a3, a4, a5, a6, a7, b1, b2, a8, a9⟩ | h
        · rw [hst] at h; cases h
        · rw [hst] at h; cases h
        · exact .inr (.inr (.inl ⟨a1, rfl, a3, a4, a5, a6, a7, b1, b2, by simp only [o2, a8], by simp only [o1, a9]⟩))
        · exact .inr (.inr (.inr h))
  | main hm =>
    unfold Prog.mainStepT at hm
    rcases hi.state with ⟨a1, a2, a3, a4, a5, a6, a7, a8, b1, b2⟩ | ⟨a1, a2, a3, a4, a5, a6, a7, b1, b2⟩ |
      ⟨a1, a2, a3, a4, a5, a6, a7, b1, b2, a8, a9⟩ | ⟨a1, a2⟩
    · rw [a1] at hm
      simp only at hm
      rw [show s.coder.needsFrame M = false by unfold Coder.needsFrame; rw [a3], if_neg (by decide)] at hm
      unfold Prog.resumeT Coder.nextT at hm
      simp only [a3] at hm
      have hlim : M.atLimit s.pos = false := by
        rw [a4]; unfold Movie.atLimit
        simp only [decide_eq_false_iff_not]
        rintro ⟨h1, h2⟩
        exact h1 (le_antisymm (by simpa using h2) hl)
      rw [hlim, if_neg (by decide)] at hm
      have hack : M.ackIfDue (s.pos + (Opcode.emit M.addr (.header M.mode)).length) s.aux =
          .ok ([], [], s.pos + (Opcode.emit M.addr (.header M.mode)).length, s.aux) := by
        unfold Movie.ackIfDue
        rw [header_length, a4]
        rfl
      simp only [hack] at hm
      cases hm
      refine ⟨⟨hi.ginv, hi.unstarted, .inr (.inl ⟨rfl, a2, rfl, ?_, a6, a7, a8, b1, b2⟩)⟩, ?_⟩
      · simp only [a5, List.nil_append, List.append_nil]
      · unfold Prog.weight Coder.left
        have h1 : (if Phase.header = Phase.new then 1 else 0) = 0 := rfl
        simp only [a1, a3, if_true, h1]
        omega
    · rw [a1] at hm
      simp only at hm
      have hn : s.coder.needsFrame M = true := by
        unfold Coder.needsFrame
        rw [a3, a7, a5, a6, ht]
        cases A with
        | nil => exact absurd rfl hA
        | cons x l => simp
      rw [hn, if_pos rfl, a2, if_neg (by decide)] at hm
      cases hm
      have hg := hi.unstarted a2
      refine ⟨⟨hi.ginv, fun h => (by cases h), .inr (.inr (.inl ⟨rfl, rfl, a3, a4, a5, a6, a7, b1, b2, ?_, ?_⟩))⟩, ?_⟩
      · show s.g.consumer = .get; rw [hg]; rfl
      · show s.g.out = []; rw [hg]; rfl
      · unfold Prog.weight
        simp [a1, a2, MainStatus.weight]
    · rw [a1] at hm
      simp only at hm
      cases hc : s.g.consumerStep with
      | none => rw [hc] at hm; cases hm
      | some g =>
        rw [hc] at hm
        have hgi := hi.ginv.consumerStep hc
        have hwt := step_weight (G := G) (.consumer hc)
        rcases consumer_cases hi.ginv hc with ⟨c1, -⟩ | ⟨c1, c2, c3⟩ | ⟨c1, c2, f, c3⟩ | ⟨c1, ⟨e, c2⟩, c3⟩ | ⟨c1, -⟩
        · rw [a8] at c1; cases c1
        · have := congrArg Prod.fst (hgi.over (.inl c2)).1
          simp only [c3, a9] at this
          exact absurd this.symm hv
        · simp only [c2] at hm
          cases hm
          have hl : g.out.getLast?.toList = [f] := by rw [c3]; simp
          rw [hl]
          have hf : f ∈ (wholeVideo G fs).1 := (ginv_prefix hgi).subset (by rw [c3]; simp)
          obtain ⟨T, hT⟩ : ∃ T, M.bitmapOf f = .ok T := by
            refine bitmapOf_total fun hm => ?_
            obtain ⟨fs1, i, image, fs2, item, h1, h2⟩ := video_items _ _ _ _ f hf
            obtain ⟨x, hx⟩ := decode_aux h1 (hmode.trans hm)
            rcases (toFrame_ok h2).2 with ⟨t2, -⟩ | ⟨y, b, t2, t3, t4⟩
            · rw [hx] at t2; cases t2
            · rw [t3]; exact fun h => nomatch h
          have hnext : Coder.nextT M (.error e) s.aux { s.coder with frames := [f] } = .error e := by
            cases hA' : A with
            | nil => exact absurd hA' hA
            | cons x l =>
              unfold Coder.nextT
              simp only [a3, a7, hA', if_true]
              unfold Coder.iterT Coder.fetch
              simp only [a5, a6, ht, Nat.zero_le, if_true]
              unfold Coder.newFrame Movie.shouldEncode
              rw [if_neg hz]
              have h0 : ((((0 : Nat) + 1 : Nat) : Int) - 1) % M.everyN == 0 := by simp
              simp only [h0, hT, Except.bind_ok, if_true]
              show ((Coder.flip s.aux _) >>= _) = _
              unfold Coder.flip
              rw [if_neg (by simp)]
              show ((Coder.tickOpT (.error e) _ x) >>= _) = _
              rw [tickOpT_missing hnew e _ x T (by simp only [b2]) (by simp only [b1])]
              rfl
          have hr : Prog.resumeT M (.error e) { s with g := g } [f] = { s with g := g, main := .raised e } := by
            unfold Prog.resumeT
            simp only [hnext]
          simp only [a1] at hr ⊢
          rw [hr]
          refine ⟨⟨hgi, fun h => (by rw [a2] at h; cases h), .inr (.inr (.inr ⟨rfl, a4⟩))⟩, ?_⟩
          unfold Prog.weight
          simp only [a1, MainStatus.weight]
          omega
        · have := congrArg Prod.fst (hgi.raised e c2)
          simp only [c3, a9] at this
          exact absurd this.symm hv
        · rw [a8] at c1; cases c1
    · rw [a1] at hm; cases hm

/-- **C79.** If there is none, the program (with some sound and a first picture that can be converted) does not notice before it has created the
output file, written the header and converted the first picture; then it ends with FileNotFoundError, in every interleaving. -/
theorem C79_missing {a : Args} {w : World} {files : List (Text × EditTable)} {fs : FS} {A : List Int} (hA : a.audio w = .ok A)
    (hf : ¬ HasTable files a.mode a.palette) (hz : a.everyN ≠ 0) (hm : 0 ≤ a.maxMb) (ht : w.thr 0 = 0) (hne : A ≠ [])
    (hv : (Args.video a w fs).1 ≠ []) {n : Nat} {s : Prog} (h : Loading a w files fs n s) :
    (s.out = [] ∨ s.out = Opcode.emit w.addr (.header a.mode)) ∧ s.main ≠ .finished ∧ n ≤ 4 * w.images.length + A.length + 7 ∧
    (LoadingOver a w files s → s.main = .raised .fileNotFound ∧ s.out = Opcode.emit w.addr (.header a.mode)) := by
  have hload : a.mode.loadEditDistances files a.palette = .error .fileNotFound := by
    rcases load_cases files a.mode a.palette with ⟨h, -⟩ | ⟨-, h⟩
    · exact absurd h hf
    · exact h
  unfold Loading at h
  unfold LoadingOver
  rw [hload] at h ⊢
  obtain ⟨s0, hs0, hst⟩ := h
  obtain ⟨e1, e2, e3, e4, e5, e6, e7, e8, e9, e10, e11⟩ := start_eq hA hs0
  obtain ⟨v0, hnew, -⟩ := videoNew_ok (a.movie w).mode
  have ev : s0.coder.v = v0 := by
    unfold Args.start at hs0
    rw [hA, Except.bind_ok] at hs0
    unfold Prog.start Movie.start at hs0
    rw [hnew] at hs0
    cases hs0
    rfl
  have hlim : 0 ≤ (a.movie w).limit := by
    show (0 : Rat) ≤ 1024 * 1024 * a.maxMb
    linarith
  have h0 : FInv (a.movie w) (a.grabber w) fs A v0 .fileNotFound s0 :=
    ⟨by rw [e1]; exact gInv_start _ _, fun _ => e1, .inl ⟨e3, e2, e4, e8, e10, e7, e6, e5, e9, ev⟩⟩
  have key : ∀ n s0 s, Prog.StepsT (a.movie w) (a.grabber w) (.error .fileNotFound) n s0 s →
      FInv (a.movie w) (a.grabber w) fs A v0 .fileNotFound s0 →
      FInv (a.movie w) (a.grabber w) fs A v0 .fileNotFound s ∧ n + s.weight ≤ s0.weight := by
    intro n s0 s h
    induction h with
    | zero => exact fun h => ⟨h, by omega⟩
    | succ _ hu ih =>
      intro h
      obtain ⟨i1, i2⟩ := ih h
      obtain ⟨j1, j2⟩ := finv_step hnew hz hlim ht hne rfl hv i1 hu
      exact ⟨j1, by omega⟩
  obtain ⟨hi, hw⟩ := key n s0 s hst h0
  refine ⟨?_, ?_, by omega, ?_⟩
  · rcases hi.state with ⟨_, _, _, _, h, _⟩ | ⟨_, _, _, h, _⟩ | ⟨_, _, _, h, _⟩ | ⟨_, h⟩
    · exact .inl h
    all_goals exact .inr h
  · rcases hi.state with ⟨h, _⟩ | ⟨h, _⟩ | ⟨h, _⟩ | ⟨h, _⟩ <;> (rw [h]; exact fun h => nomatch h)
  · intro hh
    have hmain : s.mainStepT (a.movie w) (.error .fileNotFound) = none := by
      cases hx : s.mainStepT (a.movie w) (.error .fileNotFound) with
      | none => rfl
      | some t => exact absurd ⟨t, .main hx⟩ hh
    rcases hi.state with ⟨a1, a2, a3, -⟩ | ⟨a1, a2, -⟩ | ⟨a1, a2, a3, a4, a5, a6, a7, b1, b2, a8, a9⟩ | h
    · unfold Prog.mainStepT at hmain
      rw [a1] at hmain
      simp only at hmain
      rw [show s.coder.needsFrame (a.movie w) = false by unfold Coder.needsFrame; rw [a3], if_neg (by decide)] at hmain
      cases hmain
    · unfold Prog.mainStepT at hmain
      rw [a1, a2] at hmain
      simp only at hmain
      split at hmain <;> cases hmain
    · exfalso
      have hcons : s.g.consumerStep = none := by
        unfold Prog.mainStepT at hmain
        rw [a1] at hmain
        simp only at hmain
        cases hx : s.g.consumerStep with
        | none => rfl
        | some g => rw [hx] at hmain; simp only at hmain; split at hmain <;> cases hmain
      have hG : Stopped (a.grabber w) s.g := by
        rintro ⟨t, ht⟩
        cases ht with
        | worker hw1 =>
          refine hh ⟨{ s with g := t }, .worker ?_⟩
          unfold Prog.workerStep
          rw [if_pos a2, hw1]
        | consumer hc => rw [hcons] at hc; cases hc
      rcases stopped_cases hi.ginv hG with hc | ⟨e, hc⟩ | ⟨hc, hq, e, he⟩
      · rw [a8] at hc; cases hc
      · rw [a8] at hc; cases hc
      · have hact := hi.ginv.active (.inl hc)
        rw [hq, he] at hact
        have := congrArg Prod.fst hact
        simp [queued, Grabber.toCome, a9] at this
        exact hv this
    · exact h

/-- **C79.** The table generator makes the files for the two palettes that have colours, in both modes, and none for `UNKNOWN` (which the command line accepts). -/
theorem C79_made {deltaE : RGB → RGB → Int} (hd : ColourDifference deltaE) (dm0 : Nat → Nat → Int) :
    ∃ files, makeDataTables deltaE dm0 = .ok files ∧ ∀ mode p, HasTable files mode p ↔ p ≠ .UNKNOWN := by
  obtain ⟨e1, e2, -, -, -, -, hm⟩ := makeDataTables_ok hd dm0
  refine ⟨_, hm, fun mode p => ?_⟩
  have hr : ∀ files, HasTable files mode p ↔ mode.dataFileRead p ∈ files.map Prod.fst := by
    intro files
    rw [file_name, List.mem_map]
    rfl
  rw [hr]
  simp only [List.map_cons, List.map_nil, written_eq_read]
  rw [file_name, file_name, file_name, file_name, file_name]
  cases mode <;> cases p <;> decide

/-! ### The hypotheses can be met -/

/-- An execution with a bound on its length can be run to its end. -/
theorem exists_over {a : Args} {w : World} {files : List (Text × EditTable)} {fs : FS} {B : Nat} (hB : ∀ n s, Loading a w files fs n s → n ≤ B) :
    ∀ (k n : Nat) (s : Prog), Loading a w files fs n s → B ≤ n + k → ∃ m t, Loading a w files fs m t ∧ LoadingOver a w files t := by
  intro k
  induction k with
  | zero =>
    intro n s h hk
    refine ⟨n, s, h, ?_⟩
    rintro ⟨u, hu⟩
    obtain ⟨s0, h0, h1⟩ := h
    have := hB (n + 1) u ⟨s0, h0, .succ h1 hu⟩
    omega
  | succ k ih =>
    intro n s h hk
    by_cases hu : LoadingOver a w files s
    · exact ⟨n, s, h, hu⟩
    · obtain ⟨u, hu⟩ := Classical.not_not.1 hu
      obtain ⟨s0, h0, h1⟩ := h
      exact ih (n + 1) u ⟨s0, h0, .succ h1 hu⟩ (by omega)

/-- C79_missing: the demonstration input with no data files, and a run of it to its end. -/
theorem demo_no_table : ∃ n s, Loading demoArgs (demoWorld [[1#8]] [.fin 8192] none) [] (fun _ => none) n s ∧
    s.main = .raised .fileNotFound := by
  have hA : demoArgs.audio (demoWorld [[1#8]] [.fin 8192] none) = .ok [8] := by decide +kernel
  have hf : ¬ HasTable [] demoArgs.mode demoArgs.palette := by rintro ⟨f, hf, -⟩; cases hf
  have hv : (Args.video demoArgs (demoWorld [[1#8]] [.fin 8192] none) (fun _ => none)).1 ≠ [] := by
    have h := (demo_video [[1#8]] [.fin 8192] none [[1#8]] 0 (fun _ => none) (by decide) (fun _ _ => rfl)).1
    intro hv
    have h2 : (oneByOne (demoArgs.grabber (demoWorld [[1#8]] [.fin 8192] none)) 0 (fun _ => none) [[1#8]]).1 = [] := hv
    rw [h2] at h
    cases h
  have key := fun n s h => C79_missing (n := n) (s := s) hA hf (by decide) (by decide) rfl (by decide) hv h
  obtain ⟨s0, h0⟩ : ∃ s0, demoArgs.start (demoWorld [[1#8]] [.fin 8192] none) (fun _ => none) = .ok s0 := by
    obtain ⟨v, hv, -⟩ := videoNew_ok demoArgs.mode
    unfold Args.start
    rw [hA, Except.bind_ok]
    unfold Prog.start Movie.start
    rw [show Video.new (demoArgs.movie (demoWorld [[1#8]] [.fin 8192] none)).mode = .ok v from hv]
    exact ⟨_, rfl⟩
  obtain ⟨m, t, h1, h2⟩ := exists_over (fun n s h => (key n s h).2.2.1) _ 0 s0 ⟨s0, h0, .zero _⟩ (Nat.le_add_left _ _)
  exact ⟨m, t, h1, ((key m t h1).2.2.2 h2).1⟩

/-- C79_loaded: the demonstration input with a file for it, and one for the other mode. -/
example : HasTable [(txt "transcoder/data/DHGR_palette_5_edit_distance.npz", flatTable 13), (txt "transcoder/data/HGR_palette_5_edit_distance.npz", flatTable 13)]
    demoArgs.mode .NTSC ∧ ¬ HasTable [(txt "transcoder/data/DHGR_palette_5_edit_distance.npz", flatTable 13)] .HGR .NTSC := by
  refine ⟨?_, ?_⟩
  · cases h : demoArgs.mode with
    | HGR => exact ⟨_, .tail _ (.head _), by decide⟩
    | DHGR => exact ⟨_, .head _, by decide⟩
  · rintro ⟨f, hf, hn⟩
    cases List.mem_singleton.1 hf
    revert hn
    decide

/-- C79_made: there are colour differences as it needs them. -/
example : ColourDifference plainDifference := plainDifference_ok.1

end IIVision
