import Verif.Spec.Folder
import Verif.Props.Buffered

/-! Claim C89: the directory of the converted pictures. -/

namespace IIVision
open Spec

theorem mem_parents {dir f : Text} : f ∈ parents dir ↔ ∃ rest, dir = f ++ 47 :: rest := by
  unfold parents
  simp only [List.mem_map, List.mem_filter, List.mem_range, beq_iff_eq]
  constructor
  · rintro ⟨k, ⟨h1, h2⟩, rfl⟩
    refine ⟨dir.drop (k + 1), ?_⟩
    have : dir.drop k = 47 :: dir.drop (k + 1) := by
      rw [List.drop_eq_getElem_cons h1]
      rw [List.getElem?_eq_getElem h1] at h2
      rw [Option.some.inj h2]
    rw [← this, List.take_append_drop]
  · rintro ⟨rest, rfl⟩
    refine ⟨f.length, ⟨by simp, by simp⟩, by simp⟩

/-- **C89.** `os.makedirs` fails exactly if there is a file with the name of the directory or of one on the way to it. -/
theorem C89_makedirs (err : PyErr) (dir : Text) (fs : FS) :
    (fs.makedirs err dir = none ∨ fs.makedirs err dir = some err) ∧ (fs.makedirs err dir = some err ↔ ∃ f d, OnTheWay dir f ∧ fs f = some d) := by
  have key : (fs.has dir || (parents dir).any fs.has) = true ↔ ∃ f d, OnTheWay dir f ∧ fs f = some d := by
    rw [Bool.or_eq_true, List.any_eq_true]
    unfold FS.has
    simp only [Option.isSome_iff_exists]
    constructor
    · rintro (⟨d, h⟩ | ⟨f, h1, d, h2⟩)
      · exact ⟨dir, d, .inl rfl, h⟩
      · exact ⟨f, d, .inr (mem_parents.1 h1), h2⟩
    · rintro ⟨f, d, rfl | h1, h2⟩
      · exact .inl ⟨d, h2⟩
      · exact .inr ⟨f, mem_parents.2 h1, d, h2⟩
  unfold FS.makedirs
  by_cases h : (fs.has dir || (parents dir).any fs.has) = true
  · rw [if_pos h]; exact ⟨.inr rfl, by simp only [true_iff]; exact key.1 h⟩
  · rw [if_neg h]; exact ⟨.inl rfl, by simp only [reduceCtorEq, false_iff]; exact fun h' => h (key.2 h')⟩

theorem mainW_started {M : Movie} {nx : Bool → Coder → Resumed} {s t : Prog} (h : s.mainStepW M nx = some t) (hs : s.started = true) : t.started = true := by
  unfold Prog.mainStepW at h
  split at h
  · split at h
    · simp only [hs] at h
      split at h
      · cases h; rfl
      · cases h
    · cases h
      rw [(resumeW_same M nx s []).2]; exact hs
  · split at h
    · cases h
    · split at h
      · cases h; rw [(resumeW_same M nx _ _).2]; exact hs
      · cases h; rw [(resumeW_same M nx _ _).2]; exact hs
      · cases h; exact hs
      · cases h; exact hs
  · cases h
  · cases h

/-- Until the first picture is asked for, only the output file has changed. -/
theorem unstarted_disk {P : Setup} {size : Nat} {dev : Device} {fs : FS} {s t : Session} (hi : s.prog.started = false → ∃ d, s.prog.disk = fs.put P.name d)
    (hs : Session.Step P size dev s t) (ht : t.prog.started = false) : ∃ d, t.prog.disk = fs.put P.name d := by
  have raw : s.prog.started = false → ∃ d, (s.rawWrite P.name dev).prog.disk = fs.put P.name d := by
    intro h
    obtain ⟨d, hd⟩ := hi h
    unfold Session.rawWrite
    cases dev s.calls with
    | error e => exact ⟨d, hd⟩
    | ok k =>
      refine ⟨d ++ s.buf.take (k + 1), ?_⟩
      show s.prog.disk.put P.name _ = _
      rw [hd, put_put, put_same]; rfl
  have rawst : (s.rawWrite P.name dev).prog.started = s.prog.started := by
    unfold Session.rawWrite
    cases dev s.calls <;> rfl
  cases hs with
  | @worker p hw =>
    unfold Prog.workerStep at hw
    split at hw
    · rename_i hst
      cases hx : P.grabber.workerStep s.prog.g with
      | none => rw [hx] at hw; cases hw
      | some g =>
        rw [hx] at hw
        cases hw
        rw [show s.prog.started = false from ht] at hst; cases hst
    · cases hw
  | main hm =>
    unfold Session.mainStep at hm
    split at hm
    · cases hm
    · split at hm
      · split at hm
        · cases hm; exact hi ht
        · split at hm
          · cases hm; exact hi ht
          · cases hm; exact raw (rawst ▸ ht)
      · split at hm
        · split at hm
          · cases hm; exact hi ht
          · cases hm; exact raw (rawst ▸ ht)
        · obtain ⟨y, hy, rfl⟩ := Option.map_eq_some_iff.1 hm
          have hst : s.prog.started = false := by
            cases h : s.prog.started with
            | false => rfl
            | true => rw [mainW_started hy h] at ht; cases ht
          obtain ⟨d, hd⟩ := hi hst
          exact ⟨d, (mainW_disk hy).trans hd⟩

theorem asksFirst_iff (P : Setup) (s : Session) : s.asksFirst P = true ↔
    s.closed = false ∧ s.todo = [] ∧ s.over = false ∧ s.prog.main = .running ∧ s.prog.coder.needsFrame P.movie = true ∧ s.prog.started = false := by
  unfold Session.asksFirst
  simp only [Bool.and_eq_true, Bool.not_eq_true', List.isEmpty_iff, decide_eq_true_eq, and_assoc]

theorem launch_start {H : Host} {argv : List Text} {fs : FS} {P : Setup} {s0 : Prog} (h : launch H argv fs = .ok (P, s0)) : s0.started = false ∧ s0.main = .running ∧ s0.out = [] ∧ s0.pos = 0 ∧
    s0.aux = false ∧ s0.disk = fs.put P.name [] := by
  obtain ⟨c, norm, text, rate, tpf, v, -, -, -, -, -, -, -, -, hs0⟩ := launch_parts h
  rw [hs0]
  exact ⟨rfl, rfl, rfl, rfl, rfl, rfl⟩

/-- **C89.** If the directory can be made, it makes no difference that it has to be made. -/
theorem C89_made {H : Host} {argv : List Text} {fs : FS} {P : Setup} {s0 : Prog} (h : launch H argv fs = .ok (P, s0)) {size : Nat} {dev : Device} {mk : FS → Option PyErr}
    (hm : ∀ d, mk (fs.put P.name d) = none) (n : Nat) (s : Session) : WorkingF H argv fs size dev mk n s ↔ Working H argv fs size dev n s := by
  have same : ∀ {s : Session}, (s.prog.started = false → ∃ d, s.prog.disk = fs.put P.name d) → s.mainStepF P size dev mk = s.mainStep P size dev := by
    intro s hi
    unfold Session.mainStepF
    split
    · rename_i ha
      obtain ⟨d, hd⟩ := hi ((asksFirst_iff P s).1 ha).2.2.2.2.2
      rw [hd, hm]
    · rfl
  have st : (Session.start s0).prog.started = false → ∃ d, (Session.start s0).prog.disk = fs.put P.name d := fun _ => ⟨[], (launch_start h).2.2.2.2.2⟩
  have inv : ∀ {n s}, Session.Steps P size dev n (Session.start s0) s → s.prog.started = false → ∃ d, s.prog.disk = fs.put P.name d := by
    intro n
    induction n with
    | zero => intro s hs; cases hs; exact st
    | succ n ih =>
      intro s hs
      cases hs with
      | succ h1 h2 => exact unstarted_disk (ih h1) h2
  constructor
  · rintro ⟨P', s0', h', hs⟩
    cases h.symm.trans h'
    refine ⟨P, s0, h, ?_⟩
    induction n generalizing s with
    | zero => cases hs; exact .zero _
    | succ n ih =>
      cases hs with
      | succ h1 h2 =>
        have h1 := ih _ h1
        refine .succ h1 ?_
        cases h2 with
        | worker hw => exact .worker hw
        | main hm' => exact .main ((same (inv h1)).symm.trans hm')
  · rintro ⟨P', s0', h', hs⟩
    cases h.symm.trans h'
    refine ⟨P, s0, h, ?_⟩
    induction n generalizing s with
    | zero => cases hs; exact .zero _
    | succ n ih =>
      cases hs with
      | succ h1 h2 =>
        refine .succ (ih _ h1) ?_
        cases h2 with
        | worker hw => exact .worker hw
        | main hm' => exact .main ((same (inv h1)).trans hm')

/-- What is known if the directory cannot be made: `x1` is the program when the header has been made. -/
inductive NoFolder (P : Setup) (size : Nat) (dev : Device) (fs : FS) (s0 x1 : Prog) (hdr : List Nat) (e : PyErr) (s : Session) : Prop
  | start : s = Session.start s0 → NoFolder P size dev fs s0 x1 hdr e s
  | header (d : List U8) : s.prog = x1.onDisk (fs.put P.name d) → s.closed = false → s.error = none → numbers d ++ numbers s.buf ++ s.todo = hdr → s.buf.length ≤ size →
      NoFolder P size dev fs s0 x1 hdr e s
  | closing (d : List U8) : s.prog.disk = fs.put P.name d → s.prog.started = false → s.todo = [] → numbers d ++ numbers s.buf <+: hdr →
      (s.error = none → s.prog.main = .raised e ∧ numbers d ++ numbers s.buf = hdr) → (∀ e', s.error = some e' → ∃ j, j < s.calls ∧ dev j = .error e') →
      (s.closed = true → s.error = none → s.buf = []) → NoFolder P size dev fs s0 x1 hdr e s

/-- The steps that are left. -/
def Session.leftF (hdr : List Nat) (s : Session) : Nat :=
  if s.closed then 0
  else if s.error ≠ none ∨ s.prog.main ≠ .running then s.buf.length + 1
  else if s.prog.out = [] then 2 * hdr.length + 3
  else 2 * s.todo.length + s.buf.length + 2

theorem noFolder_step {P : Setup} {size : Nat} (hz : 0 < size) {dev : Device} {mk : FS → Option PyErr} {fs : FS} {s0 x1 : Prog} {hdr : List Nat} {e : PyErr}
    (hmk : ∀ d, mk (fs.put P.name d) = some e) (a1 : s0.started = false) (a2 : s0.main = .running) (a3 : s0.out = []) (a4 : s0.disk = fs.put P.name [])
    (a5 : s0.coder.needsFrame P.movie = false) (a6 : s0.mainStepW P.movie P.next = some x1) (b1 : x1.started = false) (b2 : x1.main = .running) (b3 : x1.out = hdr)
    (b4 : x1.coder.needsFrame P.movie = true) (hne : hdr ≠ []) (hsm : ∀ b ∈ hdr, b < 256) {s : Session} (hi : NoFolder P size dev fs s0 x1 hdr e s) :
    (∀ t, Session.StepF P size dev mk s t → NoFolder P size dev fs s0 x1 hdr e t ∧ t.leftF hdr + 1 ≤ s.leftF hdr) ∧
    (s.closed = false → ∃ t, Session.StepF P size dev mk s t) := by
  have hst : s.prog.started = false := by
    cases hi with
    | start h => rw [h]; exact a1
    | header d h => rw [h]; exact b1
    | closing d _ h => exact h
  have noworker : s.prog.workerStep P.grabber = none := by
    unfold Prog.workerStep
    rw [hst]; rfl
  suffices hm : (s.closed = false → ∃ t, s.mainStepF P size dev mk = some t) ∧
      ∀ t, s.mainStepF P size dev mk = some t → NoFolder P size dev fs s0 x1 hdr e t ∧ t.leftF hdr + 1 ≤ s.leftF hdr by
    refine ⟨fun t ht => ?_, fun hc => ?_⟩
    · cases ht with
      | worker hw => rw [noworker] at hw; cases hw
      | main hm' => exact hm.2 t hm'
    · obtain ⟨t, ht⟩ := hm.1 hc
      exact ⟨t, .main ht⟩
  cases hi with
  | start h =>
    subst h
    have hov : (Session.start s0).over = false := by
      cases ho : (Session.start s0).over with
      | false => rfl
      | true =>
        rcases ((over_iff _).1 ho).2 with h | h | ⟨e', h⟩
        · exact absurd rfl h
        · rw [show (Session.start s0).prog.main = .running from a2] at h; cases h
        · rw [show (Session.start s0).prog.main = .running from a2] at h; cases h
    have hask : (Session.start s0).asksFirst P = false := by
      cases ha : (Session.start s0).asksFirst P with
      | false => rfl
      | true =>
        have := ((asksFirst_iff P _).1 ha).2.2.2.2.1
        rw [show (Session.start s0).prog.coder.needsFrame P.movie = false from a5] at this; cases this
    have hstep : (Session.start s0).mainStepF P size dev mk = some { Session.start s0 with prog := x1, todo := hdr } := by
      unfold Session.mainStepF
      rw [hask]
      simp only [Bool.false_eq_true, if_false]
      unfold Session.mainStep
      rw [hov]
      simp only [Session.start, Bool.false_eq_true, if_false]
      rw [a6]
      simp only [Option.map_some, a3, b3, List.length_nil, List.drop_zero]
    refine ⟨fun _ => ⟨_, hstep⟩, fun t ht => ?_⟩
    cases hstep.symm.trans ht
    refine ⟨.header [] ?_ rfl rfl rfl (Nat.zero_le _), ?_⟩
    · have hd := mainW_disk a6
      rw [← a4, ← hd]; rfl
    · unfold Session.leftF
      simp [Session.start, a2, a3, b2, b3, hne]
  | header d h hc he hb hroom =>
    have hov : s.todo ≠ [] ∨ s.over = false := by
      by_cases htd : s.todo = []
      · right
        cases ho : s.over with
        | false => rfl
        | true =>
          rcases ((over_iff _).1 ho).2 with h' | h' | ⟨e', h'⟩
          · exact absurd he h'
          · rw [h, show (x1.onDisk (fs.put P.name d)).main = .running from b2] at h'; cases h'
          · rw [h, show (x1.onDisk (fs.put P.name d)).main = .running from b2] at h'; cases h'
      · exact .inl htd
    have hmain : s.prog.main = .running := by rw [h]; exact b2
    have hout : s.prog.out = hdr := by rw [h]; exact b3
    have hleft : s.leftF hdr = 2 * s.todo.length + s.buf.length + 2 := by
      unfold Session.leftF
      simp [hc, he, hmain, hout, hne]
    cases htd : s.todo with
    | cons b rest =>
      have hask : s.asksFirst P = false := by
        cases ha : s.asksFirst P with
        | false => rfl
        | true => have := ((asksFirst_iff P _).1 ha).2.1; rw [htd] at this; cases this
      have hb256 : b < 256 := hsm b (by rw [← hb, htd]; simp)
      have hov : s.over = false := by
        cases ho : s.over with
        | false => rfl
        | true => have := ((over_iff _).1 ho).1; rw [htd] at this; cases this
      unfold Session.mainStepF
      rw [hask]
      simp only [Bool.false_eq_true, if_false]
      unfold Session.mainStep
      rw [if_neg (by rw [hc]; simp), htd]
      simp only
      rw [if_neg (by omega)]
      split
      · rename_i hr
        refine ⟨fun _ => ⟨_, rfl⟩, fun t ht => ?_⟩
        cases ht
        simp only [Bool.and_eq_true, decide_eq_true_eq] at hr
        refine ⟨.header d h hc he ?_ ?_, ?_⟩
        · show numbers d ++ numbers (s.buf ++ [BitVec.ofNat 8 b]) ++ rest = hdr
          rw [numbers_append, numbers_one hb256, ← hb, htd]; simp
        · show (s.buf ++ [_]).length ≤ size
          simp; omega
        · rw [hleft, htd]
          unfold Session.leftF
          simp [hc, he, hmain, hout, hne]
          omega
      · rename_i hr
        refine ⟨fun _ => ⟨_, rfl⟩, fun t ht => ?_⟩
        cases ht
        have hpos : 0 < s.buf.length := by
          apply List.length_pos_iff.2
          intro h0
          apply hr
          simp [h0, hz]
        unfold Session.rawWrite
        cases hd : dev s.calls with
        | error e' =>
          refine ⟨.closing d (by rw [h]; rfl) hst rfl ?_ (fun h' => (nomatch h')) ?_ (fun _ h' => (nomatch h')), ?_⟩
          · rw [← hb]; exact List.prefix_append _ _
          · intro e'' h''
            cases h''
            exact ⟨s.calls, Nat.lt_succ_self _, hd⟩
          · rw [hleft, htd]
            unfold Session.leftF
            simp [hov]
        | ok k =>
          refine ⟨.header (d ++ s.buf.take (k + 1)) ?_ hc he ?_ ?_, ?_⟩
          · show s.prog.append P.name _ = _
            unfold Prog.append
            rw [h]
            show x1.onDisk ((fs.put P.name d).put P.name (((fs.put P.name d) P.name).getD [] ++ _)) = _
            rw [put_put, put_same]; rfl
          · show numbers (d ++ s.buf.take (k + 1)) ++ numbers (s.buf.drop (k + 1)) ++ s.todo = hdr
            rw [numbers_append, List.append_assoc (numbers d), ← numbers_append, List.take_append_drop]; exact hb
          · show (s.buf.drop (k + 1)).length ≤ size
            rw [List.length_drop]; omega
          · rw [hleft]
            unfold Session.leftF
            have m1 : (s.prog.append P.name (s.buf.take (k + 1))).main = .running := hmain
            have m2 : (s.prog.append P.name (s.buf.take (k + 1))).out = hdr := hout
            simp only [hc, he, m1, m2, Bool.false_eq_true, if_false, ne_eq, not_true_eq_false, or_self, hne, List.length_drop]
            omega
    | nil =>
      have hov : s.over = false := by rcases hov with h' | h'; exact absurd htd h'; exact h'
      have hask : s.asksFirst P = true := (asksFirst_iff P s).2 ⟨hc, htd, hov, hmain, by rw [h]; exact b4, hst⟩
      unfold Session.mainStepF
      rw [hask]
      simp only [if_true]
      have hdisk : s.prog.disk = fs.put P.name d := by rw [h]; rfl
      rw [hdisk, hmk]
      refine ⟨fun _ => ⟨_, rfl⟩, fun t ht => ?_⟩
      cases ht
      have hb' : numbers d ++ numbers s.buf = hdr := by rw [htd, List.append_nil] at hb; exact hb
      refine ⟨.closing d hdisk hst htd (by rw [← hb']) (fun _ => ⟨rfl, hb'⟩) (fun e' h' => ?_) (fun h' => ?_), ?_⟩
      · rw [show s.error = some e' from h'] at he; cases he
      · rw [show s.closed = true from h'] at hc; cases hc
      · rw [hleft, htd]
        unfold Session.leftF
        simp [hc]
  | closing d hdisk _ htd hpre hnone herr hclo =>
    have hfail : s.error ≠ none ∨ s.prog.main = .raised e := by
      by_cases he : s.error = none
      · exact .inr (hnone he).1
      · exact .inl he
    have hov : s.over = true := (over_iff s).2 ⟨htd, by rcases hfail with h | h; exact .inl h; exact .inr (.inr ⟨e, h⟩)⟩
    have hask : s.asksFirst P = false := by
      cases ha : s.asksFirst P with
      | false => rfl
      | true => have := ((asksFirst_iff P _).1 ha).2.2.1; rw [hov] at this; cases this
    unfold Session.mainStepF
    rw [hask]
    simp only [Bool.false_eq_true, if_false]
    unfold Session.mainStep
    cases hc : s.closed with
    | true => exact ⟨fun h => (nomatch h), fun t ht => by cases ht⟩
    | false =>
      have hleft : s.leftF hdr = s.buf.length + 1 := by
        unfold Session.leftF
        rw [hc]
        simp only [Bool.false_eq_true, if_false]
        rw [if_pos]
        rcases hfail with h | h
        · exact .inl h
        · right; rw [h]; simp
      rw [htd, hov]
      simp only [Bool.false_eq_true, if_false, if_true]
      split
      · rename_i hbe
        refine ⟨fun _ => ⟨_, rfl⟩, fun t ht => ?_⟩
        cases ht
        refine ⟨.closing d hdisk hst rfl hpre hnone herr (fun _ _ => List.isEmpty_iff.1 hbe), ?_⟩
        rw [hleft]
        unfold Session.leftF
        simp
      · rename_i hbe
        refine ⟨fun _ => ⟨_, rfl⟩, fun t ht => ?_⟩
        cases ht
        have hpos : 0 < s.buf.length := List.length_pos_iff.2 (fun h0 => hbe (by rw [h0]; rfl))
        unfold Session.rawWrite
        cases hd : dev s.calls with
        | error e' =>
          refine ⟨.closing d hdisk hst rfl hpre (fun h' => (nomatch h')) ?_ (fun _ h' => (nomatch h')), ?_⟩
          · intro e'' h''
            cases h''
            exact ⟨s.calls, Nat.lt_succ_self _, hd⟩
          · rw [hleft]
            unfold Session.leftF
            simp [hov]
        | ok k =>
          have hnum : numbers (d ++ s.buf.take (k + 1)) ++ numbers (s.buf.drop (k + 1)) = numbers d ++ numbers s.buf := by
            rw [numbers_append, List.append_assoc, ← numbers_append, List.take_append_drop]
          refine ⟨.closing (d ++ s.buf.take (k + 1)) ?_ hst htd ?_ ?_ ?_ ?_, ?_⟩
          · show s.prog.disk.put P.name ((s.prog.disk P.name).getD [] ++ _) = _
            rw [hdisk, put_put, put_same]; rfl
          · show numbers (d ++ s.buf.take (k + 1)) ++ numbers (s.buf.drop (k + 1)) <+: hdr
            rw [hnum]; exact hpre
          · intro he
            refine ⟨(hnone he).1, ?_⟩
            show numbers (d ++ s.buf.take (k + 1)) ++ numbers (s.buf.drop (k + 1)) = hdr
            rw [hnum]; exact (hnone he).2
          · intro e' h'
            obtain ⟨j, h1, h2⟩ := herr e' h'
            exact ⟨j, Nat.lt_succ_of_lt h1, h2⟩
          · intro h'
            rw [show s.closed = true from h'] at hc; cases hc
          · rw [hleft]
            unfold Session.leftF
            have hfail' : s.error ≠ none ∨ (s.prog.append P.name (s.buf.take (k + 1))).main ≠ .running := by
              rcases hfail with h | h
              · exact .inl h
              · right
                show s.prog.main ≠ .running
                rw [h]; simp
            simp only [hc, Bool.false_eq_true, if_false]
            rw [if_pos hfail', List.length_drop]
            omega

/-- **C89.** If the directory cannot be made, the program ends with the exception after at most 17 steps, in every interleaving; no file but the output has changed, and that has at every
moment a beginning of the seven bytes of the header, and in the end all of them, unless a `write` fails. -/
theorem C89_unmade {H : Host} {argv : List Text} {fs : FS} {c : Command} {norm : Flt} {tpf : Rat} (h : Starts H argv c norm tpf) (h0 : H.double 0 = 0) (ha : ∀ x, H.addr x < 65536)
    (hlim : c.maxMb ≠ .negInf ∧ ∀ q, c.maxMb = .fin q → 0 ≤ q) (hs : hostSound H c norm ≠ []) {size : Nat} (hz : 0 < size) (dev : Device) {mk : FS → Option PyErr} {e : PyErr}
    (hmk : ∀ d, mk (fs.put (outFilename c.output c.input) d) = some e) :
    (∃ s, WorkingF H argv fs size dev mk 0 s) ∧ ∀ n s, WorkingF H argv fs size dev mk n s →
      n ≤ 17 ∧ (s.closed = false → ∃ t, WorkingF H argv fs size dev mk (n + 1) t) ∧
      ∃ d, s.prog.disk = fs.put (outFilename c.output c.input) d ∧ numbers d ++ numbers s.buf <+: Opcode.emit H.addr (.header c.mode) ∧
        (∀ e', s.error = some e' → ∃ j, j < s.calls ∧ dev j = .error e') ∧
        (s.closed = true → s.error = none → numbers d = Opcode.emit H.addr (.header c.mode) ∧ s.ending = .raised e) := by
  obtain ⟨P, s0, v, hl, -, hP, hc⟩ := starts_launch (fs := fs) h
  have hN : P.name = outFilename c.output c.input := by rw [hP]
  have haddr : P.movie.addr = H.addr := by rw [hP]
  have hmode : P.movie.mode = c.mode := by rw [hP]
  have hthr : P.movie.thr 0 = 0 := by rw [hP]; simp [tickThreshold, h0]; decide
  have hstop : P.movie.atLimit 0 = false := by
    rw [C80_limit P.movie c.maxMb (by rw [hP])]
    cases hm : c.maxMb with
    | fin q =>
      have := hlim.2 q hm
      simp only [maxBytes, limitReached]
      by_cases hq : q = 0
      · subst hq; simp
      · have hq' : 0 < q := lt_of_le_of_ne this (Ne.symm hq)
        simp
        intro _
        exact hq'
    | posInf => rfl
    | negInf => exact absurd hm hlim.1
    | nan => rfl
  have e7 : s0.coder.phase = .new := by rw [hc]
  have e8 : s0.coder.audio = hostSound H c norm := by rw [hc]
  have e9 : s0.coder.frameNumber = 0 := by rw [hc]
  obtain ⟨a1, a2, a3, p1, p2, a4⟩ := launch_start hl
  have n1 : s0.coder.needsFrame P.movie = false := by unfold Coder.needsFrame; simp only [e7]
  have hnext : P.next false { s0.coder with frames := [] } = .ok (some (.header c.mode, { s0.coder with frames := [], phase := .header })) := by
    have : Coder.nextT P.movie P.load false { s0.coder with frames := [] } = .ok (some (.header c.mode, { s0.coder with frames := [], phase := .header })) := by
      unfold Coder.nextT; simp only [e7, hmode]
    unfold Setup.next
    rw [this]
    cases P.soundEnd with
    | none => rfl
    | some e => simp only; rw [if_neg (fun hh => hh.1 e7)]
  have hack : P.movie.ackIfDue (0 + (Opcode.emit P.movie.addr (.header c.mode)).length) false =
      .ok ([], [], 0 + (Opcode.emit P.movie.addr (.header c.mode)).length, false) := by
    unfold Movie.ackIfDue
    rw [header_length]
    rfl
  let x1 : Prog := { s0 with main := .running, coder := { s0.coder with frames := [], phase := .header }, pos := 0 + (Opcode.emit P.movie.addr (.header c.mode)).length, aux := false,
                             out := [] ++ Opcode.emit P.movie.addr (.header c.mode) ++ [] }
  have a6 : s0.mainStepW P.movie P.next = some x1 := by
    unfold Prog.mainStepW
    rw [a2]
    simp only [n1, Bool.false_eq_true, if_false]
    unfold Prog.resumeW
    rw [p2, hnext]
    simp only [p1, hstop, Bool.false_eq_true, if_false, hack, a3]
    rfl
  have b3 : x1.out = Opcode.emit H.addr (.header c.mode) := by
    show [] ++ Opcode.emit P.movie.addr (.header c.mode) ++ [] = _
    rw [haddr]; simp
  have b4 : x1.coder.needsFrame P.movie = true := by
    obtain ⟨a, l, hal⟩ := List.exists_cons_of_ne_nil hs
    show Coder.needsFrame P.movie { s0.coder with frames := [], phase := .header } = true
    unfold Coder.needsFrame
    simp only [e8, hal, e9, hthr]
    simp
  have hne : Opcode.emit H.addr (.header c.mode) ≠ [] := by
    intro h'
    have := header_length c.mode H.addr
    rw [h'] at this; cases this
  have step := @noFolder_step P size hz dev mk fs s0 x1 _ e (by rw [hN]; exact hmk) a1 a2 a3 a4 n1 a6 a1 rfl b3 b4 hne (emit_small ha _)
  have inv : ∀ n s, Session.StepsF P size dev mk n (Session.start s0) s →
      NoFolder P size dev fs s0 x1 (Opcode.emit H.addr (.header c.mode)) e s ∧ n + s.leftF (Opcode.emit H.addr (.header c.mode)) ≤ 17 := by
    intro n
    induction n with
    | zero =>
      intro s hs
      cases hs
      refine ⟨.start rfl, ?_⟩
      unfold Session.leftF
      rw [header_length]
      simp [Session.start, a2, a3]
    | succ n ih =>
      intro s hs
      cases hs with
      | succ q1 q2 =>
        obtain ⟨i1, i2⟩ := ih _ q1
        obtain ⟨j1, j2⟩ := (step i1).1 _ q2
        exact ⟨j1, by omega⟩
  refine ⟨⟨Session.start s0, P, s0, hl, .zero _⟩, ?_⟩
  rintro n s ⟨P', s0', hl', hst⟩
  cases hl.symm.trans hl'
  obtain ⟨hi, hn⟩ := inv n s hst
  refine ⟨by omega, fun hcl => ?_, ?_⟩
  · obtain ⟨t, ht⟩ := (step hi).2 hcl
    exact ⟨t, P, s0, hl, .succ hst ht⟩
  · rw [← hN]
    cases hi with
    | start hs =>
      subst hs
      exact ⟨[], a4, List.nil_prefix, fun e' h' => (nomatch h'), fun h' => (nomatch h')⟩
    | header d q1 q2 q3 q4 =>
      refine ⟨d, by rw [q1]; rfl, by rw [← q4]; exact List.prefix_append _ _, fun e' h' => ?_, fun h' => ?_⟩
      · rw [q3] at h'; cases h'
      · rw [q2] at h'; cases h'
    | closing d q1 _ _ q2 q3 q4 q5 =>
      refine ⟨d, q1, q2, q4, fun h1 h2 => ?_⟩
      obtain ⟨r1, r2⟩ := q3 h2
      rw [q5 h1 h2] at r2
      refine ⟨by rw [← r2]; simp [numbers], ?_⟩
      unfold Session.ending
      rw [h2]; exact r1

/-- **C89** (defect).  An output file named like the directory of the pictures, or one on the way to it, is opened before the directory is made: then it never can be.  This is so
for `--output clip clip.mp4`, whatever is on the disk. -/
theorem C89_in_the_way (err : PyErr) (fs : FS) (d : List U8) :
    (∀ dir name, OnTheWay dir name → (fs.put name d).makedirs err dir = some err) ∧
    ∀ base ext m p, 46 ∉ ext → base ≠ [] → outFilename (some base) (base ++ txt "." ++ ext) = base ∧ OnTheWay (outputDir (base ++ txt "." ++ ext) m p) base := by
  refine ⟨fun dir name hw => ((C89_makedirs err dir _).2).2 ⟨name, d, hw, put_same _ _ _⟩, fun base ext m p he hb => ⟨?_, .inr ⟨m.name ++ txt "/" ++ p.name, ?_⟩⟩⟩
  · unfold outFilename
    cases base with
    | nil => exact absurd rfl hb
    | cons => rfl
  · rw [(C45_names base ext he m p).2]
    simp [txt]

/-- **C89.** The default output file is never in the way. -/
theorem C89_default (err : PyErr) (fs : FS) (d : List U8) (base ext : Text) (he : 46 ∉ ext) (m : VideoMode) (p : Palette) :
    (fs.put (outFilename none (base ++ txt "." ++ ext)) d).makedirs err (outputDir (base ++ txt "." ++ ext) m p) = fs.makedirs err (outputDir (base ++ txt "." ++ ext) m p) := by
  rw [(C45_names base ext he m p).1, (C45_names base ext he m p).2]
  have key : ¬ OnTheWay (base ++ txt "/" ++ m.name ++ txt "/" ++ p.name) (base ++ txt ".a2m") := by
    rintro (hw | ⟨rest, hw⟩)
    · rw [List.append_assoc, List.append_assoc, List.append_assoc] at hw
      have := List.append_cancel_left hw
      cases this
    · rw [List.append_assoc, List.append_assoc, List.append_assoc, List.append_assoc] at hw
      have := List.append_cancel_left hw
      cases this
  have hdir : base ++ txt "/" ++ m.name ++ txt "/" ++ p.name ≠ base ++ txt ".a2m" := fun h => key (.inl h.symm)
  unfold FS.makedirs
  rw [has_put fs hdir]
  have : (parents (base ++ txt "/" ++ m.name ++ txt "/" ++ p.name)).any (fs.put (base ++ txt ".a2m") d).has = (parents (base ++ txt "/" ++ m.name ++ txt "/" ++ p.name)).any fs.has := by
    have one : ∀ f ∈ parents (base ++ txt "/" ++ m.name ++ txt "/" ++ p.name), (fs.put (base ++ txt ".a2m") d).has f = fs.has f := fun f hf =>
      has_put fs (show f ≠ base ++ txt ".a2m" from fun h => key (.inr (h ▸ mem_parents.1 hf))) d
    rw [Bool.eq_iff_iff, List.any_eq_true, List.any_eq_true]
    constructor
    · rintro ⟨f, h1, h2⟩; exact ⟨f, h1, one f h1 ▸ h2⟩
    · rintro ⟨f, h1, h2⟩; exact ⟨f, h1, (one f h1).symm ▸ h2⟩
  rw [this]

/-! ### The hypotheses can be met -/

/-- `--output v v.mp4`. -/
def clashWords : List Text := [txt "--audio_norm", txt "1.5", txt "--output", txt "v", txt "v.mp4"]

theorem clash_starts : Starts demoHost clashWords { demoSettings with output := some (txt "v") } (.fin (3 / 2)) 490 := by
  obtain ⟨-, h2, h2', h3, -⟩ := demo_starts
  exact ⟨(C77_command_line _ _ _).1 rfl, h2, h2', h3, rfl⟩

/-- C89_unmade, C89_in_the_way: a run to its end, on an empty disk; the output file is `v`, and has the header only. -/
theorem demo_clash : ∃ n s d, WorkingF demoHost clashWords (fun _ => none) 4096 (fun _ => .ok 2) (FS.makedirs .valueError (txt "v/DHGR/NTSC")) n s ∧ s.closed = true ∧
    s.ending = .raised .valueError ∧ s.prog.disk (txt "v") = some d ∧ numbers d = Opcode.emit playerAddr (.header .DHGR) := by
  have way : ∀ d, FS.makedirs .valueError (txt "v/DHGR/NTSC") (FS.put (fun _ => none) (txt "v") d) = some .valueError := fun d =>
    (C89_in_the_way .valueError _ d).1 _ _ (.inr ⟨txt "DHGR/NTSC", by decide⟩)
  obtain ⟨⟨s0, w0⟩, hall⟩ := C89_unmade (fs := fun _ => none) clash_starts rfl player_small demo_smooth.limit (by decide +kernel) (by decide : 0 < 4096) (fun _ => .ok 2) way
  have reach : ∀ k n s, WorkingF demoHost clashWords (fun _ => none) 4096 (fun _ => .ok 2) (FS.makedirs .valueError (txt "v/DHGR/NTSC")) n s → 17 ≤ n + k →
      ∃ n s, WorkingF demoHost clashWords (fun _ => none) 4096 (fun _ => .ok 2) (FS.makedirs .valueError (txt "v/DHGR/NTSC")) n s ∧ s.closed = true := by
    intro k
    induction k with
    | zero =>
      intro n s hw hk
      cases hc : s.closed with
      | true => exact ⟨n, s, hw, hc⟩
      | false =>
        obtain ⟨t, ht⟩ := (hall n s hw).2.1 hc
        have := (hall _ _ ht).1
        omega
    | succ k ih =>
      intro n s hw hk
      cases hc : s.closed with
      | true => exact ⟨n, s, hw, hc⟩
      | false =>
        obtain ⟨t, ht⟩ := (hall n s hw).2.1 hc
        exact ih _ t ht (by omega)
  obtain ⟨n, s, hw, hc⟩ := reach 17 0 s0 w0 (by omega)
  obtain ⟨-, -, d, h1, -, h3, h4⟩ := hall n s hw
  have he : s.error = none := by
    cases he : s.error with
    | none => rfl
    | some e' => obtain ⟨j, -, h⟩ := h3 e' he; cases h
  obtain ⟨r1, r2⟩ := h4 hc he
  exact ⟨n, s, d, hw, hc, r2, by rw [h1]; exact put_same _ _ _, r1⟩

/-- C89_made, C89_default: the demo on an empty disk, to its end. -/
example : ∃ n s, WorkingF demoHost demoWords (fun _ => none) 4096 (fun _ => .ok 2) (FS.makedirs .valueError (txt "v/DHGR/NTSC")) n s ∧ s.closed = true ∧ s.ending = .finished := by
  obtain ⟨⟨n, s, hw, h1, h2⟩, -⟩ := demo_buffered
  obtain ⟨P, s0, v, hl, -, hP, -⟩ := starts_launch (fs := fun _ => none) demo_starts
  refine ⟨n, s, (C89_made hl (fun d => ?_) n s).2 hw, h1, h2⟩
  have hN : P.name = outFilename none (txt "v" ++ txt "." ++ txt "mp4") := by rw [hP]; rfl
  have := C89_default .valueError (fun _ => none) d (txt "v") (txt "mp4") (by decide) .DHGR .NTSC
  rw [← hN] at this
  exact this.trans (by decide)

end IIVision
