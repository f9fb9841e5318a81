import Verif.Props.Reserve

/-! Claim C98: delays do not accumulate. -/

namespace IIVision
open Spec

theorem Player.lost_step (w : Nat → Player.Stay) (m : Nat) : Player.lost w (m + 1) = Player.lost w m + (25 * (w m).polls + (w m).pause) := by
  unfold Player.lost
  rw [List.range_succ, List.map_append, List.sum_append]
  simp [Player.Stay.cycles]

theorem Player.pausesOf_step (w : Nat → Player.Stay) (m : Nat) : Player.pausesOf w (m + 1) = Player.pausesOf w m + (w m).pause := by
  unfold Player.pausesOf
  rw [List.range_succ, List.map_append, List.sum_append]
  simp

/-- **C98.** A movie is played over any network that delivers, with any pauses that end.  If no block arrives more than `d` cycles after it is due, then at no time more than `d + 24` cycles have been lost to the network, however
often blocks were late; and if a block has not arrived `d` cycles after it is due, more than `d` cycles have been lost after it.  So what is lost is the greatest lateness of a block so far, up to the 25 cycles between two looks. -/
theorem C98_lateness {M : Movie} {A : List Int} {F : List Frame} (hin : MovieInput M A F) (ha : M.addr = playerAddr)
    {tape : Nat → Nat} {ops : List Opcode} {bytes : List Nat} (h : M.stream tape A F = .ok (ops, bytes))
    {e : Player.Env} (hfile : e.file = bytes.map (BitVec.ofNat 8)) (hD : e.Delivers) (hA : e.Answers) (hR : e.NeverRefuses)
    (hO : e.StaysOpen ∨ 8192 < e.file.length)
    {s : Player.Mach} (hs : Player.Started s) (hw : s.w.works = true) (hk : Player.PausesEnd e s) :
    ∃ body s1 s2 w, ops = .header M.mode :: body ++ [.terminate] ∧ s.Reaches e s1 ∧ Player.Executes e s1 body s2 ∧ s2.pc = playerAddr .terminate ∧
      (Player.NoKeys e s → ∀ m, Player.pausesOf w m = 0) ∧
      s2.cycles = s1.cycles + Player.tickStart (ticksOf false body).length + Player.lost w (((ticksOf false body).length + 1) / 292) ∧
      s2.clicks = s1.clicks ++ Player.stayClicks w s1.cycles body ∧
      ∀ n, n ≤ ((ticksOf false body).length + 1) / 292 →
        (∀ d, (∀ m, m < n → Player.InTime e s1 m d) → Player.lost w n ≤ d + 24 + Player.pausesOf w n) ∧
        (∀ d m, m < n → Player.TooLate e s1 s2 m d → d < Player.lost w n) ∧
        ∀ m, m < n → Player.InTime e s1 m (Player.lost w n) := by
  obtain ⟨body, s1, s2, w, a1, a2, a3, a4, ak, a5, a6, a7⟩ := C97_movie hin ha h hfile hD hA hR hO hs hw hk
  have grow : ∀ m k, Player.lost w m ≤ Player.lost w (m + k) := by
    intro m k
    induction k with
    | zero => exact Nat.le_refl _
    | succ k ih => have := Player.lost_step w (m + k); rw [← Nat.add_assoc]; omega
  refine ⟨body, s1, s2, w, a1, a2, a3, a4, fun hk m => ?_, a5, a6, fun n hn => ⟨fun d hd => ?_, fun d m hm ht => ?_, fun m hm => ?_⟩⟩
  · induction m with
    | zero => rfl
    | succ m ih => rw [Player.pausesOf_step, ih, ak hk m]
  · induction n with
    | zero => exact Nat.zero_le _
    | succ n ih =>
      have ih := ih (by omega) fun m hm => hd m (by omega)
      obtain ⟨y, y1, y2, y3⟩ := hd n (by omega)
      have hp := (a7 n (by omega)).2.1 ((d - Player.lost w n + 24) / 25) y y1 y3 (by unfold Player.lookTime; omega)
      rw [Player.lost_step, Player.pausesOf_step]
      omega
  · obtain ⟨y, y1, y2, y3, y4⟩ := ht
    obtain ⟨k, hk⟩ := Nat.exists_eq_add_of_lt hm
    have hg := grow (m + 1) k
    rw [show m + 1 + k = n by omega] at hg
    refine Nat.lt_of_lt_of_le ?_ hg
    have hst := Player.lost_step w m
    by_cases hlt : d < Player.lost w m
    · omega
    · have := (a7 m (by omega)).2.2 ((d - Player.lost w m) / 25) y y1 y2 y4 (by unfold Player.lookTime; omega)
      omega
  · obtain ⟨x, x1, -, x2, x3, -⟩ := (a7 m (by omega)).1 _ (Nat.le_refl _)
    obtain ⟨k, hk⟩ := Nat.exists_eq_add_of_lt hm
    have hg := grow (m + 1) k
    rw [show m + 1 + k = n by omega] at hg
    have hst := Player.lost_step w m
    exact ⟨x, x1, by unfold Player.lookTime at x2; omega, x3.2 rfl⟩

/-- C98_lateness: all hypotheses together, for a movie of 1000 ticks, so three ACKs, and a slow network; `d` as in its first part exists always, by its last. -/
example : ∃ (ops : List Opcode) (bytes : List Nat) (e : Player.Env) (s : Player.Mach),
    MovieInput { sampleMovie with limit := 0, addr := playerAddr } (List.replicate 1000 0) (List.replicate 1000 ⟨stripesFrame.main, stripesFrame.aux⟩) ∧
    ({ sampleMovie with limit := 0, addr := playerAddr } : Movie).stream (fun _ => 0) (List.replicate 1000 0)
      (List.replicate 1000 ⟨stripesFrame.main, stripesFrame.aux⟩) = .ok (ops, bytes) ∧ (ticksOf false ops).length = 1000 ∧ (1000 + 1) / 292 = 3 ∧
    e.file = bytes.map (BitVec.ofNat 8) ∧ e.Delivers ∧ ¬ e.KeepsUp ∧ e.Answers ∧ e.NeverRefuses ∧ e.StaysOpen ∧ Player.Started s ∧ s.w.works = true ∧ Player.PausesEnd e s :=
  reserve_sample

end IIVision
