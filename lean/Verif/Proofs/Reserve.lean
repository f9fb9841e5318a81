import Verif.Proofs.Waits
import Verif.Spec.Reserve

/-! Where the ACKs of a movie are. -/

namespace IIVision.Player

open Spec

theorem nth_ack : ∀ (l : List Opcode) (m : Nat), m < (acks l).length → ∃ done a rest, l = done ++ .ack a :: rest ∧ (acks done).length = m
  | [], _, h => absurd h (Nat.not_lt_zero _)
  | .ack z :: l, 0, _ => ⟨[], z, l, rfl, rfl⟩
  | .ack z :: l, m + 1, h => by
    obtain ⟨d, a, r, h1, h2⟩ := nth_ack l m (Nat.lt_of_succ_lt_succ h)
    exact ⟨.ack z :: d, a, r, by rw [h1]; rfl, congrArg (· + 1) h2⟩
  | .tick x p c os :: l, m, h => by
    obtain ⟨d, a, r, h1, h2⟩ := nth_ack l m h
    exact ⟨.tick x p c os :: d, a, r, by rw [h1]; rfl, h2⟩
  | .nop :: l, m, h => by
    obtain ⟨d, a, r, h1, h2⟩ := nth_ack l m h
    exact ⟨.nop :: d, a, r, by rw [h1]; rfl, h2⟩
  | .header x :: l, m, h => by
    obtain ⟨d, a, r, h1, h2⟩ := nth_ack l m h
    exact ⟨.header x :: d, a, r, by rw [h1]; rfl, h2⟩
  | .terminate :: l, m, h => by
    obtain ⟨d, a, r, h1, h2⟩ := nth_ack l m h
    exact ⟨.terminate :: d, a, r, by rw [h1]; rfl, h2⟩

/-- Where the `m`-th ACK of a movie is, and when it begins. -/
theorem movie_ack {M : Movie} {A : List Int} {F : List Frame} (hin : MovieInput M A F)
    {tape : Nat → Nat} {body : List Opcode} {bytes : List Nat} (h : M.stream tape A F = .ok (.header M.mode :: body ++ [.terminate], bytes))
    {m : Nat} (hm : m < ((ticksOf false body).length + 1) / 292) :
    ∃ done a rest, body = done ++ .ack a :: rest ∧ (acks done).length = m ∧ duration done = 73 * (294 * m + 291) := by
  have htot := (movie_total hin h).2
  obtain ⟨done, a, rest, h1, h2⟩ := nth_ack body m (by omega)
  refine ⟨done, a, rest, h1, h2, ?_⟩
  obtain ⟨pre, t, p, c, os, post, a1, -, a3, a4⟩ := movie_tick hin h (i := 292 * m + 290) (by omega)
  obtain ⟨pre2, post2, b1, -, b3, b4, -⟩ := movie_parts hin h (i := 292 * m + 291) (by omega)
  unfold tickStart at a3 b3
  have hone : pre ++ Opcode.tick t p c os :: post = (pre ++ [.tick t p c os]) ++ post := by simp
  have d1 : duration (pre ++ [.tick t p c os]) = duration pre + 73 := by rw [duration_append]; rfl
  have k1 : (acks (pre ++ [.tick t p c os])).length = (acks pre).length := by rw [acks_append, List.length_append]; rfl
  have lower : duration (pre ++ [.tick t p c os]) ≤ duration done := by
    rcases List.append_eq_append_iff.1 (hone ▸ a1 ▸ h1 : (pre ++ [.tick t p c os]) ++ post = done ++ .ack a :: rest) with ⟨l, c1, -⟩ | ⟨l, c1, c2⟩
    · have := duration_append (pre ++ [.tick t p c os]) l
      rw [c1]
      omega
    · cases l with
      | nil => rw [c1, List.append_nil]
      | cons o l =>
        cases (List.cons.inj c2).1
        have := congrArg (fun l => (acks l).length) c1
        rw [k1, acks_append, List.length_append, h2, a4] at this
        have : (292 * m + 290 + 1) / 292 = m + ((acks l).length + 1) := this
        omega
  have upper : duration done + 146 ≤ duration pre2 := by
    rcases List.append_eq_append_iff.1 (b1 ▸ h1 : pre2 ++ post2 = done ++ .ack a :: rest) with ⟨l, c1, -⟩ | ⟨l, c1, c2⟩
    · have := congrArg (fun l => (acks l).length) c1
      rw [acks_append, List.length_append, h2, b4] at this
      omega
    · cases l with
      | nil =>
        rw [c1, List.append_nil, h2] at b4
        omega
      | cons o l =>
        cases (List.cons.inj c2).1
        rw [c1, duration_append]
        have : duration (Opcode.ack a :: l) = 2 * 73 + duration l := rfl
        omega
  omega

end IIVision.Player
