import Verif.Spec.Pcm
import Mathlib.Tactic.Linarith
import Mathlib.Data.Rat.Cast.Order
import Mathlib.Data.Rat.Floor
import Mathlib.Algebra.Order.Floor.Semiring
import Mathlib.Tactic.NormNum
import Mathlib.Tactic.Ring
import Mathlib.Tactic.FieldSimp

/-! Lemmas about the decoding of sound. -/

namespace IIVision.Pcm
open Spec

theorem value_bytes (v : Int) (h : -32768 ≤ v ∧ v < 32768) :
    (BitVec.ofInt 8 (v / 256) ++ BitVec.ofInt 8 v : BitVec 16).toInt = v := by
  rw [BitVec.toInt_eq_toNat_bmod, BitVec.toNat_append, BitVec.toNat_ofInt, BitVec.toNat_ofInt]
  rw [← Nat.shiftLeft_add_eq_or_of_lt (by omega), Nat.shiftLeft_eq]
  simp only [Int.bmod]
  omega

theorem int16s_append : ∀ (a b : List U8) (xs : List Int), int16s a = .ok xs →
    int16s (a ++ b) = (int16s b).map (xs ++ ·)
  | [], b, xs, h => by
    injection h with h; subst h
    cases hb : int16s b <;> simp [hb, Except.map]
  | [x], b, xs, h => by simp [int16s] at h
  | lo :: hi :: rest, b, xs, h => by
    simp only [int16s, bind, Except.bind] at h
    cases hr : int16s rest with
    | error e => rw [hr] at h; simp at h
    | ok ys =>
      rw [hr] at h
      simp only [pure, Except.pure, Except.ok.injEq] at h
      subst h
      have ih := int16s_append rest b ys hr
      simp only [List.cons_append, int16s, ih, bind, Except.bind]
      cases int16s b <;> simp [Except.map, pure, Except.pure]

theorem int16s_frame (f : List Int) (h : ∀ v ∈ f, -32768 ≤ v ∧ v < 32768) :
    int16s (f.flatMap valueBytes) = .ok f := by
  induction f with
  | nil => rfl
  | cons v f ih =>
    have ih := ih fun x hx => h x (by simp [hx])
    rw [List.flatMap_cons]
    show int16s (BitVec.ofInt 8 v :: BitVec.ofInt 8 (v / 256) :: f.flatMap valueBytes) = _
    simp only [int16s, ih, bind, Except.bind, pure, Except.pure, value_bytes v (h v (by simp))]

theorem int16s_frames {ch : Nat} (frames : List (List Int)) (h : GoodFrames ch frames) :
    int16s (pcmBytes frames) = .ok frames.flatten := by
  induction frames with
  | nil => rfl
  | cons f frames ih =>
    have ih := ih fun x hx => h x (by simp [hx])
    unfold pcmBytes at ih ⊢
    rw [List.flatMap_cons, int16s_append _ _ _ (int16s_frame f (h f (by simp)).2), ih]
    rfl

theorem int16s_length : ∀ (b : List U8), (b.length % 2 = 0 → ∃ xs, int16s b = .ok xs ∧ 2 * xs.length = b.length) ∧
    (b.length % 2 ≠ 0 → int16s b = .error .valueError)
  | [] => ⟨fun _ => ⟨[], rfl, rfl⟩, fun h => absurd rfl h⟩
  | [x] => ⟨fun h => absurd h (by simp), fun _ => rfl⟩
  | lo :: hi :: rest => by
    obtain ⟨h1, h2⟩ := int16s_length rest
    simp only [List.length_cons, int16s, bind, Except.bind]
    constructor
    · intro h
      obtain ⟨xs, h3, h4⟩ := h1 (by omega)
      rw [h3]
      exact ⟨_, rfl, by simp only [List.length_cons]; omega⟩
    · intro h
      rw [h2 (by omega)]

theorem flatten_length {ch : Nat} (frames : List (List Int)) (h : ∀ f ∈ frames, f.length = ch) :
    frames.flatten.length = frames.length * ch := by
  induction frames with
  | nil => simp
  | cons f frames ih =>
    have ih := ih fun x hx => h x (by simp [hx])
    rw [List.flatten_cons, List.length_append, ih, h f (by simp), List.length_cons]
    ring

theorem flatten_getD {ch : Nat} (frames : List (List Int)) (h : ∀ f ∈ frames, f.length = ch) (i c : Nat)
    (hc : c < ch) : frames.flatten.getD (i * ch + c) 0 = (frames.getD i []).getD c 0 := by
  induction frames generalizing i with
  | nil => simp
  | cons f frames ih =>
    have hf : f.length = ch := h f (by simp)
    have ih := ih fun x hx => h x (by simp [hx])
    rw [List.flatten_cons]
    cases i with
    | zero =>
      simp only [List.getD_eq_getElem?_getD, Nat.zero_mul, Nat.zero_add, List.getElem?_cons_zero, Option.getD_some]
      rw [List.getElem?_append_left (by omega)]
    | succ i =>
      have := ih i
      simp only [List.getD_eq_getElem?_getD, List.getElem?_cons_succ] at this ⊢
      rw [← this, List.getElem?_append_right (by rw [hf]; ring_nf; omega)]
      congr 2
      rw [hf]
      have : (i + 1) * ch + c = ch + (i * ch + c) := by ring
      omega

theorem sum_range (f : List Int) : ((List.range f.length).map fun c => f.getD c 0).sum = f.sum := by
  have : (List.range f.length).map (fun c => f.getD c 0) = f := by
    apply List.ext_getElem
    · simp
    · intro i h1 h2
      simp [List.getD_eq_getElem?_getD, h2]
  rw [this]

theorem mono_frames {ch : Nat} (hch : 0 < ch) (rnd : Rat → Rat) (frames : List (List Int)) (h : GoodFrames ch frames) :
    ∃ rows, reshapeF ch frames.flatten = .ok rows ∧ toMono rnd rows = frames.map (monoOf rnd) := by
  have hl := flatten_length frames fun f hf => (h f hf).1
  have hdiv : frames.flatten.length / ch = frames.length := by rw [hl, Nat.mul_div_cancel _ hch]
  have hmod : frames.flatten.length % ch = 0 := by rw [hl, Nat.mul_mod_left]
  refine ⟨_, by rw [reshapeF, if_neg (by rw [hmod]; omega)], ?_⟩
  have hhead : ∀ g : Nat → List Int, (((List.range ch).map g).headD []) = g 0 := by
    intro g
    cases ch with
    | zero => omega
    | succ n => simp [List.range_succ_eq_map]
  unfold toMono
  rw [hhead, hdiv]
  apply List.ext_getElem
  · simp
  · intro i h1 h2
    simp only [List.length_map, List.length_range] at h1 h2
    simp only [List.getElem_map, List.getElem_range, List.length_map, List.length_range, List.map_map, Function.comp_def]
    have hf := h frames[i] (List.getElem_mem _)
    unfold monoOf
    rw [hf.1]
    congr 2
    congr 1
    rw [← sum_range frames[i], hf.1]
    congr 1
    apply List.map_congr_left
    intro c hc
    have hc := List.mem_range.mp hc
    simp only [List.getD_eq_getElem?_getD]
    rw [List.getElem?_map, List.getElem?_range h2]
    simp only [Option.map_some, Option.getD_some]
    have := flatten_getD frames (fun f hf => (h f hf).1) i c hc
    simp only [List.getD_eq_getElem?_getD] at this
    rw [this, List.getElem?_eq_getElem h2]
    rfl

theorem decode_frames (F : Format) (hch : 0 < F.channels) (frames : List (List Int)) (h : GoodFrames F.channels frames) :
    F.decode (pcmBytes frames) = .ok (F.resample (frames.map (monoOf F.rnd))) := by
  obtain ⟨rows, h1, h2⟩ := mono_frames hch F.rnd frames h
  simp only [Format.decode, int16s_frames frames h, bind, Except.bind, h1, h2, pure, Except.pure]

end IIVision.Pcm
