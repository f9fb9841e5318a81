import Verif.Spec.Grabber

/-! Lemmas about file names. -/

namespace IIVision
open Spec

theorem pieces_ne_nil (sep : Nat) (t : Text) : splitOn sep t ≠ [] := by
  cases t with
  | nil => simp [splitOn]
  | cons c t =>
    simp only [splitOn]
    split
    · simp
    · split <;> simp

theorem pieces_plain {sep : Nat} {t : Text} (h : sep ∉ t) : splitOn sep t = [t] := by
  induction t with
  | nil => rfl
  | cons c t ih =>
    simp only [List.mem_cons, not_or] at h
    simp only [splitOn, if_neg (fun hc : c = sep => h.1 hc.symm), ih h.2]

theorem pieces_append {sep : Nat} {ext : Text} (h : sep ∉ ext) (base : Text) :
    splitOn sep (base ++ sep :: ext) = splitOn sep base ++ [ext] := by
  induction base with
  | nil => simp [splitOn, pieces_plain h]
  | cons c t ih =>
    simp only [List.cons_append, splitOn, ih]
    by_cases hc : c = sep
    · simp [hc]
    · simp only [if_neg hc]
      cases hsp : splitOn sep t with
      | nil => exact absurd hsp (pieces_ne_nil sep t)
      | cons w ws => simp

theorem pyJoin_splitOn (sep : Nat) (t : Text) : pyJoin sep (splitOn sep t) = t := by
  induction t with
  | nil => rfl
  | cons c t ih =>
    simp only [splitOn]
    by_cases hc : c = sep
    · simp only [if_pos hc]
      cases hsp : splitOn sep t with
      | nil => exact absurd hsp (pieces_ne_nil sep t)
      | cons w ws =>
        rw [hsp] at ih
        simp [pyJoin, ih, hc]
    · simp only [if_neg hc]
      cases hsp : splitOn sep t with
      | nil => exact absurd hsp (pieces_ne_nil sep t)
      | cons w ws =>
        rw [hsp] at ih
        cases ws with
        | nil => simp only [pyJoin] at ih ⊢; rw [ih]
        | cons w' ws => simp only [pyJoin] at ih ⊢; rw [← ih]; rfl

theorem pyJoin_concat (sep : Nat) (ws : List Text) (h : ws ≠ []) (w : Text) :
    pyJoin sep (ws ++ [w]) = pyJoin sep ws ++ sep :: w := by
  induction ws with
  | nil => exact absurd rfl h
  | cons x ws ih =>
    cases ws with
    | nil => rfl
    | cons y ws => 
      have := ih (by simp)
      simp only [List.cons_append, pyJoin] at this ⊢
      rw [this]; simp

theorem outFilename_ext {ext : Text} (h : 46 ∉ ext) (base : Text) :
    outFilename none (base ++ 46 :: ext) = base ++ txt ".a2m" := by
  simp only [outFilename, pieces_append h, List.dropLast_concat]
  rw [pyJoin_concat _ _ (pieces_ne_nil _ _), pyJoin_splitOn]
  rfl

theorem outputDir_ext {ext : Text} (h : 46 ∉ ext) (base : Text) (m : VideoMode) (p : Palette) :
    outputDir (base ++ 46 :: ext) m p = base ++ 47 :: m.name ++ 47 :: p.name := by
  simp only [outputDir, pieces_append h, List.dropLast_concat, pyJoin_splitOn]

/-- The part after the last separator is determined. -/
theorem split_last {sep : Nat} {a b x y : Text} (hx : sep ∉ x) (hy : sep ∉ y)
    (h : a ++ sep :: x = b ++ sep :: y) : a = b ∧ x = y := by
  have h1 := pieces_append hx a
  rw [h, pieces_append hy b] at h1
  have h2 := List.append_inj' h1 rfl
  have h3 : y = x := by simpa using h2.2
  subst h3
  exact ⟨List.append_cancel_right h, rfl⟩

theorem VideoMode.name_plain (m : VideoMode) : 47 ∉ m.name := by cases m <;> decide

theorem Palette.name_plain (p : Palette) : 47 ∉ p.name := by cases p <;> decide

theorem VideoMode.name_inj {m m' : VideoMode} (h : m.name = m'.name) : m = m' := by
  cases m <;> cases m' <;> first | rfl | exact absurd h (by decide)

theorem Palette.name_inj {p p' : Palette} (h : p.name = p'.name) : p = p' := by
  cases p <;> cases p' <;> first | rfl | exact absurd h (by decide)

theorem dir_inj {a b : Text} {m m' : VideoMode} {p p' : Palette}
    (h : a ++ 47 :: m.name ++ 47 :: p.name = b ++ 47 :: m'.name ++ 47 :: p'.name) :
    a = b ∧ m = m' ∧ p = p' := by
  have h1 := split_last p.name_plain p'.name_plain h
  have h2 := split_last m.name_plain m'.name_plain h1.1
  exact ⟨h2.1, VideoMode.name_inj h2.2, Palette.name_inj h1.2⟩

/-- Value of a decimal number. -/
def decValue (t : Text) : Nat := t.foldl (fun a c => 10 * a + (c - 48)) 0

theorem decValue_concat (t : Text) (c : Nat) : decValue (t ++ [c]) = 10 * decValue t + (c - 48) := by
  simp [decValue]

theorem decValue_decText (n : Nat) : decValue (decText n) = n := by
  induction n using Nat.strongRecOn with
  | _ n ih =>
    rw [decText]
    split
    · simp [decValue]
    · rw [decValue_concat, ih (n / 10) (by omega)]; omega

theorem decValue_zeros (k : Nat) (t : Text) : decValue (List.replicate k 48 ++ t) = decValue t := by
  induction k with
  | zero => rfl
  | succ k ih =>
    rw [List.replicate_succ, List.cons_append]
    rw [← ih]
    simp [decValue]

theorem decValue_dec08 (n : Nat) : decValue (dec08 n) = n := by
  rw [dec08, decValue_zeros, decValue_decText]

theorem dec08_inj {m n : Nat} (h : dec08 m = dec08 n) : m = n := by
  rw [← decValue_dec08 m, h, decValue_dec08]

theorem decText_digit {n c : Nat} (h : c ∈ decText n) : 48 ≤ c ∧ c ≤ 57 := by
  induction n using Nat.strongRecOn with
  | _ n ih =>
    rw [decText] at h
    split at h
    · simp at h; omega
    · rw [List.mem_append] at h
      rcases h with h | h
      · exact ih (n / 10) (by omega) h
      · simp at h; omega

theorem decText_length : ∀ k n : Nat, n < 10 ^ (k + 1) → (decText n).length ≤ k + 1 := by
  intro k
  induction k with
  | zero => intro n h; rw [decText, if_pos (by omega)]; exact Nat.le_refl _
  | succ k ih =>
    intro n h
    rw [decText]
    split
    · simp
    · rw [List.length_append]
      have := ih (n / 10) (by rw [Nat.div_lt_iff_lt_mul (by omega)]; rw [Nat.pow_succ] at h; exact h)
      simpa using this

theorem dec08_length {n : Nat} (h : n < 10 ^ 8) : (dec08 n).length = 8 := by
  have := decText_length 7 n h
  rw [dec08, List.length_append, List.length_replicate]
  omega

theorem dec08_digit {n c : Nat} (h : c ∈ dec08 n) : 48 ≤ c ∧ c ≤ 57 := by
  simp only [dec08, List.mem_append, List.mem_replicate] at h
  rcases h with h | h
  · omega
  · exact decText_digit h

/-- Digits followed by something that does not start with a digit. -/
theorem digits_split {d d' s s' : Text} (hd : ∀ c ∈ d, 48 ≤ c ∧ c ≤ 57)
    (hd' : ∀ c ∈ d', 48 ≤ c ∧ c ≤ 57) (hs : ∀ c ∈ s.head?, ¬(48 ≤ c ∧ c ≤ 57))
    (hs' : ∀ c ∈ s'.head?, ¬(48 ≤ c ∧ c ≤ 57)) (h : d ++ s = d' ++ s') : d = d' ∧ s = s' := by
  induction d generalizing d' with
  | nil =>
    cases d' with
    | nil => exact ⟨rfl, h⟩
    | cons c d' =>
      simp only [List.nil_append, List.cons_append] at h
      subst h
      exact absurd (hd' c (by simp)) (hs c (by simp))
  | cons c d ih =>
    cases d' with
    | nil =>
      simp only [List.nil_append, List.cons_append] at h
      subst h
      exact absurd (hd c (by simp)) (hs' c (by simp))
    | cons c' d' =>
      simp only [List.cons_append, List.cons.injEq] at h
      have := ih (fun x hx => hd x (by simp [hx])) (fun x hx => hd' x (by simp [hx])) h.2
      exact ⟨by rw [h.1, this.1], this.2⟩

/-- Suffixes that can follow a frame number. -/
def Suffix (s : Text) : Prop := 47 ∉ s ∧ ∀ c ∈ s.head?, ¬(48 ≤ c ∧ c ≤ 57)

theorem suffix_cbin : Suffix (txt "C.BIN") := by unfold Suffix; decide
theorem suffix_bin : Suffix (txt ".BIN") := by unfold Suffix; decide
theorem suffix_aux : Suffix (txt ".AUX") := by unfold Suffix; decide
theorem suffix_bmp : Suffix (txt ".bmp") := by unfold Suffix; decide

theorem file_inj {a b : Text} {i j : Nat} {s s' : Text} (hs : Suffix s) (hs' : Suffix s')
    (h : a ++ 47 :: dec08 i ++ s = b ++ 47 :: dec08 j ++ s') : a = b ∧ i = j ∧ s = s' := by
  have hp : ∀ (n : Nat) (t : Text), Suffix t → 47 ∉ dec08 n ++ t := by
    intro n t ht hm
    rw [List.mem_append] at hm
    rcases hm with hm | hm
    · exact absurd (dec08_digit hm) (by omega)
    · exact ht.1 hm
  have h' : a ++ 47 :: (dec08 i ++ s) = b ++ 47 :: (dec08 j ++ s') := by simpa using h
  have h1 := split_last (hp i s hs) (hp j s' hs') h'
  have h2 := digits_split (fun _ => dec08_digit) (fun _ => dec08_digit) hs.2 hs'.2 h1.2
  exact ⟨h1.1, dec08_inj h2.1, h2.2⟩

theorem Grabber.path_inj {G : Grabber} {i j : Nat} {s s' : Text} (hs : Suffix s) (hs' : Suffix s')
    (h : G.path i s = G.path j s') : i = j ∧ s = s' := by
  exact (file_inj hs hs' h).2

/-- No file of a picture is a file of another one. -/
theorem ownFile_inj {G : Grabber} {i j : Nat} {q : Text} (h : OwnFile G i q) (h' : OwnFile G j q) :
    i = j := by
  have hx : ∀ k, OwnFile G k q → ∃ s, Suffix s ∧ q = G.path k s := by
    rintro k (h | h | h | h)
    · exact ⟨_, suffix_cbin, h⟩
    · exact ⟨_, suffix_bin, h⟩
    · exact ⟨_, suffix_aux, h⟩
    · exact ⟨_, suffix_bmp, h⟩
  obtain ⟨s, hs, rfl⟩ := hx i h
  obtain ⟨s', hs', he⟩ := hx j h'
  exact (Grabber.path_inj hs hs' he).1

end IIVision
