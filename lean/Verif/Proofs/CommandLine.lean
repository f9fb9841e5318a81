import Verif.Spec.CommandLine

/-! Lemmas for the command line. -/

namespace IIVision
open Spec (Spelling PlainWord OptionLike Negative CmdPart Spells valuesOf inputsOf Setting Meaning)

theorem filter_singleton {α : Type} {L : List α} (nd : L.Nodup) (q : α → Bool) (x : α) :
    L.filter q = [x] ↔ x ∈ L ∧ q x = true ∧ ∀ y ∈ L, q y = true → y = x := by
  constructor
  · intro h
    have hx : x ∈ L.filter q := by rw [h]; exact List.mem_singleton.2 rfl
    have ⟨h1, h2⟩ := List.mem_filter.1 hx
    refine ⟨h1, h2, fun y hy hq => ?_⟩
    have : y ∈ L.filter q := List.mem_filter.2 ⟨hy, hq⟩
    rw [h] at this; exact List.mem_singleton.1 this
  · rintro ⟨h1, h2, h3⟩
    have hx : x ∈ L.filter q := List.mem_filter.2 ⟨h1, h2⟩
    have nd' : (L.filter q).Nodup := nd.filter q
    have all : ∀ y ∈ L.filter q, y = x := fun y hy => h3 y (List.mem_filter.1 hy).1 (List.mem_filter.1 hy).2
    revert hx nd' all
    generalize L.filter q = M
    intro hx nd' all
    match M with
    | [] => cases hx
    | [a] => rw [all a (List.mem_singleton.2 rfl)]
    | a :: b :: _ =>
      have e1 := all a (by simp)
      have e2 := all b (by simp)
      subst e1; subst e2
      simp at nd'

theorem partitionEq_fst (w : Text) : (partitionEq w).1 = w.takeWhile (· ≠ 61) := by
  induction w with
  | nil => rfl
  | cons c t ih =>
    by_cases h : c = 61
    · simp [partitionEq, h]
    · simp only [partitionEq, h, if_false, List.takeWhile_cons, ih]; simp [h]

theorem partitionEq_none {w : Text} (h : (partitionEq w).2 = none) : (partitionEq w).1 = w := by
  induction w with
  | nil => rfl
  | cons c t ih =>
    by_cases hc : c = 61
    · simp [partitionEq, hc] at h
    · simp only [partitionEq, hc, if_false] at h ⊢; rw [ih h]

theorem partitionEq_some {w e : Text} (h : (partitionEq w).2 = some e) : w = (partitionEq w).1 ++ txt "=" ++ e := by
  induction w with
  | nil => simp [partitionEq] at h
  | cons c t ih =>
    by_cases hc : c = 61
    · simp [partitionEq, hc] at h ⊢; subst h; rfl
    · simp only [partitionEq, hc, if_false] at h ⊢
      have := ih h
      simp only [List.cons_append]
      rw [← this]

theorem partitionEq_of_not_mem {p : Text} (h : 61 ∉ p) : partitionEq p = (p, none) := by
  induction p with
  | nil => rfl
  | cons c t ih =>
    simp only [List.mem_cons, not_or] at h
    simp [partitionEq, Ne.symm h.1, ih h.2]

theorem partitionEq_append {p : Text} (h : 61 ∉ p) (e : Text) : partitionEq (p ++ txt "=" ++ e) = (p, some e) := by
  induction p with
  | nil => rfl
  | cons c t ih =>
    simp only [List.mem_cons, not_or] at h
    have := ih h.2
    simp only [List.append_assoc] at this
    simp [partitionEq, Ne.symm h.1, this]

/-- The words of the options. -/
def optWords : List (Text × Opt) := [(txt "--help", .help), (txt "--output", .output), (txt "--max_output_mb", .maxMb),
   (txt "--audio_normalization", .normalization), (txt "--audio_bitrate", .bitrate),
   (txt "--every_n_video_frames", .everyN), (txt "--video_mode", .mode), (txt "--palette", .palette)]

theorem mem_optWords {x : Text × Opt} : x ∈ optWords ↔ x.1 = Spec.Opt.word x.2 := by
  obtain ⟨w, o⟩ := x
  constructor
  · intro h
    simp only [optWords, List.mem_cons, Prod.mk.injEq, List.not_mem_nil, or_false] at h
    rcases h with h|h|h|h|h|h|h|h <;> (obtain ⟨rfl, rfl⟩ := h; rfl)
  · intro h
    simp only at h
    subst h
    cases o <;> simp [optWords, Spec.Opt.word]

theorem optWords_nodup : optWords.Nodup := by decide

theorem word_no_eq (o : Opt) : 61 ∉ Spec.Opt.word o := by cases o <;> decide

theorem word_dashes (o : Opt) : ∃ r, Spec.Opt.word o = 45 :: 45 :: r := by cases o <;> exact ⟨_, rfl⟩

theorem word_unique (o o' : Opt) (h : Spec.Opt.word o <+: Spec.Opt.word o') : o' = o := by
  revert h
  cases o <;> cases o' <;> decide

theorem prefix_no_eq {p : Text} {o : Opt} (h : p <+: Spec.Opt.word o) : 61 ∉ p := fun hm =>
  word_no_eq o (h.subset hm)

/-- A spelling begins with two dashes. -/
theorem spelling_dashes {p : Text} {o : Opt} (h : Spelling p o) : ∃ c r, p = 45 :: 45 :: c :: r := by
  obtain ⟨h1, h2⟩ := h
  have bad : ¬ (∀ o', o' = o) := fun h => by
    have := (h .help).trans (h .output).symm
    cases this
  match p with
  | [] => exact absurd (fun o' => h2 o' (List.nil_prefix)) bad
  | [a] =>
    refine absurd (fun o' => h2 o' ?_) bad
    obtain ⟨r, e⟩ := word_dashes o
    obtain ⟨r', e'⟩ := word_dashes o'
    rw [e] at h1; rw [e']
    obtain ⟨t, ht⟩ := h1
    simp at ht
    exact ⟨45 :: r', by simp [ht.1]⟩
  | [a, b] =>
    refine absurd (fun o' => h2 o' ?_) bad
    obtain ⟨r, e⟩ := word_dashes o
    obtain ⟨r', e'⟩ := word_dashes o'
    rw [e] at h1; rw [e']
    obtain ⟨t, ht⟩ := h1
    simp at ht
    exact ⟨r', by simp [ht.1, ht.2.1]⟩
  | a :: b :: c :: r =>
    obtain ⟨r', e⟩ := word_dashes o
    rw [e] at h1
    obtain ⟨t, ht⟩ := h1
    simp at ht
    exact ⟨c, r, by simp [ht.1, ht.2.1]⟩

/-- The options a beginning fits. -/
theorem fits_one (p : Text) (x : Text × Opt) :
    optWords.filter (fun y => p.isPrefixOf y.1) = [x] ↔ x.1 = Spec.Opt.word x.2 ∧ Spelling p x.2 := by
  rw [filter_singleton optWords_nodup]
  simp only [mem_optWords, List.isPrefixOf_iff_prefix]
  constructor
  · rintro ⟨h1, h2, h3⟩
    refine ⟨h1, h1 ▸ h2, fun o' ho' => ?_⟩
    have := h3 (Spec.Opt.word o', o') rfl ho'
    rw [← this]
  · rintro ⟨h1, h2, h3⟩
    refine ⟨h1, h1 ▸ h2, fun y hy hp => ?_⟩
    have := h3 y.2 (hy ▸ hp)
    exact Prod.ext (by rw [hy, h1, this]) this

theorem lookup_optionStrings {w : Text} {o : Opt} (h : optionStrings.lookup w = some o) : w = txt "-h" ∧ o = .help ∨ w = Spec.Opt.word o := by
  have hm : (w, o) ∈ optionStrings := by
    revert h
    generalize optionStrings = L
    intro h
    induction L with
    | nil => cases h
    | cons x t ih =>
      obtain ⟨a, b⟩ := x
      rw [List.lookup_cons] at h
      by_cases e : w = a
      · subst e; simp at h; subst h; exact List.mem_cons_self
      · have : (w == a) = false := by simpa using e
        rw [this] at h
        exact List.mem_cons_of_mem _ (ih h)
  have : optionStrings = (txt "-h", .help) :: optWords := rfl
  rw [this, List.mem_cons] at hm
  rcases hm with hm | hm
  · left; cases hm; exact ⟨rfl, rfl⟩
  · right; exact mem_optWords.1 hm

theorem lookup_word (o : Opt) : optionStrings.lookup (Spec.Opt.word o) = some o := by cases o <;> decide


theorem isDigit_iff {c : Nat} : isDigit c = true ↔ 48 ≤ c ∧ c ≤ 57 := by simp [isDigit]

/-- The last character of the word is not a newline. -/
theorem dropNewline_same {w : Text} (h : ∀ c ∈ w, c ≠ 10) : dropNewline w = w := by
  unfold dropNewline
  rw [if_neg]
  intro e
  exact h 10 (List.mem_of_getLast? e) rfl

theorem dropNewline_newline (w : Text) : dropNewline (w ++ [10]) = w := by
  unfold dropNewline
  simp

theorem dropNewline_split (w : Text) : ∃ nl, (nl = [] ∨ nl = txt "\n") ∧ w = dropNewline w ++ nl := by
  unfold dropNewline
  split
  · rename_i h
    refine ⟨txt "\n", .inr rfl, ?_⟩
    have hne : w ≠ [] := by rintro rfl; simp at h
    rw [List.getLast?_eq_some_getLast hne] at h
    have := List.dropLast_concat_getLast hne
    rw [← this]
    simp only [Option.some.injEq] at h
    rw [h]
    simp; rfl
  · exact ⟨[], .inl rfl, by simp⟩

theorem dropWhile_digits {a b : Text} (h : ∀ c ∈ a, isDigit c = true) : (a ++ 46 :: b).dropWhile isDigit = 46 :: b := by
  induction a with
  | nil => rfl
  | cons c t ih =>
    rw [List.cons_append, List.dropWhile_cons, if_pos (h c (by simp))]
    exact ih fun c hc => h c (by simp [hc])

theorem negative_iff (w : Text) : negativeNumber w = true ↔ Negative w := by
  constructor
  · intro h
    obtain ⟨nl, hnl, hw⟩ := dropNewline_split w
    unfold negativeNumber at h
    split at h
    · rename_i t ht
      rw [ht] at hw
      simp only [Bool.or_eq_true, Bool.and_eq_true, Bool.not_eq_true', List.isEmpty_eq_false_iff, List.all_eq_true] at h
      rcases h with ⟨h1, h2⟩ | h
      · refine ⟨t, [], nl, ?_, hnl, .inl ⟨hw, h1⟩⟩
        intro c hc
        rw [List.append_nil] at hc
        exact isDigit_iff.1 (h2 c hc)
      · split at h
        · rename_i u hu
          simp only [Bool.and_eq_true, Bool.not_eq_true', List.isEmpty_eq_false_iff, List.all_eq_true] at h
          have e : t = t.takeWhile isDigit ++ 46 :: u := by rw [← hu, List.takeWhile_append_dropWhile]
          refine ⟨t.takeWhile isDigit, u, nl, ?_, hnl, .inr ⟨?_, h.1⟩⟩
          · intro c hc
            rcases List.mem_append.1 hc with hc | hc
            · exact isDigit_iff.1 (List.all_eq_true.1 List.all_takeWhile c hc)
            · exact isDigit_iff.1 (h.2 c hc)
          · rw [hw]
            conv => lhs; rw [e]
            show 45 :: (t.takeWhile isDigit ++ 46 :: u) ++ nl = [45] ++ t.takeWhile isDigit ++ [46] ++ u ++ nl
            simp
        · cases h
    · cases h
  · rintro ⟨a, b, nl, hd, hnl, hw⟩
    have h10 : ∀ c ∈ a ++ b, c ≠ 10 := fun c hc e => by have := hd c hc; omega
    have key : ∀ v : Text, (∀ c ∈ v, c ≠ 10) → dropNewline (v ++ nl) = v := by
      intro v hv
      rcases hnl with rfl | rfl
      · rw [List.append_nil]; exact dropNewline_same hv
      · exact dropNewline_newline v
    unfold negativeNumber
    rcases hw with ⟨hw, ha⟩ | ⟨hw, hb⟩
    · have hdrop : dropNewline w = 45 :: a := by
        rw [hw, key]; · rfl
        intro c hc
        rcases List.mem_append.1 hc with hc | hc
        · have : c = 45 := by simpa [txt] using hc
          omega
        · exact h10 c (List.mem_append_left _ hc)
      rw [hdrop]
      simp only [Bool.or_eq_true, Bool.and_eq_true, Bool.not_eq_true', List.isEmpty_eq_false_iff, List.all_eq_true]
      exact .inl ⟨ha, fun c hc => isDigit_iff.2 (hd c (List.mem_append_left _ hc))⟩
    · have hdrop : dropNewline w = 45 :: (a ++ 46 :: b) := by
        have : w = 45 :: (a ++ 46 :: b) ++ nl := by
          rw [hw]
          show [45] ++ a ++ [46] ++ b ++ nl = 45 :: (a ++ 46 :: b) ++ nl
          simp
        rw [this, key]
        intro c hc
        simp only [List.mem_cons, List.mem_append] at hc
        rcases hc with hc | hc | hc | hc
        · omega
        · exact h10 c (List.mem_append_left _ hc)
        · omega
        · exact h10 c (List.mem_append_right _ hc)
      rw [hdrop]
      simp only [Bool.or_eq_true]
      right
      rw [dropWhile_digits fun c hc => isDigit_iff.2 (hd c (List.mem_append_left _ hc))]
      simp only [Bool.and_eq_true, Bool.not_eq_true', List.isEmpty_eq_false_iff, List.all_eq_true]
      exact ⟨hb, fun c hc => isDigit_iff.2 (hd c (List.mem_append_right _ hc))⟩

theorem optionTuples_double (r : Text) : optionTuples (45 :: 45 :: r) =
    (optWords.filter fun y => (partitionEq (45 :: 45 :: r)).1.isPrefixOf y.1).map
      fun x => ⟨some x.2, x.1, (partitionEq (45 :: 45 :: r)).2.map fun e => (true, e)⟩ := by
  unfold optionTuples
  rw [if_pos (by rfl)]
  have : optionStrings = (txt "-h", .help) :: optWords := rfl
  rw [this, List.filterMap_cons]
  have hk : ∃ k, (partitionEq (45 :: 45 :: r)).1 = 45 :: 45 :: k := ⟨(partitionEq r).1, by simp [partitionEq]⟩
  obtain ⟨k, hk⟩ := hk
  rw [hk]
  have hn : List.isPrefixOf (45 :: 45 :: k) (txt "-h") = false := by
    simp [txt, List.isPrefixOf]
  simp only [hn, Bool.false_eq_true, if_false]
  generalize optWords = L
  induction L with
  | nil => rfl
  | cons x t ih =>
    rw [List.filterMap_cons, List.filter_cons]
    by_cases h : List.isPrefixOf (45 :: 45 :: k) x.1 = true
    · simp only [h, if_true, List.map_cons]
      rw [ih]
    · simp only [h]
      exact ih

/-- What becomes of a word with two dashes at the beginning. -/
theorem parse_double (r : Text) {w k : Text} {e : Option Text} (hw : w = 45 :: 45 :: r) (hk : partitionEq w = (k, e)) :
    (∃ o s, Spelling k o ∧ parseOptional w = .ok (some ⟨some o, s, e.map fun e => (true, e)⟩) ∧ (∃ s', s = 45 :: 45 :: s')) ∨
    ((∀ o, ¬ k <+: Spec.Opt.word o) ∧
      parseOptional w = .ok (if negativeNumber w = true ∨ 32 ∈ w then none else some ⟨none, w, none⟩)) ∨
    ((∃ o o', o ≠ o' ∧ k <+: Spec.Opt.word o ∧ k <+: Spec.Opt.word o') ∧ parseOptional w = .error .usage) := by
  have hot := optionTuples_double r
  rw [← hw, hk] at hot
  simp only at hot
  unfold parseOptional
  rw [hw]
  simp only [ne_eq, not_true_eq_false, if_false]
  rw [← hw]
  cases hl : optionStrings.lookup w with
  | some o =>
    left
    rcases lookup_optionStrings hl with ⟨h, _⟩ | h
    · rw [hw] at h; cases h
    · have hp : partitionEq w = (w, none) := partitionEq_of_not_mem (h ▸ word_no_eq o)
      rw [hk] at hp
      cases hp
      exact ⟨o, w, ⟨h ▸ List.prefix_rfl, fun o' ho' => word_unique o o' (h ▸ ho')⟩, rfl, r, hw⟩
  | none =>
    simp only [List.cons_ne_nil, if_false]
    rw [hk]
    simp only
    cases hb : (e.bind fun e => (optionStrings.lookup k).map fun a => (e, a)) with
    | some x =>
      left
      obtain ⟨e', a⟩ := x
      simp only [Option.bind_eq_some_iff, Option.map_eq_some_iff, Prod.mk.injEq] at hb
      obtain ⟨e'', rfl, a', hl', rfl, rfl⟩ := hb
      have hkd : ∃ k', k = 45 :: 45 :: k' := by
        refine ⟨(partitionEq r).1, ?_⟩
        have : (partitionEq w).1 = k := by rw [hk]
        rw [← this, hw]; simp [partitionEq]
      rcases lookup_optionStrings hl' with ⟨h, _⟩ | h
      · obtain ⟨k', h'⟩ := hkd; rw [h'] at h; cases h
      · exact ⟨a', k, ⟨h ▸ List.prefix_rfl, fun o' ho' => word_unique a' o' (h ▸ ho')⟩, rfl, hkd⟩
    | none =>
      simp only
      rw [hot]
      rcases hf : optWords.filter (fun y => k.isPrefixOf y.1) with _ | ⟨x, _ | ⟨y, t⟩⟩
      ·
        right; left
        have hnone : ∀ o, ¬ k <+: Spec.Opt.word o := by
          intro o ho
          have : (Spec.Opt.word o, o) ∈ optWords.filter (fun y => k.isPrefixOf y.1) :=
            List.mem_filter.2 ⟨mem_optWords.2 rfl, List.isPrefixOf_iff_prefix.2 ho⟩
          rw [hf] at this; cases this
        refine ⟨hnone, ?_⟩
        rw [hf]
        simp only [List.map_nil]
        by_cases h1 : negativeNumber w = true
        · simp [h1]
        · by_cases h2 : 32 ∈ w
          · simp [h2]
          · simp [h1, h2]
      · left
        have := (fits_one k x).1 hf
        obtain ⟨r', hr'⟩ := word_dashes x.2
        exact ⟨x.2, x.1, this.2, by rw [hf]; rfl, r', by rw [this.1, hr']⟩
      · right; right
        have hx : x ∈ optWords.filter (fun y => k.isPrefixOf y.1) := by rw [hf]; simp
        have hy : y ∈ optWords.filter (fun y => k.isPrefixOf y.1) := by rw [hf]; simp
        have nd : (optWords.filter (fun y => k.isPrefixOf y.1)).Nodup := optWords_nodup.filter _
        rw [hf] at nd
        rw [List.mem_filter, mem_optWords, List.isPrefixOf_iff_prefix] at hx hy
        refine ⟨⟨x.2, y.2, ?_, hx.1 ▸ hx.2, hy.1 ▸ hy.2⟩, by rw [hf]; rfl⟩
        intro e
        have : x = y := Prod.ext (by rw [hx.1, hy.1, e]) e
        subst this
        simp at nd

/-- What becomes of a word with one dash at the beginning. -/
theorem parse_single {c : Nat} (r : Text) (hc : c ≠ 45) {w : Text} (hw : w = 45 :: c :: r) :
    (c = 104 ∧ ∃ s x, parseOptional w = .ok (some ⟨some .help, s, x⟩)) ∨
    (c ≠ 104 ∧ parseOptional w = .ok (if negativeNumber w = true ∨ 32 ∈ w then none else some ⟨none, w, none⟩)) := by
  unfold parseOptional
  rw [hw]
  simp only [ne_eq, not_true_eq_false, if_false]
  rw [← hw]
  cases hl : optionStrings.lookup w with
  | some o =>
    left
    rcases lookup_optionStrings hl with ⟨h, rfl⟩ | h
    · rw [hw] at h
      have : c = 104 := (List.cons.inj (List.cons.inj h).2).1
      exact ⟨this, w, none, rfl⟩
    · obtain ⟨r', hr'⟩ := word_dashes o
      rw [hw, hr'] at h
      exact absurd (List.cons.inj (List.cons.inj h).2).1 hc
  | none =>
    simp only [List.cons_ne_nil, if_false]
    cases hb : ((partitionEq w).2.bind fun e => (optionStrings.lookup (partitionEq w).1).map fun a => (e, a)) with
    | some x =>
      left
      obtain ⟨e', a⟩ := x
      simp only [Option.bind_eq_some_iff, Option.map_eq_some_iff, Prod.mk.injEq] at hb
      obtain ⟨e'', h0, a', hl', rfl, rfl⟩ := hb
      have hs := partitionEq_some h0
      rcases lookup_optionStrings hl' with ⟨h, rfl⟩ | h
      · rw [h, hw] at hs
        have : c = 104 := (List.cons.inj (List.cons.inj hs).2).1
        exact ⟨this, _, _, rfl⟩
      · obtain ⟨r', hr'⟩ := word_dashes a'
        rw [h, hr', hw] at hs
        exact absurd (List.cons.inj (List.cons.inj hs).2).1 hc
    | none =>
      simp only
      by_cases h104 : c = 104
      · left
        have : optionTuples w = [⟨some .help, txt "-h", some (false, r)⟩] := by
          subst hw; subst h104
          unfold optionTuples
          rw [if_neg (by simp)]
          simp [optionStrings, txt]
        rw [this]
        exact ⟨h104, _, _, rfl⟩
      · right
        have : optionTuples w = [] := by
          subst hw
          unfold optionTuples
          rw [if_neg (by simpa using hc)]
          simp [optionStrings, txt, hc, h104, Ne.symm hc, Ne.symm h104]
        rw [this]
        refine ⟨h104, ?_⟩
        by_cases h1 : negativeNumber w = true
        · simp [h1]
        · by_cases h2 : 32 ∈ w
          · simp [h2]
          · simp [h1, h2]

theorem plain_iff (w : Text) : PlainWord w ↔ parseOptional w = .ok none := by
  unfold PlainWord OptionLike
  match hw : w with
  | [] => simp [parseOptional]
  | a :: t =>
    by_cases ha : a = 45
    · subst ha
      match t with
      | [] => simp [txt]; rfl
      | c :: r =>
        by_cases hc : c = 45
        · subst hc
          have h0 : ¬ (txt "-h" <+: 45 :: 45 :: r) := by simp [txt]
          have h1 : txt "--" <+: 45 :: 45 :: r := by simp [txt]
          have h2 : (45 :: 45 :: r : Text) ≠ txt "-" := by simp [txt]
          rw [← partitionEq_fst]
          simp only [List.head?_cons, ne_eq, not_true_eq_false, h0, h1, h2, false_or, true_and, ← negative_iff]
          rcases parse_double r rfl rfl with ⟨o, s, hs, hp, -⟩ | ⟨hn, hp⟩ | ⟨⟨o, o', -, ho, -⟩, hp⟩
          · rw [hp]
            simp only [Except.ok.injEq, reduceCtorEq, iff_false, not_and]
            exact fun h => absurd ⟨o, hs.1⟩ h
          · rw [hp]
            have : ¬ ∃ o, (partitionEq (45 :: 45 :: r)).1 <+: Spec.Opt.word o := fun ⟨o, h⟩ => hn o h
            simp only [this, not_false_eq_true, true_and]
            split <;> simp_all
          · rw [hp]
            simp only [reduceCtorEq, iff_false, not_and]
            exact fun h => absurd ⟨o, ho⟩ h
        · have h1 : ¬ txt "--" <+: 45 :: c :: r := by simp [txt, Ne.symm hc]
          have h2 : (45 :: c :: r : Text) ≠ txt "-" := by simp [txt]
          simp only [List.head?_cons, ne_eq, not_true_eq_false, h1, h2, false_or, false_and, or_false, ← negative_iff]
          rcases parse_single r hc rfl with ⟨hh, s, x, hp⟩ | ⟨hh, hp⟩
          · rw [hp]
            simp [txt, hh]
          · rw [hp]
            have h0 : ¬ (txt "-h" <+: 45 :: c :: r) := by simp [txt, Ne.symm hh]
            simp only [h0, not_false_eq_true, true_and]
            split <;> simp_all
    · simp [parseOptional, ha]

theorem spelled_parse {p : Text} {o : Opt} (h : Spelling p o) :
    ∃ s, parseOptional p = .ok (some ⟨some o, s, none⟩) := by
  obtain ⟨c, r, hp⟩ := spelling_dashes h
  rcases parse_double (c :: r) hp (partitionEq_of_not_mem (prefix_no_eq h.1)) with ⟨o', s, hs, hp, -⟩ | ⟨hn, hp⟩ | ⟨⟨o1, o2, hne, h1, h2⟩, hp⟩
  · have := hs.2 o h.1
    subst this
    exact ⟨s, hp⟩
  · exact absurd h.1 (hn o)
  · exact absurd ((h.2 o1 h1).trans (h.2 o2 h2).symm) hne

theorem joined_parse {p : Text} {o : Opt} (h : Spelling p o) (e : Text) :
    ∃ s s', parseOptional (p ++ txt "=" ++ e) = .ok (some ⟨some o, s, some (true, e)⟩) ∧ s = 45 :: 45 :: s' := by
  obtain ⟨c, r, hp⟩ := spelling_dashes h
  rcases parse_double (c :: r ++ txt "=" ++ e) (w := p ++ txt "=" ++ e) (by rw [hp]; rfl) (partitionEq_append (prefix_no_eq h.1) e)
    with ⟨o', s, hs, hp, s', hs'⟩ | ⟨hn, hp⟩ | ⟨⟨o1, o2, hne, h1, h2⟩, hp⟩
  · have := hs.2 o h.1
    subst this
    exact ⟨s, s', hp, hs'⟩
  · exact absurd h.1 (hn o)
  · exact absurd ((h.2 o1 h1).trans (h.2 o2 h2).symm) hne

theorem spelling_ne_dashes {p : Text} {o : Opt} (h : Spelling p o) : p ≠ txt "--" := by
  obtain ⟨c, r, hp⟩ := spelling_dashes h
  rw [hp]; simp [txt]

theorem joined_ne_dashes {p : Text} {o : Opt} (h : Spelling p o) (e : Text) : p ++ txt "=" ++ e ≠ txt "--" := by
  obtain ⟨c, r, hp⟩ := spelling_dashes h
  rw [hp]; simp [txt]

theorem plain_ne_dashes {w : Text} (h : PlainWord w) : w ≠ txt "--" := by
  rintro rfl
  rw [plain_iff] at h
  have : parseOptional (txt "--") = .error .usage := by rfl
  rw [this] at h
  cases h

/-- What an option's word is. -/
theorem parse_option {w : Text} {o : Opt} {s : Text} {x : Option (Bool × Text)} (h : parseOptional w = .ok (some ⟨some o, s, x⟩)) :
    o = .help ∧ txt "-h" <+: w ∨ (x = none ∧ Spelling w o) ∨
      (∃ e s' p, x = some (true, e) ∧ s = 45 :: 45 :: s' ∧ w = p ++ txt "=" ++ e ∧ Spelling p o) := by
  match hw : w with
  | [] => simp [parseOptional] at h
  | a :: t =>
    by_cases ha : a = 45
    · subst ha
      match t with
      | [] => revert h; simp [parseOptional, show optionStrings.lookup [45] = none by decide]
      | c :: r =>
        by_cases hc : c = 45
        · subst hc
          right
          rcases hkk : partitionEq (45 :: 45 :: r) with ⟨k, e⟩
          rcases parse_double r rfl hkk with ⟨o', s0, hs, hp, s', hs'⟩ | ⟨hn, hp⟩ | ⟨⟨o1, o2, hne, h1, h2⟩, hp⟩
          · rw [hp] at h
            simp only [Except.ok.injEq, Option.some.injEq, OptTuple.mk.injEq] at h
            obtain ⟨rfl, rfl, rfl⟩ := h
            have hk1 : (partitionEq (45 :: 45 :: r)).1 = k := by rw [hkk]
            cases e with
            | none =>
              have he : (partitionEq (45 :: 45 :: r)).2 = none := by rw [hkk]
              left; refine ⟨rfl, ?_⟩; rw [← partitionEq_none he, hk1]; exact hs
            | some e =>
              have he : (partitionEq (45 :: 45 :: r)).2 = some e := by rw [hkk]
              right; exact ⟨e, s', k, rfl, hs', hk1 ▸ partitionEq_some he, hs⟩
          · rw [hp] at h
            split at h <;> simp at h
          · rw [hp] at h; simp at h
        · left
          rcases parse_single r hc rfl with ⟨hh, s, x, hp⟩ | ⟨hh, hp⟩
          · rw [hp] at h
            simp only [Except.ok.injEq, Option.some.injEq, OptTuple.mk.injEq] at h
            exact ⟨h.1.symm, by simp [txt, hh]⟩
          · rw [hp] at h
            split at h <;> simp at h
    · simp [parseOptional, ha] at h

/-- The items, one after the other. -/
def applyItems (R : Reads) : List CmdPart → Parsing → Except Exit Parsing
  | [], s => .ok s
  | .input w :: l, s => applyItems R l (if s.input = none then { s with input := some w } else { s with extras := true })
  | .option o v :: l, s => match s.store R v o with
    | .ok s => applyItems R l s
    | .error e => .error e

theorem store_other {R : Reads} {s s' : Parsing} {v : Text} {o : Opt} (h : s.store R v o = .ok s') :
    s'.extras = s.extras ∧ s'.input = s.input := by
  unfold Parsing.store at h
  split at h
  · cases h
  · cases h; exact ⟨rfl, rfl⟩
  all_goals
    (repeat' split at h)
    all_goals first
      | (cases h; exact ⟨rfl, rfl⟩)
      | cases h

theorem applyItems_extras {R : Reads} {l : List CmdPart} {s s' : Parsing} (h : applyItems R l s = .ok s') (hs : s.extras = true) : s'.extras = true := by
  induction l generalizing s with
  | nil => cases h; exact hs
  | cons i l ih =>
    cases i with
    | input w =>
      simp only [applyItems] at h
      refine ih h ?_
      split
      · exact hs
      · rfl
    | option o v =>
      simp only [applyItems] at h
      split at h
      · rename_i s1 h1
        exact ih h ((store_other h1).1.trans hs)
      · cases h

theorem consume_arg (R : Reads) (w : Text) (l : List Tok) (s : Parsing) : consume R (.arg w :: l) s =
    consume R (match l with | .dashes :: l' => l' | _ => l)
      (if s.input = none then { s with input := some w } else { s with extras := true }) := by
  cases l with
  | nil => simp only [consume]; split <;> rfl
  | cons t l => cases t <;> (rw [consume]; (try (split <;> rfl)); (try simp))

theorem consume_opt_none (R : Reads) (o : Opt) (st v : Text) (l : List Tok) (s : Parsing) (ho : o ≠ .help) :
    consume R (.opt ⟨some o, st, none⟩ :: .arg v :: l) s = match s.store R v o with
      | .ok s => consume R l s
      | .error e => .error e := by
  cases o <;> first | exact absurd rfl ho | (rw [consume]; (try (cases s.store R v _ <;> rfl)); (try simp))

theorem consume_opt_some (R : Reads) (o : Opt) (st v : Text) (b : Bool) (l : List Tok) (s : Parsing) (ho : o ≠ .help) :
    consume R (.opt ⟨some o, st, some (b, v)⟩ :: l) s = match s.store R v o with
      | .ok s => consume R l s
      | .error e => .error e := by
  cases o <;> first | exact absurd rfl ho | (rw [consume]; (try (cases s.store R v _ <;> rfl)); (try simp))

theorem consume_extras {R : Reads} : ∀ (n : Nat) (l : List Tok), l.length ≤ n → ∀ {s s' : Parsing},
    consume R l s = .ok s' → s.extras = true → s'.extras = true
  | _, [], _, s, s', h, hs => by rw [consume] at h; cases h; exact hs
  | n + 1, .arg w :: l, hl, s, s', h, hs => by
    rw [consume_arg] at h
    refine consume_extras n _ ?_ h ?_
    · simp only [List.length_cons] at hl
      split
      · simp only [List.length_cons] at hl; omega
      · omega
    · split
      · exact hs
      · rfl
  | n + 1, .dashes :: .arg w :: l, hl, s, s', h, hs => by
    simp only [List.length_cons] at hl
    rw [consume] at h
    split at h
    · exact consume_extras n l (by omega) h hs
    · exact consume_extras n l (by omega) h rfl
  | n + 1, [.dashes], hl, s, s', h, hs => by
    simp only [consume] at h; cases h; rfl
  | n + 1, .dashes :: .dashes :: l, hl, s, s', h, hs => by
    simp only [List.length_cons] at hl
    rw [consume] at h
    · exact consume_extras n _ (by simp only [List.length_cons]; omega) h rfl
    · simp
  | n + 1, .dashes :: .opt t :: l, hl, s, s', h, hs => by
    simp only [List.length_cons] at hl
    rw [consume] at h
    · exact consume_extras n _ (by simp only [List.length_cons]; omega) h rfl
    · simp
  | n + 1, .opt ⟨none, _, _⟩ :: l, hl, s, s', h, hs => by
    simp only [List.length_cons] at hl
    rw [consume] at h
    exact consume_extras n l (by omega) h rfl
  | n + 1, .opt ⟨some o, st, x⟩ :: l, hl, s, s', h, hs => by
    simp only [List.length_cons] at hl
    by_cases ho : o = .help
    · subst ho
      cases x with
      | none => rw [consume] at h; cases h
      | some x => obtain ⟨b, e⟩ := x; rw [consume] at h; cases h
    · cases x with
      | some x =>
        obtain ⟨b, e⟩ := x
        rw [consume_opt_some R o st e b l s ho] at h
        split at h
        · rename_i s1 h1
          exact consume_extras n l (by omega) h ((store_other h1).1.trans hs)
        · cases h
      | none =>
        match l, hl with
        | [], _ => cases o <;> (simp only [consume] at h; cases h)
        | .dashes :: l, _ => cases o <;> (simp only [consume] at h; cases h)
        | .opt t :: l, _ => cases o <;> (simp only [consume] at h; cases h)
        | .arg v :: l, hl =>
          simp only [List.length_cons] at hl
          rw [consume_opt_none R o st v l s ho] at h
          split at h
          · rename_i s1 h1
            exact consume_extras n l (by omega) h ((store_other h1).1.trans hs)
          · cases h

/-- After the input, there must be no further words. -/
theorem consume_args {R : Reads} {ws : List Text} {s s' : Parsing} (h : consume R (ws.map .arg) s = .ok s') (hs : s.input ≠ none)
    (he : s'.extras = false) : ws = [] ∧ s' = s := by
  cases ws with
  | nil => simp only [List.map_nil, consume] at h; cases h; exact ⟨rfl, rfl⟩
  | cons w ws =>
    rw [List.map_cons, consume_arg, if_neg hs] at h
    have := consume_extras _ _ (Nat.le_refl _) h rfl
    rw [he] at this; cases this

theorem tokens_cons {w : Text} {ws : List Text} (hw : w ≠ txt "--") : tokens (w :: ws) =
    match parseOptional w, tokens ws with
      | .ok t, .ok l => .ok ((match t with | none => .arg w | some t => .opt t) :: l)
      | .error e, _ => .error e
      | .ok _, .error e => .error e := by
  rw [tokens, if_neg hw]
  cases parseOptional w <;> cases tokens ws <;> rfl

theorem tokens_cons_ok {w : Text} {ws : List Text} {l : List Tok} (h : tokens (w :: ws) = .ok l) :
    w = txt "--" ∧ l = .dashes :: ws.map .arg ∨
    w ≠ txt "--" ∧ ∃ t l', parseOptional w = .ok t ∧ tokens ws = .ok l' ∧ l = (match t with | none => .arg w | some t => .opt t) :: l' := by
  by_cases hw : w = txt "--"
  · rw [tokens, if_pos hw] at h; cases h; exact .inl ⟨hw, rfl⟩
  · rw [tokens_cons hw] at h
    split at h
    · rename_i t l' h1 h2
      cases h
      exact .inr ⟨hw, t, l', h1, h2, rfl⟩
    · cases h
    · cases h

theorem tokens_dashes {ws : List Text} {l : List Tok} (h : tokens ws = .ok (.dashes :: l)) : ∃ ws', ws = txt "--" :: ws' ∧ l = ws'.map .arg := by
  cases ws with
  | nil => simp [tokens] at h
  | cons w ws =>
    rcases tokens_cons_ok h with ⟨rfl, h⟩ | ⟨hw, t, l', h1, h2, h3⟩
    · cases h; exact ⟨ws, rfl, rfl⟩
    · cases t <;> cases h3

theorem tokens_arg {ws : List Text} {v : Text} {l : List Tok} (h : tokens ws = .ok (.arg v :: l)) :
    ∃ ws', ws = v :: ws' ∧ PlainWord v ∧ tokens ws' = .ok l := by
  cases ws with
  | nil => simp [tokens] at h
  | cons w ws =>
    rcases tokens_cons_ok h with ⟨rfl, h⟩ | ⟨hw, t, l', h1, h2, h3⟩
    · cases h
    · cases t with
      | some t => cases h3
      | none => cases h3; exact ⟨ws, rfl, (plain_iff _).2 h1, h2⟩

theorem consume_items {R : Reads} : ∀ (n : Nat) (argv : List Text), argv.length ≤ n → ∀ {l : List Tok} {s s' : Parsing},
    tokens argv = .ok l → consume R l s = .ok s' → s'.extras = false → ∃ items, Spells argv items ∧ applyItems R items s = .ok s'
  | _, [], _, l, s, s', ht, hc, he => by
    simp only [tokens] at ht; cases ht
    rw [consume] at hc
    exact ⟨[], .nil, hc⟩
  | n + 1, w :: ws, hn, l, s, s', ht, hc, he => by
    simp only [List.length_cons] at hn
    have noExtras : ∀ {l : List Tok} {s : Parsing}, consume R l s = .ok s' → s.extras = true → False := fun h1 h2 => by
      have := consume_extras _ _ (Nat.le_refl _) h1 h2
      rw [he] at this; cases this
    rcases tokens_cons_ok ht with ⟨rfl, rfl⟩ | ⟨hw, t, l', h1, h2, rfl⟩
    · cases ws with
      | nil =>
        simp only [List.map_nil, consume] at hc
        cases hc; cases he
      | cons x xs =>
        rw [List.map_cons, consume] at hc
        by_cases hi : s.input = none
        · rw [if_pos hi] at hc
          obtain ⟨rfl, rfl⟩ := consume_args hc (by simp) he
          exact ⟨_, .dashes, by simp only [applyItems]; rw [if_pos hi]⟩
        · rw [if_neg hi] at hc
          exact (noExtras hc rfl).elim
    · cases t with
      | none =>
        have hp := (plain_iff w).2 h1
        simp only at hc
        rw [consume_arg] at hc
        match l', h2, hc with
        | .dashes :: l'', h2, hc =>
          obtain ⟨ws', rfl, rfl⟩ := tokens_dashes h2
          by_cases hi : s.input = none
          · rw [if_pos hi] at hc
            obtain ⟨rfl, rfl⟩ := consume_args hc (by simp) he
            exact ⟨_, .dashesAfter hp, by simp only [applyItems]; rw [if_pos hi]⟩
          · rw [if_neg hi] at hc
            exact (noExtras hc rfl).elim
        | [], h2, hc =>
          obtain ⟨items, hs, ha⟩ := consume_items n ws (by omega) h2 hc he
          exact ⟨_, .input hp hs, by simp only [applyItems]; exact ha⟩
        | .arg v :: l'', h2, hc =>
          obtain ⟨items, hs, ha⟩ := consume_items n ws (by omega) h2 hc he
          exact ⟨_, .input hp hs, by simp only [applyItems]; exact ha⟩
        | .opt t :: l'', h2, hc =>
          obtain ⟨items, hs, ha⟩ := consume_items n ws (by omega) h2 hc he
          exact ⟨_, .input hp hs, by simp only [applyItems]; exact ha⟩
      | some t =>
        simp only at hc
        match t, h1, hc with
        | ⟨none, _, _⟩, h1, hc =>
          rw [consume] at hc
          exact (noExtras hc rfl).elim
        | ⟨some o, st, x⟩, h1, hc =>
          by_cases ho : o = .help
          · subst ho
            cases x with
            | none => rw [consume] at hc; cases hc
            | some x => obtain ⟨b, e⟩ := x; rw [consume] at hc; cases hc
          · rcases parse_option h1 with ⟨h, _⟩ | ⟨rfl, hs⟩ | ⟨e, st', p, rfl, -, rfl, hs⟩
            · exact absurd h ho
            · match l', h2, hc with
              | [], _, hc => cases o <;> (simp only [consume] at hc; cases hc)
              | .dashes :: l, _, hc => cases o <;> (simp only [consume] at hc; cases hc)
              | .opt t :: l, _, hc => cases o <;> (simp only [consume] at hc; cases hc)
              | .arg v :: l, h2, hc =>
                obtain ⟨ws', rfl, hv, h3⟩ := tokens_arg h2
                rw [consume_opt_none R o st v l s ho] at hc
                simp only [List.length_cons] at hn
                split at hc
                · rename_i s1 h1
                  obtain ⟨items, hsp, ha⟩ := consume_items n ws' (by omega) h3 hc he
                  exact ⟨_, .separate hs ho hv hsp, by simp only [applyItems, h1]; exact ha⟩
                · cases hc
            · rw [consume_opt_some R o st e true l' s ho] at hc
              split at hc
              · rename_i s1 h1
                obtain ⟨items, hsp, ha⟩ := consume_items n ws (by omega) h2 hc he
                exact ⟨_, .joined hs ho hsp, by simp only [applyItems, h1]; exact ha⟩
              · cases hc

theorem spells_dashes {argv ws : List Text} {items : List CmdPart} (h : Spells argv items) (e : argv = txt "--" :: ws) :
    ∃ x, items = [.input x] := by
  cases h with
  | nil => cases e
  | input h t => cases e; exact absurd rfl (plain_ne_dashes h)
  | separate h ho hv t => cases e; exact absurd rfl (spelling_ne_dashes h)
  | joined h ho t => exact absurd (List.cons.inj e).1 (joined_ne_dashes h _)
  | dashes => exact ⟨_, rfl⟩
  | dashesAfter h => cases e; exact absurd rfl (plain_ne_dashes h)

theorem items_consume {R : Reads} {argv : List Text} {items : List CmdPart} (h : Spells argv items) {s s' : Parsing}
    (ha : applyItems R items s = .ok s') (he : s'.extras = false) : ∃ l, tokens argv = .ok l ∧ consume R l s = .ok s' := by
  induction h generalizing s with
  | nil => exact ⟨[], rfl, by rw [consume]; exact ha⟩
  | @input w ws l h t ih =>
    simp only [applyItems] at ha
    obtain ⟨l', h1, h2⟩ := ih ha
    refine ⟨.arg w :: l', ?_, ?_⟩
    · rw [tokens_cons (plain_ne_dashes h), (plain_iff w).1 h, h1]
    · rw [consume_arg]
      match l', h1, h2 with
      | .dashes :: l'', h1, h2 =>
        obtain ⟨ws', e, -⟩ := tokens_dashes h1
        obtain ⟨x, rfl⟩ := spells_dashes t e
        simp only [applyItems] at ha
        exfalso
        by_cases hi : s.input = none
        · rw [if_pos hi, if_neg (by simp)] at ha; cases ha; cases he
        · rw [if_neg hi, if_neg hi] at ha; cases ha; cases he
      | [], h1, h2 => exact h2
      | .arg _ :: _, h1, h2 => exact h2
      | .opt _ :: _, h1, h2 => exact h2
  | @separate p v o ws l h ho hv t ih =>
    simp only [applyItems] at ha
    split at ha
    · rename_i s1 hs1
      obtain ⟨l', h1, h2⟩ := ih ha
      obtain ⟨st, hp⟩ := spelled_parse h
      refine ⟨.opt ⟨some o, st, none⟩ :: .arg v :: l', ?_, ?_⟩
      · rw [tokens_cons (spelling_ne_dashes h), hp, tokens_cons (plain_ne_dashes hv), (plain_iff v).1 hv, h1]
      · rw [consume_opt_none R o st v l' s ho, hs1]; exact h2
    · cases ha
  | @joined p v o ws l h ho t ih =>
    simp only [applyItems] at ha
    split at ha
    · rename_i s1 hs1
      obtain ⟨l', h1, h2⟩ := ih ha
      obtain ⟨st, -, hp, -⟩ := joined_parse h v
      refine ⟨.opt ⟨some o, st, some (true, v)⟩ :: l', ?_, ?_⟩
      · rw [tokens_cons (joined_ne_dashes h v), hp, h1]
      · rw [consume_opt_some R o st v true l' s ho, hs1]; exact h2
    · cases ha
  | @dashes w =>
    refine ⟨[.dashes, .arg w], by rw [tokens, if_pos rfl]; rfl, ?_⟩
    simp only [applyItems] at ha
    rw [consume]
    cases ha
    by_cases hi : s.input = none
    · rw [if_pos hi, if_pos hi, consume]
    · rw [if_neg hi] at he; cases he
  | @dashesAfter w h =>
    refine ⟨[.arg w, .dashes], ?_, ?_⟩
    · rw [tokens_cons (plain_ne_dashes h), (plain_iff w).1 h, tokens, if_pos rfl]; rfl
    · simp only [applyItems] at ha
      rw [consume_arg]
      exact ha

theorem setting_nil {α : Type} (o : Opt) (read : Text → Option α) (d x : α) : Setting [] o read d x ↔ x = d := by
  simp [Setting, valuesOf]

theorem setting_input {α : Type} (w : Text) (l : List CmdPart) (o : Opt) (read : Text → Option α) (d x : α) :
    Setting (.input w :: l) o read d x ↔ Setting l o read d x := by
  simp [Setting, valuesOf]

theorem setting_other {α : Type} {o' : Opt} (v : Text) (l : List CmdPart) {o : Opt} (read : Text → Option α) (d x : α) (h : o' ≠ o) :
    Setting (.option o' v :: l) o read d x ↔ Setting l o read d x := by
  simp [Setting, valuesOf, h]

theorem setting_none {α : Type} (v : Text) (l : List CmdPart) (o : Opt) (read : Text → Option α) (d x : α) (h : read v = none) :
    ¬ Setting (.option o v :: l) o read d x := by
  intro hs
  exact hs.1 v (by simp [valuesOf]) h

theorem setting_some {α : Type} {v : Text} (l : List CmdPart) {o : Opt} {read : Text → Option α} {d x y : α} (h : read v = some y) :
    Setting (.option o v :: l) o read d x ↔ Setting l o read y x := by
  have e : valuesOf o (.option o v :: l) = v :: valuesOf o l := by simp [valuesOf]
  unfold Setting
  rw [e, List.getLast?_cons]
  cases (valuesOf o l).getLast? with
  | none => simp [h]
  | some u => simp [h]

def readMode (v : Text) : Option VideoMode := if v = txt "HGR" then some .HGR else if v = txt "DHGR" then some .DHGR else none

def readPalette (v : Text) : Option Palette := if v = txt "UNKNOWN" then some .UNKNOWN else if v = txt "IIGS" then some .IIGS
    else if v = txt "NTSC" then some .NTSC else none

theorem readPalette_eq : readPalette = fun v => if v = txt "IIGS" then some .IIGS else if v = txt "NTSC" then some .NTSC
    else if v = txt "UNKNOWN" then some .UNKNOWN else none := by
  funext v
  unfold readPalette
  by_cases h1 : v = txt "UNKNOWN"
  · subst h1; decide
  · simp [h1]

/-- The settings from a state of the parser to another one. -/
structure Settings (R : Reads) (l : List CmdPart) (s s' : Parsing) : Prop where
  input : s.input.toList ++ inputsOf l = s'.input.toList
  output : Setting l .output (fun v => some (some v)) s.output s'.output
  maxMb : Setting l .maxMb R.float s.maxMb s'.maxMb
  normalization : Setting l .normalization (fun v => (R.float v).map some) s.normalization s'.normalization
  bitrate : Setting l .bitrate R.int s.bitrate s'.bitrate
  everyN : Setting l .everyN R.int s.everyN s'.everyN
  mode : Setting l .mode readMode s.mode s'.mode
  palette : Setting l .palette readPalette s.palette s'.palette

theorem applyItems_iff {R : Reads} {l : List CmdPart} (hl : ∀ v, .option .help v ∉ l) {s s' : Parsing} (hs : s.extras = false) :
    applyItems R l s = .ok s' ∧ s'.extras = false ↔ s'.extras = false ∧ Settings R l s s' := by
  induction l generalizing s with
  | nil =>
    simp only [applyItems, Except.ok.injEq]
    constructor
    · rintro ⟨rfl, h⟩
      refine ⟨h, ?_, ?_, ?_, ?_, ?_, ?_, ?_, ?_⟩
      · simp [inputsOf]
      all_goals exact (setting_nil _ _ _ _).2 rfl
    · rintro ⟨h, h1, h2, h3, h4, h5, h6, h7, h8⟩
      rw [setting_nil] at h2 h3 h4 h5 h6 h7 h8
      refine ⟨?_, h⟩
      have h1 : s.input = s'.input := by
        simp only [inputsOf, List.filterMap_nil, List.append_nil] at h1
        cases hi : s.input <;> cases hi' : s'.input <;> simp_all
      cases s; cases s'
      simp_all
  | cons i l ih =>
    have hl' : ∀ v, CmdPart.option .help v ∉ l := fun v hv => hl v (List.mem_cons_of_mem _ hv)
    cases i with
    | input w =>
      simp only [applyItems]
      by_cases hi : s.input = none
      · rw [if_pos hi, ih hl' (s := { s with input := some w }) hs]
        refine and_congr_right fun _ => ?_
        constructor
        · rintro ⟨h1, h2, h3, h4, h5, h6, h7, h8⟩
          refine ⟨?_, ?_, ?_, ?_, ?_, ?_, ?_, ?_⟩
          · rw [← h1]; simp [hi, inputsOf]
          all_goals (rw [setting_input]; assumption)
        · rintro ⟨h1, h2, h3, h4, h5, h6, h7, h8⟩
          rw [setting_input] at h2 h3 h4 h5 h6 h7 h8
          refine ⟨?_, h2, h3, h4, h5, h6, h7, h8⟩
          rw [← h1]; simp [hi, inputsOf]
      · rw [if_neg hi]
        constructor
        · rintro ⟨h1, h2⟩
          have := applyItems_extras h1 rfl
          rw [h2] at this; cases this
        · rintro ⟨h, h1, -⟩
          exfalso
          cases hj : s.input with
          | none => exact hi hj
          | some u =>
            rw [hj] at h1
            cases hk : s'.input <;> simp [hk, inputsOf] at h1
    | option o v =>
      simp only [applyItems]
      have step : ∀ s1, s.store R v o = .ok s1 → (Settings R (.option o v :: l) s s' ↔ Settings R l s1 s') →
          ((match s.store R v o with | .ok s => applyItems R l s | .error e => .error e) = .ok s' ∧ s'.extras = false ↔
            s'.extras = false ∧ Settings R (.option o v :: l) s s') := by
        intro s1 h1 h2
        rw [h1, h2]
        exact ih hl' ((store_other h1).1.trans hs)
      have fail : ∀ e, s.store R v o = .error e → (¬ Settings R (.option o v :: l) s s') →
          ((match s.store R v o with | .ok s => applyItems R l s | .error e => .error e) = .ok s' ∧ s'.extras = false ↔
            s'.extras = false ∧ Settings R (.option o v :: l) s s') := by
        intro e h1 h2
        rw [h1]
        simp [h2]
      have inp : inputsOf (.option o v :: l) = inputsOf l := by simp [inputsOf]
      have good : ∀ s1, s.store R v o = .ok s1 →
          ((Setting (.option o v :: l) .output (fun v => some (some v)) s.output s'.output ↔ Setting l .output (fun v => some (some v)) s1.output s'.output) ∧
           (Setting (.option o v :: l) .maxMb R.float s.maxMb s'.maxMb ↔ Setting l .maxMb R.float s1.maxMb s'.maxMb) ∧
           (Setting (.option o v :: l) .normalization (fun v => (R.float v).map some) s.normalization s'.normalization ↔
              Setting l .normalization (fun v => (R.float v).map some) s1.normalization s'.normalization) ∧
           (Setting (.option o v :: l) .bitrate R.int s.bitrate s'.bitrate ↔ Setting l .bitrate R.int s1.bitrate s'.bitrate) ∧
           (Setting (.option o v :: l) .everyN R.int s.everyN s'.everyN ↔ Setting l .everyN R.int s1.everyN s'.everyN) ∧
           (Setting (.option o v :: l) .mode readMode s.mode s'.mode ↔ Setting l .mode readMode s1.mode s'.mode) ∧
           (Setting (.option o v :: l) .palette readPalette s.palette s'.palette ↔ Setting l .palette readPalette s1.palette s'.palette)) →
          (Settings R (.option o v :: l) s s' ↔ Settings R l s1 s') := by
        rintro s1 hst ⟨a1, a2, a3, a4, a5, a6, a7⟩
        have ei := (store_other hst).2
        constructor
        · rintro ⟨h1, h2, h3, h4, h5, h6, h7, h8⟩
          exact ⟨by rw [ei, ← h1, inp], a1.1 h2, a2.1 h3, a3.1 h4, a4.1 h5, a5.1 h6, a6.1 h7, a7.1 h8⟩
        · rintro ⟨h1, h2, h3, h4, h5, h6, h7, h8⟩
          exact ⟨by rw [← h1, inp, ei], a1.2 h2, a2.2 h3, a3.2 h4, a4.2 h5, a5.2 h6, a6.2 h7, a7.2 h8⟩
      have pick : ∀ s1, s.store R v o = .ok s1 → (Settings R (.option o v :: l) s s' ↔ Settings R l s1 s') := by
        intro s1 h1
        refine good s1 h1 ?_
        unfold Parsing.store at h1
        cases o with
        | help => exact absurd List.mem_cons_self (hl v)
        | output =>
          cases h1
          refine ⟨setting_some l rfl, ?_, ?_, ?_, ?_, ?_, ?_⟩ <;> exact setting_other v l _ _ _ (by decide)
        | maxMb =>
          simp only at h1
          split at h1
          · rename_i x hx
            cases h1
            refine ⟨?_, setting_some l hx, ?_, ?_, ?_, ?_, ?_⟩ <;> exact setting_other v l _ _ _ (by decide)
          · cases h1
        | normalization =>
          simp only at h1
          split at h1
          · rename_i x hx
            cases h1
            refine ⟨?_, ?_, setting_some l (by rw [hx]; rfl), ?_, ?_, ?_, ?_⟩ <;> exact setting_other v l _ _ _ (by decide)
          · cases h1
        | bitrate =>
          simp only at h1
          split at h1
          · rename_i x hx
            cases h1
            refine ⟨?_, ?_, ?_, setting_some l hx, ?_, ?_, ?_⟩ <;> exact setting_other v l _ _ _ (by decide)
          · cases h1
        | everyN =>
          simp only at h1
          split at h1
          · rename_i x hx
            cases h1
            refine ⟨?_, ?_, ?_, ?_, setting_some l hx, ?_, ?_⟩ <;> exact setting_other v l _ _ _ (by decide)
          · cases h1
        | mode =>
          simp only at h1
          split at h1
          · rename_i hx
            cases h1
            refine ⟨?_, ?_, ?_, ?_, ?_, setting_some l (by simp [readMode, hx]), ?_⟩ <;> exact setting_other v l _ _ _ (by decide)
          · rename_i hx
            split at h1
            · rename_i hy
              cases h1
              refine ⟨?_, ?_, ?_, ?_, ?_, setting_some l (by rw [readMode, if_neg hx, if_pos hy]), ?_⟩ <;> exact setting_other v l _ _ _ (by decide)
            · cases h1
        | palette =>
          simp only at h1
          split at h1
          · rename_i hx
            cases h1
            refine ⟨?_, ?_, ?_, ?_, ?_, ?_, setting_some l (by rw [readPalette, if_pos hx])⟩ <;> exact setting_other v l _ _ _ (by decide)
          · rename_i hx
            split at h1
            · rename_i hy
              cases h1
              refine ⟨?_, ?_, ?_, ?_, ?_, ?_, setting_some l (by rw [readPalette, if_neg hx, if_pos hy])⟩ <;> exact setting_other v l _ _ _ (by decide)
            · rename_i hy
              split at h1
              · rename_i hz
                cases h1
                refine ⟨?_, ?_, ?_, ?_, ?_, ?_, setting_some l (by rw [readPalette, if_neg hx, if_neg hy, if_pos hz])⟩ <;> exact setting_other v l _ _ _ (by decide)
              · cases h1
      cases hst : s.store R v o with
      | ok s1 => rw [← hst]; exact step s1 hst (pick s1 hst)
      | error e =>
        rw [← hst]
        refine fail e hst fun hS => ?_
        unfold Parsing.store at hst
        cases o with
        | help => exact absurd List.mem_cons_self (hl v)
        | output => cases hst
        | maxMb =>
          simp only at hst
          split at hst
          · cases hst
          · rename_i hx; exact setting_none _ _ _ _ _ _ hx hS.maxMb
        | normalization =>
          simp only at hst
          split at hst
          · cases hst
          · rename_i hx; exact setting_none _ _ _ _ _ _ (by rw [hx]; rfl) hS.normalization
        | bitrate =>
          simp only at hst
          split at hst
          · cases hst
          · rename_i hx; exact setting_none _ _ _ _ _ _ hx hS.bitrate
        | everyN =>
          simp only at hst
          split at hst
          · cases hst
          · rename_i hx; exact setting_none _ _ _ _ _ _ hx hS.everyN
        | mode =>
          simp only at hst
          split at hst
          · cases hst
          · rename_i hx
            split at hst
            · cases hst
            · rename_i hy; exact setting_none _ _ _ _ _ _ (by rw [readMode, if_neg hx, if_neg hy]) hS.mode
        | palette =>
          simp only at hst
          split at hst
          · cases hst
          · rename_i hx
            split at hst
            · cases hst
            · rename_i hy
              split at hst
              · cases hst
              · rename_i hz
                exact setting_none _ _ _ _ _ _ (by rw [readPalette, if_neg hx, if_neg hy, if_neg hz]) hS.palette

theorem spells_no_help {argv : List Text} {l : List CmdPart} (h : Spells argv l) (v : Text) : .option .help v ∉ l := by
  induction h with
  | nil => simp
  | input h t ih => simpa using ih
  | separate h ho hv t ih =>
    simp only [List.mem_cons, CmdPart.option.injEq, not_or, not_and]
    exact ⟨fun e => absurd e.symm ho, ih⟩
  | joined h ho t ih =>
    simp only [List.mem_cons, CmdPart.option.injEq, not_or, not_and]
    exact ⟨fun e => absurd e.symm ho, ih⟩
  | dashes => simp
  | dashesAfter h => simp

end IIVision
