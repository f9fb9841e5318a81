import Verif.Spec.Symbols

/-! Parsing lemmas. -/

namespace IIVision
open Spec

theorem splitOn_ne_nil (sep : Nat) (t : Text) : splitOn sep t ≠ [] := by
  cases t with
  | nil => simp [splitOn]
  | cons c t => unfold splitOn; split <;> (try split) <;> simp

theorem splitOn_plain (sep : Nat) (t : Text) (h : sep ∉ t) : splitOn sep t = [t] := by
  induction t with
  | nil => rfl
  | cons c t ih =>
    simp only [List.mem_cons, not_or] at h
    unfold splitOn
    rw [if_neg (fun e => h.1 e.symm), ih h.2]

theorem splitOn_append (sep : Nat) (a b : Text) (h : sep ∉ a) :
    splitOn sep (a ++ sep :: b) = a :: splitOn sep b := by
  induction a with
  | nil => simp [splitOn]
  | cons c a ih =>
    simp only [List.mem_cons, not_or] at h
    show (if c = sep then _ else match splitOn sep (a ++ sep :: b) with
      | [] => [[c]]
      | w :: ws => (c :: w) :: ws) = _
    rw [if_neg (fun e => h.1 e.symm), ih h.2]

theorem splitOn_join (sep : Nat) (ws : List Text) (hne : ws ≠ []) (h : ∀ w ∈ ws, sep ∉ w) :
    splitOn sep (joinWith sep ws) = ws := by
  induction ws with
  | nil => exact absurd rfl hne
  | cons w ws ih =>
    cases ws with
    | nil => exact splitOn_plain sep w (h w (by simp))
    | cons w' ws =>
      show splitOn sep (w ++ sep :: joinWith sep (w' :: ws)) = _
      rw [splitOn_append sep _ _ (h w (by simp)), ih (by simp) (fun x hx => h x (by simp [hx]))]

theorem splitWsFrom_plain (t : Text) (h : ∀ c ∈ t, isSpace c = false) : ∀ w, w ++ t ≠ [] →
    splitWsFrom w t = [w.reverse ++ t] := by
  induction t with
  | nil =>
    intro w hw
    have : w ≠ [] := by simpa using hw
    cases w with
    | nil => exact absurd rfl this
    | cons c w => simp [splitWsFrom]
  | cons c t ih =>
    intro w _
    unfold splitWsFrom
    rw [if_neg (by rw [h c (by simp)]; simp), ih (fun x hx => h x (by simp [hx])) (c :: w) (by simp)]
    simp

theorem splitWs_sym (d : Text) (hd : d ≠ []) (h : ∀ c ∈ d, isSpace c = false) :
    splitWs (txt "sym" ++ 9 :: d) = [txt "sym", d] := by
  have e : txt "sym" = [115, 121, 109] := by decide +kernel
  rw [e]
  have h2 := splitWsFrom_plain d h [] (by simpa using hd)
  unfold splitWs
  simp only [List.cons_append, List.nil_append]
  have s1 : isSpace 115 = false := by decide
  have s2 : isSpace 121 = false := by decide
  have s3 : isSpace 109 = false := by decide
  have s4 : isSpace 9 = true := by decide
  simp only [splitWsFrom, s1, s2, s3, s4]
  simp only [List.reverse_nil, List.nil_append] at h2
  simp [h2]

/-! ### Dictionaries -/

section dict
variable {α : Type}

theorem dict_get_set (d : Dict α) (k k' : Text) (v : α) :
    (d.set k v).get k' = if k = k' then some v else d.get k' := by
  induction d with
  | nil => simp [Dict.set, Dict.get]
  | cons e d ih =>
    obtain ⟨a, b⟩ := e
    unfold Dict.set
    split
    · rename_i h
      subst h
      unfold Dict.get
      split
      · rfl
      · rfl
    · rename_i h
      simp only [Dict.get, ih]
      split
      · rename_i h2
        rw [if_neg]
        intro h3
        exact h (h2.trans h3.symm)
      · rfl

/-- Keys of a dictionary. -/
def dictKeys (d : Dict α) : List Text := d.map (·.1)

theorem dict_keys_set (d : Dict α) (k : Text) (v : α) :
    dictKeys (d.set k v) = if k ∈ dictKeys d then dictKeys d else dictKeys d ++ [k] := by
  induction d with
  | nil => simp [Dict.set, dictKeys]
  | cons e d ih =>
    obtain ⟨a, b⟩ := e
    unfold Dict.set
    split
    · rename_i h
      subst h
      simp [dictKeys]
    · rename_i h
      have h' : ¬ k = a := fun e => h e.symm
      simp only [dictKeys, List.map_cons, List.mem_cons, h', false_or] at ih ⊢
      split <;> rename_i hk <;> simp [ih, hk]

theorem dict_nodup_set (d : Dict α) (k : Text) (v : α) (h : (dictKeys d).Nodup) :
    (dictKeys (d.set k v)).Nodup := by
  rw [dict_keys_set]
  split
  · exact h
  · rename_i hk
    rw [List.nodup_append]
    refine ⟨h, by simp, ?_⟩
    intro a ha b hb
    simp only [List.mem_singleton] at hb
    subst hb
    intro e
    subst e
    exact hk ha

theorem dict_get_mem (d : Dict α) (h : (dictKeys d).Nodup) (k : Text) (v : α) :
    d.get k = some v ↔ (k, v) ∈ d := by
  induction d with
  | nil => simp [Dict.get]
  | cons e d ih =>
    obtain ⟨a, b⟩ := e
    simp only [dictKeys, List.map_cons, List.nodup_cons] at h
    unfold Dict.get
    split
    · rename_i hk
      subst hk
      simp only [Option.some.injEq, List.mem_cons, Prod.mk.injEq, true_and]
      constructor
      · intro e; exact .inl e.symm
      · rintro (e | e)
        · exact e.symm
        · exact absurd (List.mem_map.mpr ⟨_, e, rfl⟩) h.1
    · rename_i hk
      rw [ih h.2]
      simp only [List.mem_cons, Prod.mk.injEq]
      constructor
      · exact .inr
      · rintro (⟨e, -⟩ | e)
        · exact absurd e.symm hk
        · exact e

/-- Storing a list of entries in order. -/
def setAll (d : Dict α) (es : List (Text × α)) : Dict α := es.foldl (fun d e => d.set e.1 e.2) d

theorem setAll_nodup (es : List (Text × α)) : ∀ d : Dict α, (dictKeys d).Nodup →
    (dictKeys (setAll d es)).Nodup := by
  induction es with
  | nil => intro d h; exact h
  | cons e es ih => intro d h; exact ih _ (dict_nodup_set d _ _ h)

/-- Last value stored under a key. -/
def lastEntry (es : List (Text × α)) (k : Text) : Option α :=
  ((es.filter fun e => decide (e.1 = k)).getLast?).map (·.2)

theorem lastEntry_cons (e : Text × α) (es : List (Text × α)) (k : Text) :
    lastEntry (e :: es) k = (lastEntry es k).or (if e.1 = k then some e.2 else none) := by
  unfold lastEntry
  by_cases h : e.1 = k
  · rw [List.filter_cons_of_pos (by simpa using h), if_pos h, List.getLast?_cons]
    cases (es.filter fun e => decide (e.1 = k)).getLast? <;> simp
  · rw [List.filter_cons_of_neg (by simpa using h), if_neg h, Option.or_none]

theorem setAll_get (es : List (Text × α)) : ∀ (d : Dict α) (k : Text),
    (setAll d es).get k = (lastEntry es k).or (d.get k) := by
  induction es with
  | nil => intro d k; simp [setAll, lastEntry]
  | cons e es ih =>
    intro d k
    show (setAll (d.set e.1 e.2) es).get k = _
    rw [ih, dict_get_set, lastEntry_cons]
    cases lastEntry es k with
    | some v => simp
    | none =>
      simp only [Option.none_or]
      split <;> simp

theorem lastEntry_mem {es : List (Text × α)} {k : Text} {v : α} (h : lastEntry es k = some v) :
    (k, v) ∈ es := by
  unfold lastEntry at h
  obtain ⟨e, he, rfl⟩ := Option.map_eq_some_iff.mp h
  have := List.mem_of_getLast? he
  simp only [List.mem_filter, decide_eq_true_eq] at this
  obtain ⟨h1, rfl⟩ := this
  exact h1

theorem lastEntry_isSome {es : List (Text × α)} {k : Text} (h : ∃ v, (k, v) ∈ es) :
    ∃ v, lastEntry es k = some v := by
  obtain ⟨v, hv⟩ := h
  unfold lastEntry
  cases hl : (es.filter fun e => decide (e.1 = k)).getLast? with
  | some e => exact ⟨_, rfl⟩
  | none =>
    rw [List.getLast?_eq_none_iff, List.filter_eq_nil_iff] at hl
    exact absurd (hl _ hv) (by simp)

theorem dict_mem_setAll (es : List (Text × α)) (k : Text) (v : α) :
    (k, v) ∈ setAll [] es ↔ lastEntry es k = some v := by
  rw [← dict_get_mem _ (setAll_nodup es [] (by simp [dictKeys])), setAll_get]
  simp [Dict.get]

end dict

/-! ### Lines -/

/-- Symbol lines with known contents. -/
theorem parse_lines (lines : List Text) : ∀ (es : List (Text × Dict Text)) (d : Dict (Dict Text)),
    ((lines.filter fun l => (txt "sym").isPrefixOf l).map parseSym) = es.map .ok →
    lines.foldlM parseLine d = .ok (setAll d es) := by
  induction lines with
  | nil =>
    intro es d h
    cases es with
    | nil => rfl
    | cons e es => simp at h
  | cons l lines ih =>
    intro es d h
    rw [List.foldlM_cons]
    unfold parseLine
    by_cases hp : (txt "sym").isPrefixOf l = true
    · rw [List.filter_cons_of_pos hp] at h
      cases es with
      | nil => simp at h
      | cons e es =>
        simp only [List.map_cons, List.cons.injEq] at h
        rw [if_pos hp, h.1]
        exact ih es _ h.2
    · rw [List.filter_cons_of_neg hp] at h
      rw [if_neg hp]
      exact ih es d h

/-- Adding the opcode symbols of a dictionary. -/
theorem addOpcode_fold (es : List (Text × Dict Text)) : ∀ (d : Dict Nat),
    (∀ e ∈ es, (txt "\"op_").isPrefixOf e.1 = true → ∃ v n, e.2.get (txt "val") = some v ∧ intHex v = .ok n) →
    ∃ new : List (Text × Nat), es.foldlM addOpcode d = .ok (setAll d new) ∧
      ∀ nm n, (nm, n) ∈ new ↔ ∃ e ∈ es, (txt "\"op_").isPrefixOf e.1 = true ∧ (e.1.drop 4).dropLast = nm ∧
        ∃ v, e.2.get (txt "val") = some v ∧ intHex v = .ok n := by
  induction es with
  | nil => intro d _; exact ⟨[], rfl, by simp⟩
  | cons e es ih =>
    intro d h
    rw [List.foldlM_cons]
    by_cases hp : (txt "\"op_").isPrefixOf e.1 = true
    · obtain ⟨v, n, h1, h2⟩ := h e (by simp) hp
      have ha : addOpcode d e = .ok (d.set (e.1.drop 4).dropLast n) := by
        unfold addOpcode
        rw [if_pos hp]
        unfold Dict.get!
        rw [h1]
        show (intHex v >>= fun start => _) = _
        rw [h2]
        rfl
      rw [ha]
      obtain ⟨new, n1, n2⟩ := ih (d.set (e.1.drop 4).dropLast n) (fun x hx => h x (by simp [hx]))
      refine ⟨((e.1.drop 4).dropLast, n) :: new, n1, ?_⟩
      intro nm m
      simp only [List.mem_cons, n2, Prod.mk.injEq]
      constructor
      · rintro (⟨rfl, rfl⟩ | ⟨x, hx, hx2⟩)
        · exact ⟨e, .inl rfl, hp, rfl, v, h1, h2⟩
        · exact ⟨x, .inr hx, hx2⟩
      · rintro ⟨x, (rfl | hx), hx2, hx3, w, hw1, hw2⟩
        · left
          rw [h1] at hw1
          cases hw1
          rw [h2] at hw2
          cases hw2
          exact ⟨hx3.symm, rfl⟩
        · exact .inr ⟨x, hx, hx2, hx3, w, hw1, hw2⟩
    · have ha : addOpcode d e = .ok d := by
        unfold addOpcode
        rw [if_neg hp]
      rw [ha]
      obtain ⟨new, n1, n2⟩ := ih d (fun x hx => h x (by simp [hx]))
      refine ⟨new, n1, ?_⟩
      intro nm m
      rw [n2]
      constructor
      · rintro ⟨x, hx, hx2⟩; exact ⟨x, by simp [hx], hx2⟩
      · rintro ⟨x, hx, hx2⟩
        rcases List.mem_cons.mp hx with rfl | hx
        · exact absurd hx2.1 hp
        · exact ⟨x, hx, hx2⟩

theorem op_prefix_length : (txt "\"op_").length = 4 := by decide +kernel

/-- The addresses found for the entries `es` of a symbol table. -/
theorem opcodeAddrs_entries (es : List (Text × Dict Text))
    (hv : ∀ e ∈ es, (txt "\"op_").isPrefixOf e.1 = true → ∃ v n, e.2.get (txt "val") = some v ∧ intHex v = .ok n)
    (hq : ∀ e ∈ es, (txt "\"op_").isPrefixOf e.1 = true → ∃ nm, e.1 = txt "\"op_" ++ nm ++ [34]) :
    ∃ a, opcodeAddrs (setAll [] es) = .ok a ∧ ∀ c n, a c = some n ↔
      ∃ s v, lastEntry es (opSymbol c) = some s ∧ s.get (txt "val") = some v ∧ intHex v = .ok n := by
  have hsub : ∀ e ∈ setAll [] es, e ∈ es := by
    intro e he
    obtain ⟨k, v⟩ := e
    exact lastEntry_mem ((dict_mem_setAll es k v).mp he)
  obtain ⟨new, n1, n2⟩ := addOpcode_fold (setAll [] es) [] (fun e he => hv e (hsub e he))
  unfold opcodeAddrs
  rw [n1]
  refine ⟨_, rfl, ?_⟩
  intro c n
  show (setAll [] new).get c.lowerName = some n ↔ _
  have hdrop : ∀ nm : Text, ((txt "\"op_" ++ nm ++ [34]).drop 4).dropLast = nm := by
    intro nm
    rw [List.append_assoc, List.drop_left' op_prefix_length, List.dropLast_concat]
  have hpre : (txt "\"op_").isPrefixOf (opSymbol c) = true := by
    rw [List.isPrefixOf_iff_prefix]
    unfold opSymbol
    rw [List.append_assoc]
    exact List.prefix_append _ _
  rw [setAll_get]
  simp only [Dict.get, Option.or_none]
  constructor
  · intro h
    have h1 := lastEntry_mem h
    rw [n2] at h1
    obtain ⟨e, e1, e2, e3, v, e4, e5⟩ := h1
    obtain ⟨nm, hnm⟩ := hq e (hsub e e1) e2
    rw [hnm, hdrop] at e3
    subst e3
    obtain ⟨k, s⟩ := e
    simp only at hnm
    refine ⟨s, v, ?_, e4, e5⟩
    rw [← dict_mem_setAll]
    unfold opSymbol
    rw [← hnm]
    exact e1
  · rintro ⟨s, v, h1, h2, h3⟩
    have hm : (opSymbol c, s) ∈ setAll [] es := (dict_mem_setAll es _ _).mpr h1
    have hin : (c.lowerName, n) ∈ new := by
      rw [n2]
      exact ⟨_, hm, hpre, hdrop _, v, h2, h3⟩
    obtain ⟨m, hm2⟩ := lastEntry_isSome ⟨n, hin⟩
    have h4 := lastEntry_mem hm2
    rw [n2] at h4
    obtain ⟨e, e1, e2, e3, w, e4, e5⟩ := h4
    obtain ⟨nm, hnm⟩ := hq e (hsub e e1) e2
    rw [hnm, hdrop] at e3
    subst e3
    obtain ⟨k, s'⟩ := e
    simp only at hnm
    have hk : k = opSymbol c := hnm
    subst hk
    have hs : s' = s := by
      have := (dict_mem_setAll es _ _).mp e1
      rw [h1] at this
      cases this; rfl
    subst hs
    rw [h2] at e4
    cases e4
    rw [h3] at e5
    cases e5
    exact hm2

theorem cmd_all (c : Cmd) : c ∈ Cmd.all := by
  unfold Cmd.all
  cases c with
  | tick t p =>
    apply List.mem_append_right
    exact List.mem_flatMap.mpr ⟨t, List.mem_finRange t, List.mem_map.mpr ⟨p, List.mem_finRange p, rfl⟩⟩
  | _ => apply List.mem_append_left; simp

/-- Filling in the addresses from the symbol lines of a text. -/
theorem fill_entries (text : Text) (es : List (Text × Dict Text))
    (hl : (((splitOn 10 text).filter fun l => (txt "sym").isPrefixOf l).map parseSym) = es.map .ok)
    (hv : ∀ e ∈ es, (txt "\"op_").isPrefixOf e.1 = true → ∃ v n, e.2.get (txt "val") = some v ∧ intHex v = .ok n)
    (hq : ∀ e ∈ es, (txt "\"op_").isPrefixOf e.1 = true → ∃ nm, e.1 = txt "\"op_" ++ nm ++ [34]) :
    (∀ addr : AddrTable, (∀ c, addr c ≠ 0 ∧ ∃ s v, lastEntry es (opSymbol c) = some s ∧
        s.get (txt "val") = some v ∧ intHex v = .ok (addr c)) → fillAddresses text = .ok addr) ∧
    (∀ c, (∀ s v n, lastEntry es (opSymbol c) = some s → s.get (txt "val") = some v → intHex v = .ok n → n = 0) →
      fillAddresses text = .error .valueError) := by
  obtain ⟨a, a1, a2⟩ := opcodeAddrs_entries es hv hq
  have hp := parse_lines _ es [] hl
  have e : fillAddresses text = if Cmd.all.all fun c => match a c with
      | none => false
      | some n => n != 0 then .ok (fun c => (a c).getD 0) else .error .valueError := by
    unfold fillAddresses parseSymbols
    rw [hp]
    show (opcodeAddrs (setAll [] es) >>= _) = _
    rw [a1]
    rfl
  constructor
  · intro addr h
    have ha : ∀ c, a c = some (addr c) := fun c => (a2 c _).mpr (h c).2
    rw [e, if_pos]
    · congr 1
      funext c
      rw [ha]; rfl
    · rw [List.all_eq_true]
      intro c _
      rw [ha]
      simpa using (h c).1
  · intro c h
    rw [e, if_neg]
    rw [List.all_eq_true]
    intro hall
    have := hall c (cmd_all c)
    cases hc : a c with
    | none => rw [hc] at this; simp at this
    | some n =>
      rw [hc] at this
      obtain ⟨s, v, h1, h2, h3⟩ := (a2 c n).mp hc
      have := h s v n h1 h2 h3
      subst this
      simp at *

end IIVision
