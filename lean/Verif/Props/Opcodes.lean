import Verif.Proofs.Shipped
import Verif.Spec.Decode
import Verif.Props.Movie
import Mathlib.Tactic.FinCases

/-! Properties C33, C34, C35 and C50: opcodes, their addresses and the symbol table. -/

namespace IIVision
open Spec

/-! ### C35 -/

theorem foldlM_addKv (attrs : List (Text × Text)) : ∀ d : Dict Text,
    (∀ kv ∈ attrs, PlainText kv.1 ∧ PlainText kv.2) →
    (attrs.map fun kv => kv.1 ++ 61 :: kv.2).foldlM addKv d = .ok (setAll d attrs) := by
  induction attrs with
  | nil => intro d _; rfl
  | cons kv attrs ih =>
    intro d h
    have h0 := h kv (by simp)
    have e : addKv d (kv.1 ++ 61 :: kv.2) = .ok (d.set kv.1 kv.2) := by
      unfold addKv
      rw [splitOn_append 61 _ _ (fun hm => (h0.1 61 hm).1 rfl),
        splitOn_plain 61 _ (fun hm => (h0.2 61 hm).1 rfl)]
    rw [List.map_cons, List.foldlM_cons, e]
    exact ih _ (fun x hx => h x (by simp [hx]))

theorem mem_joinWith {sep c : Nat} {ws : List Text} (h : c ∈ joinWith sep ws) :
    c = sep ∨ ∃ w ∈ ws, c ∈ w := by
  induction ws with
  | nil => simp [joinWith] at h
  | cons w ws ih =>
    cases ws with
    | nil => exact .inr ⟨w, by simp, h⟩
    | cons w' ws =>
      have h' : c ∈ w ++ sep :: joinWith sep (w' :: ws) := h
      rcases List.mem_append.mp h' with h' | h'
      · exact .inr ⟨w, by simp, h'⟩
      · rcases List.mem_cons.mp h' with h' | h'
        · exact .inl h'
        · rcases ih h' with h' | ⟨x, hx, hx2⟩
          · exact .inl h'
          · exact .inr ⟨x, by simp [hx], hx2⟩

theorem joinWith_ne_nil {sep : Nat} {ws : List Text} (hne : ws ≠ []) (h : ∀ w ∈ ws, w ≠ []) :
    joinWith sep ws ≠ [] := by
  cases ws with
  | nil => exact absurd rfl hne
  | cons w ws =>
    have hw := h w (by simp)
    cases ws with
    | nil => exact hw
    | cons w' ws =>
      show w ++ sep :: _ ≠ []
      simp

/-- Entry of a symbol line. -/
def entryOf (attrs : List (Text × Text)) : Text × Dict Text :=
  ((lastAttr attrs (txt "name")).getD [], setAll [] attrs)

theorem setAll_lastAttr (attrs : List (Text × Text)) (k : Text) :
    (setAll [] attrs).get k = lastAttr attrs k := by
  rw [setAll_get]
  show (lastAttr attrs k).or none = _
  exact Option.or_none

theorem parseSym_render {attrs : List (Text × Text)} (h : (DbgLine.sym attrs).Ok) :
    parseSym (DbgLine.sym attrs).render = .ok (entryOf attrs) := by
  obtain ⟨h1, h2⟩ := h
  obtain ⟨nm, hnm⟩ := Option.isSome_iff_exists.mp h2
  have hne : attrs ≠ [] := by
    rintro rfl
    simp [lastAttr] at hnm
  have hkv : ∀ w ∈ attrs.map (fun kv => kv.1 ++ 61 :: kv.2), ∀ c ∈ w, c = 61 ∨ (c ≠ 44 ∧ isSpace c = false) := by
    intro w hw c hc
    obtain ⟨kv, hkv, rfl⟩ := List.mem_map.mp hw
    obtain ⟨p1, p2⟩ := h1 kv hkv
    rcases List.mem_append.mp hc with hc | hc
    · exact .inr ⟨(p1 c hc).2.1, (p1 c hc).2.2.2⟩
    · rcases List.mem_cons.mp hc with hc | hc
      · exact .inl hc
      · exact .inr ⟨(p2 c hc).2.1, (p2 c hc).2.2.2⟩
  unfold parseSym DbgLine.render
  rw [splitWs_sym]
  · simp only
    rw [splitOn_join 44 _ (by simpa using hne), foldlM_addKv _ _ h1]
    · show (Dict.get! (setAll [] attrs) (txt "name") >>= fun name => _) = _
      unfold Dict.get!
      rw [setAll_lastAttr, hnm]
      show Except.ok (nm, setAll [] attrs) = _
      unfold entryOf
      rw [hnm]
      rfl
    · intro w hw hc
      rcases hkv w hw 44 hc with h | h
      · exact absurd h (by decide)
      · exact h.1 rfl
  · apply joinWith_ne_nil
    · simpa using hne
    · intro w hw
      obtain ⟨kv, -, rfl⟩ := List.mem_map.mp hw
      simp
  · intro c hc
    rcases mem_joinWith hc with rfl | ⟨w, hw, hc⟩
    · decide
    · rcases hkv w hw c hc with rfl | h
      · decide
      · exact h.2

theorem render_no_newline {l : DbgLine} (h : l.Ok) : 10 ∉ l.render := by
  cases l with
  | other t => exact h.1
  | sym attrs =>
    intro hm
    unfold DbgLine.render at hm
    have e : txt "sym" = [115, 121, 109] := by decide +kernel
    rw [e] at hm
    simp only [List.cons_append, List.nil_append, List.mem_cons] at hm
    rcases hm with hm | hm | hm | hm | hm
    · exact absurd hm (by decide)
    · exact absurd hm (by decide)
    · exact absurd hm (by decide)
    · exact absurd hm (by decide)
    · rcases mem_joinWith hm with hm | ⟨w, hw, hc⟩
      · exact absurd hm (by decide)
      · obtain ⟨kv, hkv, rfl⟩ := List.mem_map.mp hw
        obtain ⟨p1, p2⟩ := h.1 kv hkv
        rcases List.mem_append.mp hc with hc | hc
        · exact (p1 10 hc).2.2.1 rfl
        · rcases List.mem_cons.mp hc with hc | hc
          · exact absurd hc (by decide)
          · exact (p2 10 hc).2.2.1 rfl

theorem sym_prefix (attrs : List (Text × Text)) :
    (txt "sym").isPrefixOf (DbgLine.sym attrs).render = true := by
  rw [List.isPrefixOf_iff_prefix]
  exact List.prefix_append _ _

/-- The symbol entries of well-formed lines. -/
theorem lines_entries' (lines : List DbgLine) (hok : ∀ l ∈ lines, l.Ok) :
    ((lines.map DbgLine.render).filter fun l => (txt "sym").isPrefixOf l).map parseSym
      = ((symsOf lines).map entryOf).map .ok := by
  induction lines with
  | nil => rfl
  | cons l lines ih =>
    have ih := ih (fun x hx => hok x (by simp [hx]))
    have h0 := hok l (by simp)
    cases l with
    | sym attrs =>
      rw [List.map_cons, List.filter_cons_of_pos (sym_prefix attrs), List.map_cons, ih,
        parseSym_render h0]
      rfl
    | other t =>
      have h2 : (txt "sym").isPrefixOf (DbgLine.other t).render = false := h0.2
      rw [List.map_cons, List.filter_cons_of_neg (by rw [h2]; simp), ih]
      rfl

/-- The symbol entries of the lines of a file. -/
theorem lines_entries (lines : List DbgLine) (hok : ∀ l ∈ lines, l.Ok) :
    (((splitOn 10 (renderDbg lines)).filter fun l => (txt "sym").isPrefixOf l).map parseSym)
      = ((symsOf lines).map entryOf).map .ok := by
  have hs := lines_entries' lines hok
  cases lines with
  | nil =>
    have e : splitOn 10 (renderDbg []) = [[]] := rfl
    rw [e]
    have : (txt "sym").isPrefixOf ([] : Text) = false := by decide +kernel
    rw [List.filter_cons_of_neg (by rw [this]; simp)]
    rfl
  | cons l lines =>
    unfold renderDbg
    rw [splitOn_join 10 _ (by simp)]
    · exact hs
    · intro w hw
      obtain ⟨x, hx, rfl⟩ := List.mem_map.mp hw
      exact render_no_newline (hok x hx)

theorem lastEntry_syms (syms : List (List (Text × Text))) (n : Text)
    (h : ∀ a ∈ syms, (lastAttr a (txt "name")).isSome) :
    lastEntry (syms.map entryOf) n
      = ((syms.filter fun attrs => decide (lastAttr attrs (txt "name") = some n)).getLast?).map (setAll []) := by
  induction syms with
  | nil => rfl
  | cons a syms ih =>
    have ih := ih (fun x hx => h x (by simp [hx]))
    obtain ⟨nm, hnm⟩ := Option.isSome_iff_exists.mp (h a (by simp))
    have he : (entryOf a).1 = nm := by unfold entryOf; rw [hnm]; rfl
    rw [List.map_cons, lastEntry_cons, ih, he]
    by_cases hc : nm = n
    · rw [List.filter_cons_of_pos (by simp [hnm, hc]), if_pos hc, List.getLast?_cons]
      cases (syms.filter fun attrs => decide (lastAttr attrs (txt "name") = some n)).getLast? <;> simp [entryOf]
    · rw [List.filter_cons_of_neg (by simp [hnm, hc]), if_neg hc, Option.or_none]

theorem ok_named {lines : List DbgLine} (hok : ∀ l ∈ lines, l.Ok) :
    ∀ a ∈ symsOf lines, (∀ kv ∈ a, PlainText kv.1 ∧ PlainText kv.2) ∧ (lastAttr a (txt "name")).isSome := by
  intro a ha
  unfold symsOf at ha
  obtain ⟨l, hl, ha⟩ := List.mem_filterMap.mp ha
  have := hok l hl
  cases l with
  | other t => cases ha
  | sym attrs => cases ha; exact this

/-- C35: parsing a debug file gives, for every name, the attributes of the last `sym` line with
that name (the last value of each attribute), and nothing for other names; lines that do not
start with "sym" have no effect. -/
theorem C35_parse (lines : List DbgLine) (hok : ∀ l ∈ lines, l.Ok) :
    ∃ d, parseSymbols (renderDbg lines) = .ok d ∧
      ∀ n, (lastNamed lines n = none → d.get n = none) ∧
        ∀ attrs, lastNamed lines n = some attrs →
          ∃ s, d.get n = some s ∧ ∀ k, s.get k = lastAttr attrs k := by
  refine ⟨_, parse_lines _ _ [] (lines_entries lines hok), ?_⟩
  intro n
  have e : (setAll [] ((symsOf lines).map entryOf)).get n = (lastNamed lines n).map (setAll []) := by
    rw [setAll_get, lastEntry_syms _ _ (fun a ha => (ok_named hok a ha).2)]
    show (Option.map _ _).or none = _
    rw [Option.or_none]
    rfl
  rw [e]
  constructor
  · intro h; rw [h]; rfl
  · intro attrs h
    rw [h]
    exact ⟨_, rfl, setAll_lastAttr attrs⟩

theorem hexDigit_char (d : Nat) (h : d < 16) :
    hexDigit (if d < 10 then 48 + d else 55 + d) = some d := by
  have : ∀ d, d < 16 → hexDigit (if d < 10 then 48 + d else 55 + d) = some d := by decide
  exact this d h

theorem hexDigits_append (a b : Text) : ∀ acc, hexDigits acc (a ++ b) = (hexDigits acc a).bind (hexDigits · b) := by
  induction a with
  | nil => intro acc; rfl
  | cons c a ih =>
    intro acc
    rw [List.cons_append]
    show (match hexDigit c with
      | none => none
      | some d => hexDigits (16 * acc + d) (a ++ b)) = (match hexDigit c with
      | none => none
      | some d => hexDigits (16 * acc + d) a).bind _
    cases hexDigit c with
    | none => rfl
    | some d => exact ih _

theorem hexText_go (f : Nat) : ∀ n acc, n < f → ∃ ds, hexText.go f n acc = ds ++ acc ∧
    (n ≠ 0 → ds ≠ []) ∧ hexDigits 0 ds = some n := by
  induction f with
  | zero => intro n acc h; omega
  | succ f ih =>
    intro n acc h
    unfold hexText.go
    split
    · rename_i h0; subst h0; exact ⟨[], rfl, by simp, rfl⟩
    · rename_i h0
      obtain ⟨ds, e, -, hd⟩ := ih (n / 16) ((if n % 16 < 10 then 48 + n % 16 else 55 + n % 16) :: acc) (by omega)
      refine ⟨ds ++ [if n % 16 < 10 then 48 + n % 16 else 55 + n % 16], by rw [e]; simp, by simp, ?_⟩
      rw [hexDigits_append, hd]
      show (match hexDigit _ with
        | none => none
        | some d => hexDigits (16 * (n / 16) + d) []) = _
      rw [hexDigit_char _ (Nat.mod_lt _ (by decide))]
      show some (16 * (n / 16) + n % 16) = some n
      congr 1
      omega

/-- The number printed by cc65 is the one read. -/
theorem intHex_hexText (n : Nat) : intHex (hexText n) = .ok n := by
  unfold hexText
  by_cases h0 : n = 0
  · subst h0; rfl
  · rw [if_neg h0]
    obtain ⟨ds, e, hne, hd⟩ := hexText_go (n + 1) n [] (by omega)
    rw [e, List.append_nil]
    show (if ds.isEmpty then _ else match hexDigits 0 ds with
      | some n => Except.ok n
      | none => Except.error PyErr.valueError) = _
    have : ds.isEmpty = false := by
      cases ds with
      | nil => exact absurd rfl (hne h0)
      | cons => rfl
    rw [this, hd]
    rfl

/-- Condition on the opcode symbols of a file: quoted names and printed values. -/
def OpSymsOk (lines : List DbgLine) : Prop :=
  ∀ attrs ∈ symsOf lines, ∀ nm, lastAttr attrs (txt "name") = some nm → (txt "\"op_").isPrefixOf nm = true →
    (∃ x, nm = txt "\"op_" ++ x ++ [34]) ∧ ∃ v, lastAttr attrs (txt "val") = some (hexText v)

/-- C35: the address of every opcode is the value of the last symbol `"op_<name>"`; if some
opcode has no such symbol or its value is 0, the transcoder refuses to start with ValueError. -/
theorem C35_addresses (lines : List DbgLine) (hok : ∀ l ∈ lines, l.Ok) (hops : OpSymsOk lines) :
    (∀ addr : AddrTable, (∀ c, addr c ≠ 0 ∧ ∃ attrs, lastNamed lines (opSymbol c) = some attrs ∧
        lastAttr attrs (txt "val") = some (hexText (addr c))) →
      fillAddresses (renderDbg lines) = .ok addr) ∧
    (∀ c, (lastNamed lines (opSymbol c) = none ∨ ∃ attrs, lastNamed lines (opSymbol c) = some attrs ∧
        lastAttr attrs (txt "val") = some (hexText 0)) →
      fillAddresses (renderDbg lines) = .error .valueError) := by
  have hl : ∀ c, lastEntry ((symsOf lines).map entryOf) (opSymbol c)
      = (lastNamed lines (opSymbol c)).map (setAll []) := by
    intro c
    rw [lastEntry_syms _ _ (fun a ha => (ok_named hok a ha).2)]
    rfl
  obtain ⟨h1, h2⟩ := fill_entries (renderDbg lines) ((symsOf lines).map entryOf) (lines_entries lines hok)
    (by
      intro e he hp
      obtain ⟨attrs, ha, rfl⟩ := List.mem_map.mp he
      obtain ⟨nm, hnm⟩ := Option.isSome_iff_exists.mp (ok_named hok attrs ha).2
      have e1 : (entryOf attrs).1 = nm := by unfold entryOf; rw [hnm]; rfl
      rw [e1] at hp
      obtain ⟨-, v, hv⟩ := hops attrs ha nm hnm hp
      refine ⟨hexText v, v, ?_, intHex_hexText v⟩
      rw [← hv]
      exact setAll_lastAttr attrs _)
    (by
      intro e he hp
      obtain ⟨attrs, ha, rfl⟩ := List.mem_map.mp he
      obtain ⟨nm, hnm⟩ := Option.isSome_iff_exists.mp (ok_named hok attrs ha).2
      have e1 : (entryOf attrs).1 = nm := by unfold entryOf; rw [hnm]; rfl
      rw [e1] at hp ⊢
      exact (hops attrs ha nm hnm hp).1)
  constructor
  · intro addr h
    apply h1
    intro c
    obtain ⟨hz, attrs, ha, hv⟩ := h c
    refine ⟨hz, setAll [] attrs, hexText (addr c), ?_, ?_, intHex_hexText _⟩
    · rw [hl, ha]; rfl
    · rw [setAll_lastAttr, hv]
  · intro c h
    apply h2 c
    intro s v n e1 e2 e3
    rw [hl] at e1
    rcases h with h | ⟨attrs, ha, hv⟩
    · rw [h] at e1; cases e1
    · rw [ha] at e1
      cases e1
      rw [setAll_lastAttr, hv] at e2
      cases e2
      rw [intHex_hexText] at e3
      cases e3; rfl

theorem splitOn_length (sep : Nat) (t : Text) : (splitOn sep t).length = t.count sep + 1 := by
  induction t with
  | nil => rfl
  | cons c t ih =>
    by_cases h : c = sep
    · subst h
      simp only [splitOn, if_true, List.length_cons, ih, List.count_cons_self]
    · rw [List.count_cons_of_ne h, ← ih]
      simp only [splitOn, if_neg h]
      cases hs : splitOn sep t with
      | nil => exact absurd hs (splitOn_ne_nil sep t)
      | cons w ws => rfl

theorem joinWith_length {sep : Nat} {w : Text} {ws : List Text} (h : w ∈ ws) : w.length ≤ (joinWith sep ws).length := by
  induction ws with
  | nil => simp at h
  | cons x ws ih =>
    cases ws with
    | nil => simp only [List.mem_singleton] at h; subst h; exact Nat.le_refl _
    | cons y ws =>
      show _ ≤ (x ++ sep :: joinWith sep (y :: ws)).length
      rw [List.length_append, List.length_cons]
      rcases List.mem_cons.mp h with rfl | h
      · omega
      · have := ih h
        omega

/-! Files that are not well formed. -/

theorem foldlM_error {α β : Type} {f : β → α → Except PyErr β} {P : PyErr → Prop}
    (l : List α) (hP : ∀ b, ∀ a ∈ l, ∀ e, f b a = .error e → P e)
    (h : ∃ a ∈ l, ∀ b, ∃ e, f b a = .error e) (b : β) :
    ∃ e, l.foldlM f b = .error e ∧ P e := by
  induction l generalizing b with
  | nil => obtain ⟨a, ha, _⟩ := h; simp at ha
  | cons x l ih =>
    rw [List.foldlM_cons]
    cases hx : f b x with
    | error e => exact ⟨e, rfl, hP b x (by simp) e hx⟩
    | ok b' =>
      refine ih (fun b a ha => hP b a (by simp [ha])) ?_ b'
      obtain ⟨a, ha, hb⟩ := h
      rcases List.mem_cons.mp ha with rfl | ha
      · obtain ⟨e, he⟩ := hb b
        rw [hx] at he
        simp at he
      · exact ⟨a, ha, hb⟩

theorem hexDigit_chars {c d : Nat} (h : hexDigit c = some d) : c ∈ txt "0123456789abcdefABCDEF" := by
  have hc : c ≤ 102 := by
    unfold hexDigit at h
    split at h
    · omega
    · split at h
      · omega
      · split at h
        · omega
        · simp at h
  have : ∀ c, c ≤ 102 → (hexDigit c).isSome = true → c ∈ txt "0123456789abcdefABCDEF" := by decide +kernel
  exact this c hc (by rw [h]; rfl)

theorem hexDigits_chars {t : Text} : ∀ {acc n : Nat}, hexDigits acc t = some n →
    ∀ c ∈ t, c ∈ txt "0123456789abcdefABCDEF" := by
  induction t with
  | nil => simp
  | cons x t ih =>
    intro acc n h c hc
    simp only [hexDigits] at h
    cases hx : hexDigit x with
    | none => rw [hx] at h; simp at h
    | some d =>
      rw [hx] at h
      rcases List.mem_cons.mp hc with rfl | hc
      · exact hexDigit_chars hx
      · exact ih h c hc

theorem intHex_error {v : Text} (h : v = [] ∨ ∃ c ∈ v, c ∉ txt "0123456789abcdefABCDEFxX") :
    intHex v = .error .valueError := by
  have key : ∀ body : Text, (∃ c ∈ body, c ∉ txt "0123456789abcdefABCDEFxX") →
      (if body.isEmpty then Except.error PyErr.valueError
        else match hexDigits 0 body with
          | some n => .ok n
          | none => .error .valueError) = Except.error PyErr.valueError := by
    rintro body ⟨c, hc, hn⟩
    split
    · rfl
    · cases hd : hexDigits 0 body with
      | none => rfl
      | some n =>
        refine absurd ?_ hn
        have := hexDigits_chars hd c hc
        have e : txt "0123456789abcdefABCDEFxX" = txt "0123456789abcdefABCDEF" ++ [120, 88] := by decide +kernel
        rw [e]
        exact List.mem_append_left _ this
  rcases h with rfl | h
  · rfl
  · unfold intHex
    refine key _ ?_
    obtain ⟨c, hc, hn⟩ := h
    have h0 : c ≠ 48 := by rintro rfl; exact hn (by decide +kernel)
    have h1 : c ≠ 120 := by rintro rfl; exact hn (by decide +kernel)
    have h2 : c ≠ 88 := by rintro rfl; exact hn (by decide +kernel)
    split
    · simp only [List.mem_cons] at hc
      exact ⟨c, (hc.resolve_left h0).resolve_left h1, hn⟩
    · simp only [List.mem_cons] at hc
      exact ⟨c, (hc.resolve_left h0).resolve_left h2, hn⟩
    · exact ⟨c, hc, hn⟩

theorem intHex_errors {v : Text} {e : PyErr} (h : intHex v = .error e) : e = .valueError := by
  unfold intHex at h
  have key : ∀ body : Text, (if body.isEmpty then Except.error PyErr.valueError
        else match hexDigits 0 body with
          | some n => .ok n
          | none => .error .valueError) = Except.error e → e = .valueError := by
    intro body h
    split at h
    · injection h with h; exact h.symm
    · cases hd : hexDigits 0 body with
      | none => rw [hd] at h; injection h with h; exact h.symm
      | some n => rw [hd] at h; simp at h
  exact key _ h

theorem addOpcode_errors {d : Dict Nat} {x : Text × Dict Text} {e : PyErr} (h : addOpcode d x = .error e) :
    e = .keyError ∨ e = .valueError := by
  unfold addOpcode at h
  split at h
  · simp only [bind, Except.bind, Dict.get!] at h
    cases hv : x.2.get (txt "val") with
    | none => rw [hv] at h; injection h with h; exact .inl h.symm
    | some v =>
      rw [hv] at h
      simp only at h
      cases hi : intHex v with
      | error e' => rw [hi] at h; injection h with h; rw [← h]; exact .inr (intHex_errors hi)
      | ok n => rw [hi] at h; simp [pure, Except.pure] at h
  · simp at h

/-- C35: if the last line of some symbol named `"op_...` has no value, or one that is not a
hexadecimal number (because it is empty or has an ASCII character that occurs in none), the
transcoder refuses to start with KeyError or ValueError. -/
theorem C35_bad_value (lines : List DbgLine) (hok : ∀ l ∈ lines, l.Ok) (name : Text)
    (hname : txt "\"op_" <+: name) (attrs : List (Text × Text)) (hlast : lastNamed lines name = some attrs)
    (hbad : ∀ v, lastAttr attrs (txt "val") = some v →
      v = [] ∨ ∃ c ∈ v, c < 128 ∧ c ∉ txt "0123456789abcdefABCDEFxX+-_") :
    fillAddresses (renderDbg lines) = .error .keyError ∨
      fillAddresses (renderDbg lines) = .error .valueError := by
  have hp := parse_lines _ _ [] (lines_entries lines hok)
  have hmem : (name, setAll [] attrs) ∈ setAll [] ((symsOf lines).map entryOf) := by
    rw [dict_mem_setAll, lastEntry_syms _ _ (fun a ha => (ok_named hok a ha).2)]
    show Option.map _ (lastNamed lines name) = _
    rw [hlast]
    rfl
  have hfail : ∀ d, ∃ e, addOpcode d (name, setAll [] attrs) = .error e := by
    intro d
    unfold addOpcode
    rw [if_pos (List.isPrefixOf_iff_prefix.mpr hname)]
    simp only [Dict.get!, setAll_lastAttr]
    cases hv : lastAttr attrs (txt "val") with
    | none => exact ⟨_, rfl⟩
    | some v =>
      refine ⟨.valueError, ?_⟩
      have : intHex v = .error .valueError := intHex_error ((hbad v hv).imp id fun ⟨c, h1, _, h2⟩ => ⟨c, h1, fun hm =>
        h2 (by
          have e : txt "0123456789abcdefABCDEFxX+-_" = txt "0123456789abcdefABCDEFxX" ++ txt "+-_" := by decide +kernel
          rw [e]
          exact List.mem_append_left _ hm)⟩)
      simp only [bind, Except.bind, this]
  obtain ⟨e, he, hP⟩ := foldlM_error (f := addOpcode) (P := fun e => e = .keyError ∨ e = .valueError) _
    (fun b a _ e (h : addOpcode b a = .error e) => addOpcode_errors h) ⟨_, hmem, hfail⟩ []
  have : fillAddresses (renderDbg lines) = .error e := by
    unfold fillAddresses parseSymbols opcodeAddrs
    rw [hp]
    show (((setAll [] ((symsOf lines).map entryOf)).foldlM addOpcode []) >>= _) >>= _ = _
    rw [he]
    rfl
  rw [this]
  rcases hP with rfl | rfl
  · exact .inl rfl
  · exact .inr rfl

/-- C35: the first malformed `sym` line makes the transcoder refuse to start: IndexError if nothing
follows `sym`, ValueError if an attribute does not have exactly one `=`, KeyError if there is no
name. -/
theorem C35_bad_line (good : List DbgLine) (hok : ∀ l ∈ good, l.Ok) (bad : Text) (hnl : 10 ∉ bad)
    (rest : List Text) (hrest : ∀ l ∈ rest, 10 ∉ l) :
    ((bad = txt "sym") →
      fillAddresses (joinWith 10 (good.map DbgLine.render ++ bad :: rest)) = .error .indexError) ∧
    (∀ (before : List (Text × Text)) (field : Text) (after : List Text),
      (∀ kv ∈ before, PlainText kv.1 ∧ PlainText kv.2) →
      (∀ t ∈ field :: after, ∀ c ∈ t, c ≠ 44 ∧ isSpace c = false) →
      field.count 61 ≠ 1 → field ≠ [] →
      bad = txt "sym" ++ 9 :: joinWith 44 ((before.map fun kv => kv.1 ++ 61 :: kv.2) ++ field :: after) →
      fillAddresses (joinWith 10 (good.map DbgLine.render ++ bad :: rest)) = .error .valueError) ∧
    (∀ attrs : List (Text × Text), attrs ≠ [] → (∀ kv ∈ attrs, PlainText kv.1 ∧ PlainText kv.2) →
      (∀ kv ∈ attrs, kv.1 ≠ txt "name") → bad = (DbgLine.sym attrs).render →
      fillAddresses (joinWith 10 (good.map DbgLine.render ++ bad :: rest)) = .error .keyError) := by
  have hsplit : splitOn 10 (joinWith 10 (good.map DbgLine.render ++ bad :: rest)) =
      good.map DbgLine.render ++ bad :: rest := by
    refine splitOn_join 10 _ (by simp) ?_
    intro w hw
    rcases List.mem_append.mp hw with hw | hw
    · obtain ⟨x, hx, rfl⟩ := List.mem_map.mp hw
      exact render_no_newline (hok x hx)
    · rcases List.mem_cons.mp hw with rfl | hw
      · exact hnl
      · exact hrest w hw
  have hgood : ∀ d, ∃ d', (good.map DbgLine.render).foldlM parseLine d = .ok d' := by
    intro d
    exact ⟨_, parse_lines _ _ d (lines_entries' good hok)⟩
  have main : ∀ e, (txt "sym").isPrefixOf bad = true → parseSym bad = .error e →
      fillAddresses (joinWith 10 (good.map DbgLine.render ++ bad :: rest)) = .error e := by
    intro e hb he
    obtain ⟨d', hd'⟩ := hgood []
    unfold fillAddresses parseSymbols
    rw [hsplit, List.foldlM_append, hd']
    show ((bad :: rest).foldlM parseLine d' >>= _) = _
    rw [List.foldlM_cons]
    have : parseLine d' bad = .error e := by
      unfold parseLine
      rw [if_pos hb, he]
      rfl
    rw [this]
    rfl
  refine ⟨?_, ?_, ?_⟩
  · rintro rfl
    exact main _ (by decide +kernel) (by decide +kernel)
  · rintro before field after h1 h2 h3 h4 rfl
    refine main _ (List.isPrefixOf_iff_prefix.mpr (List.prefix_append _ _)) ?_
    have hws : ∀ w ∈ (before.map fun kv => kv.1 ++ 61 :: kv.2) ++ field :: after, ∀ c ∈ w, c ≠ 44 ∧ isSpace c = false := by
      intro w hw c hc
      rcases List.mem_append.mp hw with hw | hw
      · obtain ⟨kv, hkv, rfl⟩ := List.mem_map.mp hw
        obtain ⟨p1, p2⟩ := h1 kv hkv
        rcases List.mem_append.mp hc with hc | hc
        · exact ⟨(p1 c hc).2.1, (p1 c hc).2.2.2⟩
        · rcases List.mem_cons.mp hc with rfl | hc
          · decide
          · exact ⟨(p2 c hc).2.1, (p2 c hc).2.2.2⟩
      · exact h2 w hw c hc
    unfold parseSym
    rw [splitWs_sym]
    · simp only
      rw [splitOn_join 44 _ (by simp) (fun w hw hc => (hws w hw 44 hc).1 rfl), List.foldlM_append,
        foldlM_addKv _ _ h1]
      show (((field :: after).foldlM addKv _) >>= _) = _
      rw [List.foldlM_cons]
      have : ∀ d, addKv d field = .error .valueError := by
        intro d
        have hl := splitOn_length 61 field
        unfold addKv
        split
        · rename_i heq
          rw [heq] at hl
          simp only [List.length_cons, List.length_nil] at hl
          omega
        · rfl
      rw [this]
      rfl
    · intro hnil
      have hc : field.length ≤ (joinWith 44 ((before.map fun kv => kv.1 ++ 61 :: kv.2) ++ field :: after)).length :=
        joinWith_length (by simp)
      rw [hnil] at hc
      cases field with
      | nil => exact h4 rfl
      | cons c f => simp at hc
    · intro c hc
      rcases mem_joinWith hc with rfl | ⟨w, hw, hc⟩
      · decide
      · exact (hws w hw c hc).2
  · rintro attrs hne h1 h2 rfl
    refine main _ (sym_prefix attrs) ?_
    have hkv : ∀ w ∈ attrs.map (fun kv => kv.1 ++ 61 :: kv.2), ∀ c ∈ w, c ≠ 44 ∧ isSpace c = false := by
      intro w hw c hc
      obtain ⟨kv, hkv, rfl⟩ := List.mem_map.mp hw
      obtain ⟨p1, p2⟩ := h1 kv hkv
      rcases List.mem_append.mp hc with hc | hc
      · exact ⟨(p1 c hc).2.1, (p1 c hc).2.2.2⟩
      · rcases List.mem_cons.mp hc with rfl | hc
        · decide
        · exact ⟨(p2 c hc).2.1, (p2 c hc).2.2.2⟩
    have hno : lastAttr attrs (txt "name") = none := by
      unfold lastAttr
      rw [List.filter_eq_nil_iff.mpr (fun kv hkv => by simpa using h2 kv hkv)]
      rfl
    unfold parseSym DbgLine.render
    rw [splitWs_sym]
    · simp only
      rw [splitOn_join 44 _ (by simpa using hne) (fun w hw hc => (hkv w hw 44 hc).1 rfl), foldlM_addKv _ _ h1]
      show (Dict.get! (setAll [] attrs) (txt "name") >>= fun name => _) = _
      unfold Dict.get!
      rw [setAll_lastAttr, hno]
      rfl
    · apply joinWith_ne_nil
      · simpa using hne
      · intro w hw
        obtain ⟨kv, -, rfl⟩ := List.mem_map.mp hw
        simp
    · intro c hc
      rcases mem_joinWith hc with rfl | ⟨w, hw, hc⟩
      · decide
      · exact (hkv w hw c hc).2

/-- C35_bad_value, C35_bad_line: files with a value that is not hexadecimal, a line without
attributes, an attribute without `=`, and a symbol without name. -/
example : fillAddresses (txt "sym\tname=\"op_nop\",val=0x12G4") = .error .valueError ∧
    fillAddresses (txt "version\tmajor=2\nsym") = .error .indexError ∧
    fillAddresses (txt "sym\tname=a,val\n") = .error .valueError ∧
    fillAddresses (txt "sym\tval=0x12,x=y") = .error .keyError := ⟨by rfl, by rfl, by rfl, by rfl⟩

/-- C35_bad_value: its hypotheses hold of such a file. -/
example : fillAddresses (renderDbg [.other (txt "version"), .sym [(txt "name", txt "\"op_nop\""), (txt "val", txt "0x12G4")]])
      = .error .keyError ∨
    fillAddresses (renderDbg [.other (txt "version"), .sym [(txt "name", txt "\"op_nop\""), (txt "val", txt "0x12G4")]])
      = .error .valueError := by
  refine C35_bad_value _ ?_ (txt "\"op_nop\"") (by decide +kernel)
    [(txt "name", txt "\"op_nop\""), (txt "val", txt "0x12G4")] (by decide +kernel) ?_
  · intro l hl
    simp only [List.mem_cons, List.not_mem_nil, or_false] at hl
    rcases hl with rfl | rfl
    · exact ⟨by decide +kernel, by decide +kernel⟩
    · refine ⟨?_, by decide +kernel⟩
      unfold PlainText
      decide +kernel
  · intro v hv
    have : lastAttr [(txt "name", txt "\"op_nop\""), (txt "val", txt "0x12G4")] (txt "val") = some (txt "0x12G4") := by
      decide +kernel
    rw [this] at hv
    injection hv with hv
    subst hv
    exact .inr ⟨71, by decide +kernel, by decide, by decide +kernel⟩

/-! ### C33 -/

/-- C33: from every debug file whose `sym` lines are those of the shipped player/iivision.dbg
(whatever its other lines), the transcoder gets the table `playerAddr`: 1028 opcodes, non-zero
16 bit addresses, all distinct; so the two address bytes of an opcode identify it. -/
theorem C33_addresses (lines : List DbgLine) (hok : ∀ l ∈ lines, l.Ok) (hs : symsOf lines = shippedSyms) :
    fillAddresses (renderDbg lines) = .ok playerAddr := by
  obtain ⟨g1, g2⟩ := shipped_good
  have hops : OpSymsOk lines := by
    intro attrs ha nm hnm hp
    rw [hs] at ha
    obtain ⟨-, nm', h1, h2⟩ := g1 attrs ha
    rw [hnm] at h1
    cases h1
    obtain ⟨c, rfl, hv⟩ := h2 hp
    exact ⟨⟨c.lowerName, rfl⟩, _, hv⟩
  apply (C35_addresses lines hok hops).1
  intro c
  have hnz : (Cmd.all.all fun c => playerAddr c != 0) = true := by decide +kernel
  refine ⟨by simpa using List.all_eq_true.mp hnz c (cmd_all c), ?_⟩
  obtain ⟨a, ha, hn⟩ := g2 c
  have hsome : ∃ attrs, lastNamed lines (opSymbol c) = some attrs := by
    unfold lastNamed
    cases hl : ((symsOf lines).filter fun attrs => decide (lastAttr attrs (txt "name") = some (opSymbol c))).getLast? with
    | some x => exact ⟨x, rfl⟩
    | none =>
      rw [List.getLast?_eq_none_iff, List.filter_eq_nil_iff] at hl
      rw [hs] at hl
      exact absurd (hl a ha) (by simp [hn])
  obtain ⟨attrs, hattrs⟩ := hsome
  refine ⟨attrs, hattrs, ?_⟩
  have hm := List.mem_of_getLast? hattrs
  rw [List.mem_filter, hs] at hm
  obtain ⟨hm1, hm2⟩ := hm
  have hm2 : lastAttr attrs (txt "name") = some (opSymbol c) := by simpa using hm2
  obtain ⟨-, nm, h1, h2⟩ := g1 attrs hm1
  rw [hm2] at h1
  cases h1
  have hpre : (txt "\"op_").isPrefixOf (opSymbol c) = true := by
    rw [List.isPrefixOf_iff_prefix]
    unfold opSymbol
    rw [List.append_assoc]
    exact List.prefix_append _ _
  obtain ⟨c', hc, hv⟩ := h2 hpre
  have hinj : c = c' := by
    have hlow : c.lowerName = c'.lowerName := by
      unfold opSymbol at hc
      rw [List.append_assoc, List.append_assoc] at hc
      exact List.append_cancel_right (List.append_cancel_left hc)
    exact lowerName_inj hlow
  rw [hinj]
  exact hv

/-- C33: the addresses of the shipped player are distinct non-zero 16 bit numbers. -/
theorem C33_distinct : (∀ c, 0 < playerAddr c ∧ playerAddr c < 65536) ∧
    (∀ c c', playerAddr c = playerAddr c' → c = c') ∧ Cmd.all.length = 1028 ∧ ∀ c, c ∈ Cmd.all :=
  ⟨fun c => playerAddr_range c, fun _ _ h => playerAddr_inj h, by decide +kernel, cmd_all⟩

/-! ### C34 -/

theorem cmdAt_addr {addr : AddrTable} (hinj : ∀ c c', addr c = addr c' → c = c') (c : Cmd) :
    cmdAt addr Cmd.all (256 * (addr c / 256) + addr c % 256) = some c := by
  have e : 256 * (addr c / 256) + addr c % 256 = addr c := by omega
  rw [e]
  unfold cmdAt
  have : (Cmd.all.find? fun c' => decide (addr c' = addr c)).isSome := by
    rw [List.find?_isSome]
    exact ⟨c, cmd_all c, by simp⟩
  obtain ⟨c', hc'⟩ := Option.isSome_iff_exists.mp this
  rw [hc']
  have := List.find?_some hc'
  simp only [decide_eq_true_eq] at this
  rw [hinj c' c this]

theorem readOps_succ (addr : AddrTable) (cs : List Cmd) (n hi lo : Nat) (rest : List Nat) :
    readOps addr cs (n + 1) (hi :: lo :: rest) =
    match cmdAt addr cs (256 * hi + lo), rest with
    | some .terminate, _ => some []
    | some .nop, rest => (readOps addr cs n rest).map (.nop :: ·)
    | some .ack, switch :: 0xff :: rest =>
      if switch = 0x55 then (readOps addr cs n rest).map (.ack true :: ·)
      else if switch = 0x54 then (readOps addr cs n rest).map (.ack false :: ·)
      else none
    | some (.tick t p), c :: o1 :: o2 :: o3 :: o4 :: rest =>
      (readOps addr cs n rest).map
        (.tick t p (BitVec.ofNat 8 c) [Fin.ofNat 256 o1, Fin.ofNat 256 o2, Fin.ofNat 256 o3, Fin.ofNat 256 o4] :: ·)
    | _, _ => none := rfl

theorem readOps_step {addr : AddrTable} (hinj : ∀ c c', addr c = addr c' → c = c') {op : Opcode}
    (hb : BodyOp op) (n : Nat) (rest : List Nat) :
    readOps addr Cmd.all (n + 1) (op.emit addr ++ rest) = (readOps addr Cmd.all n rest).map (op :: ·) := by
  have hc := cmdAt_addr hinj op.cmd
  cases op with
  | header m => exact absurd hb (by simp [BodyOp])
  | terminate => exact absurd hb (by simp [BodyOp])
  | nop =>
    show readOps addr Cmd.all (n + 1) (addr .nop / 256 :: addr .nop % 256 :: rest) = _
    rw [readOps_succ, show cmdAt addr Cmd.all (256 * (addr .nop / 256) + addr .nop % 256) = some .nop from hc]
  | ack a =>
    show readOps addr Cmd.all (n + 1) (addr .ack / 256 :: addr .ack % 256 :: (if a then 0x55 else 0x54) :: 0xff :: rest) = _
    rw [readOps_succ, show cmdAt addr Cmd.all (256 * (addr .ack / 256) + addr .ack % 256) = some .ack from hc]
    cases a <;> simp
  | tick t p c os =>
    have hl : os.length = 4 := hb
    match os, hl with
    | [o1, o2, o3, o4], _ =>
      show readOps addr Cmd.all (n + 1) (addr (.tick t p) / 256 :: addr (.tick t p) % 256 :: c.toNat ::
        o1.val :: o2.val :: o3.val :: o4.val :: rest) = _
      rw [readOps_succ, show cmdAt addr Cmd.all (256 * (addr (.tick t p) / 256) + addr (.tick t p) % 256) = some (.tick t p) from hc]
      have hf : ∀ o : Fin 256, Fin.ofNat 256 o.val = o := fun o => Fin.ext (Nat.mod_eq_of_lt o.isLt)
      simp only [hf, BitVec.ofNat_toNat, BitVec.setWidth_eq]

theorem readOps_body {addr : AddrTable} (hinj : ∀ c c', addr c = addr c' → c = c') (rest : List Nat)
    (body : List Opcode) : ∀ n, body.length < n → (∀ op ∈ body, BodyOp op) →
    readOps addr Cmd.all n (bytesOf addr (body ++ [.terminate]) ++ rest) = some body := by
  induction body with
  | nil =>
    intro n hn _
    obtain ⟨m, rfl⟩ : ∃ m, n = m + 1 := ⟨n - 1, by simp at hn; omega⟩
    show readOps addr Cmd.all (m + 1) (addr .terminate / 256 :: addr .terminate % 256 :: rest) = _
    rw [readOps_succ, show cmdAt addr Cmd.all (256 * (addr .terminate / 256) + addr .terminate % 256) = some .terminate from
      cmdAt_addr hinj .terminate]
  | cons op body ih =>
    intro n hn h
    obtain ⟨m, rfl⟩ : ∃ m, n = m + 1 := ⟨n - 1, by omega⟩
    rw [List.cons_append, bytesOf_cons, List.append_assoc, readOps_step hinj (h op (by simp)),
      ih m (by simpa using hn) (fun x hx => h x (by simp [hx]))]
    rfl

theorem emit_length_pos (addr : AddrTable) {op : Opcode} (h : BodyOp op) : 2 ≤ (op.emit addr).length := by
  cases op with
  | header m => exact absurd h (by simp [BodyOp])
  | _ => simp [Opcode.emit, Opcode.emitCommand]

/-- C34: reading a stream with an injective address table gives back its opcodes and arguments,
whatever follows the TERMINATE. -/
theorem C34_decodes (addr : AddrTable) (hinj : ∀ c c', addr c = addr c' → c = c') (mode : VideoMode)
    (body : List Opcode) (hb : ∀ op ∈ body, BodyOp op) (rest : List Nat) :
    readStream addr Cmd.all (bytesOf addr (.header mode :: body ++ [.terminate]) ++ rest) = some (mode, body) := by
  have e : bytesOf addr (.header mode :: body ++ [.terminate]) ++ rest =
      0xff :: 0xff :: 0xff :: 0xff :: 0xff :: 0xff :: mode.value :: (bytesOf addr (body ++ [.terminate]) ++ rest) := rfl
  rw [e]
  unfold readStream
  simp only
  rw [readOps_body hinj rest body _ ?_ hb]
  · cases mode <;> rfl
  · rw [List.length_append]
    have : ∀ l : List Opcode, (∀ op ∈ l, BodyOp op) → l.length < (bytesOf addr (l ++ [.terminate])).length := by
      intro l
      induction l with
      | nil => intro _; simp [bytesOf, Opcode.emit, Opcode.emitCommand]
      | cons op l ih =>
        intro h
        have h1 := emit_length_pos addr (h op (by simp))
        have h2 := ih (fun x hx => h x (by simp [hx]))
        rw [List.cons_append, bytesOf_cons, List.length_append, List.length_cons]
        omega
    have := this body hb
    omega

/-- C34: different streams of opcodes have different bytes; with padding, too. -/
theorem C34_unique (addr : AddrTable) (hinj : ∀ c c', addr c = addr c' → c = c') (m m' : VideoMode)
    (body body' : List Opcode) (hb : ∀ op ∈ body, BodyOp op) (hb' : ∀ op ∈ body', BodyOp op)
    (pad pad' : List Nat)
    (h : bytesOf addr (.header m :: body ++ [.terminate]) ++ pad =
      bytesOf addr (.header m' :: body' ++ [.terminate]) ++ pad') : m = m' ∧ body = body' := by
  have h1 := C34_decodes addr hinj m body hb pad
  rw [h, C34_decodes addr hinj m' body' hb' pad'] at h1
  simp only [Option.some.injEq, Prod.mk.injEq] at h1
  exact ⟨h1.1.symm, h1.2.symm⟩

/-- C34: the bytes written for a movie, read with the shipped player's addresses, are its
header and exactly the operations emitted. -/
theorem C34_movie (M : Movie) (hM : M.addr = playerAddr) (A : List Int) (F : List Frame)
    (hin : MovieInput M A F) (tape : Nat → Nat) :
    ∃ body bytes, M.stream tape A F = .ok (.header M.mode :: body ++ [.terminate], bytes) ∧
      readStream playerAddr Cmd.all bytes = some (M.mode, body) := by
  obtain ⟨l, calls, e, steps, h1, h2, h3, h4, h5, h6, h7, h8⟩ := stream_ok hin tape
  have hw0 : weave M.mode 0 (.header M.mode :: l) = .header M.mode :: weave M.mode 1 l := by
    rw [weave_cons, if_neg (by decide)]
  have hbody : ∀ (l : List Opcode) (m : Nat), (∀ op ∈ l, BodyOp op) → ∀ op ∈ weave M.mode m l, BodyOp op := by
    intro l
    induction l with
    | nil => intro m _ op h; simp [weave] at h
    | cons o l ih =>
      intro m h op hop
      have ho := h o (by simp)
      have ih := ih (m + 1) (fun x hx => h x (by simp [hx]))
      rw [weave_cons] at hop
      split at hop
      · simp only [List.mem_cons] at hop
        rcases hop with rfl | rfl | hop
        · exact ho
        · trivial
        · exact ih op hop
      · simp only [List.mem_cons] at hop
        rcases hop with rfl | hop
        · exact ho
        · exact ih op hop
  have hall : ∀ op ∈ l, BodyOp op := by
    intro op hop
    obtain ⟨i, hi, rfl⟩ := List.getElem_of_mem hop
    have hs : i < steps.length := by omega
    obtain ⟨t, p, au, -, h, -, -, h'⟩ := (h8 i _ _ (List.getElem?_eq_getElem hi) (List.getElem?_eq_getElem hs)).tick
    rw [h]
    exact h'
  refine ⟨weave M.mode 1 l, (emitted M 0 (.header M.mode :: l)).2, ?_, ?_⟩
  · rw [h1, ← hw0]; rfl
  · have e2 : (emitted M 0 (.header M.mode :: l)).2 =
        bytesOf playerAddr (.header M.mode :: weave M.mode 1 l ++ [.terminate]) ++
          List.replicate (2048 - (posOf (0 + (Opcode.header M.mode :: l).length) + 2) % 2048) 0 := by
      unfold emitted
      rw [hw0, hM]
    rw [e2]
    exact C34_decodes playerAddr (fun _ _ h => playerAddr_inj h) M.mode _ (hbody l 1 hall) _

/-! ### C50 -/

/-- C50: opcodes compare equal iff they are the same class with the same arguments; so equality
is an equivalence relation, and equal opcodes emit the same bytes. -/
theorem C50_equality (a b : Opcode) : (a.pyEq b = true ↔ a = b) ∧
    (∀ addr : AddrTable, a.pyEq b = true → a.emit addr = b.emit addr) := by
  have h : a.pyEq b = true ↔ a = b := by
    cases a <;> cases b <;> simp [Opcode.pyEq, and_assoc]
  exact ⟨h, fun addr hab => by rw [h.mp hab]⟩

/-- C50: conversely, with an injective 16 bit address table, opcodes with equal bytes are
equal. -/
theorem C50_bytes (addr : AddrTable) (hinj : ∀ c c', addr c = addr c' → c = c') (a b : Opcode)
    (ha : BodyOp a) (hb : BodyOp b) (h : a.emit addr = b.emit addr) : a = b := by
  have h1 := readOps_step hinj ha 1 (Opcode.terminate.emit addr)
  have h2 := readOps_step hinj hb 1 (Opcode.terminate.emit addr)
  have h3 := readOps_body hinj [] [] 1 (by simp) (by simp)
  have h4 : readOps addr Cmd.all 1 (Opcode.terminate.emit addr) = some [] := by
    simpa [bytesOf] using h3
  rw [h, h2, h4] at h1
  simpa using h1.symm

/-- C50: `TICK_OPCODES[(tick, page)](content, offsets)` makes the tick opcode with these arguments if the
duty is an even number from 4 to 66, the page one of the hires screen and there are four offsets;
for any other duty or page it raises KeyError, for any other number of offsets ValueError. -/
theorem C50_ticks (tick page : Int) (content : U8) (offsets : List (Fin 256)) :
    let made := tickOpcodes tick page >>= fun (t, p) => Opcode.newTick t p content offsets
    (∀ (t p : Fin 32), tick = 4 + 2 * t.val → page = 32 + p.val →
      made = if offsets.length = 4 then .ok (.tick t p content offsets) else .error .valueError) ∧
    ((∀ (t p : Fin 32), tick = 4 + 2 * t.val → page ≠ 32 + p.val) → made = .error .keyError) := by
  intro made
  constructor
  · intro t p ht hp
    have h1 : tickOpcodes tick page = .ok (t, p) := by
      have := t.isLt
      have := p.isLt
      unfold tickOpcodes
      rw [if_pos (by omega)]
      congr 2
      · apply Fin.ext
        simp only [Fin.ofNat]
        omega
      · apply Fin.ext
        simp only [Fin.ofNat]
        omega
    show (tickOpcodes tick page >>= _) = _
    rw [h1]
    show Opcode.newTick t p content offsets = _
    unfold Opcode.newTick
    by_cases h : offsets.length = 4
    · rw [if_neg (by omega), if_pos h]
    · rw [if_pos h, if_neg h]
  · intro hno
    have h1 : tickOpcodes tick page = .error .keyError := by
      unfold tickOpcodes
      rw [if_neg]
      rintro ⟨a1, a2, a3, a4, a5⟩
      exact hno ⟨((tick - 4) / 2).toNat, by omega⟩ ⟨(page - 32).toNat, by omega⟩ (by dsimp only; omega) (by dsimp only; omega)
    show (tickOpcodes tick page >>= _) = _
    rw [h1]
    rfl

/-! ### The hypotheses are met -/

/-- The shipped file's symbols after a version line and before a line of another kind. -/
example : fillAddresses (renderDbg (.other (txt "version\tmajor=2,minor=0") ::
    shippedSyms.map .sym ++ [.other (txt "type\tid=0,val=\"800920\"")])) = .ok playerAddr := by
  apply C33_addresses
  · intro l hl
    rw [List.mem_append, List.mem_cons, List.mem_singleton] at hl
    rcases hl with (rfl | hl) | rfl
    · exact ⟨by decide +kernel, by decide +kernel⟩
    · obtain ⟨a, ha, rfl⟩ := List.mem_map.mp hl
      obtain ⟨h1, nm, h2, -⟩ := shipped_good.1 a ha
      exact ⟨h1, by rw [h2]; rfl⟩
    · exact ⟨by decide +kernel, by decide +kernel⟩
  · have h : ∀ l : List (List (Text × Text)), symsOf (l.map .sym) = l := by
      intro l
      induction l with
      | nil => rfl
      | cons a l ih =>
        show a :: symsOf (l.map .sym) = a :: l
        rw [ih]
    have h2 : ∀ a b, symsOf (a ++ b) = symsOf a ++ symsOf b := fun a b => List.filterMap_append ..
    rw [h2]
    show symsOf (shippedSyms.map .sym) ++ [] = _
    rw [List.append_nil, h]

/-- A file with two lines for the opcode ack (the last one counts) and none for the others. -/
def twoAcks : List DbgLine :=
  [.other (txt "file\tid=0,name=\"main.s\""),
   .sym [(txt "id", txt "0"), (txt "name", txt "\"op_ack\""), (txt "val", hexText 0x1234)],
   .sym [(txt "name", txt "\"op_ack\""), (txt "val", hexText 0x4321), (txt "type", txt "lab")]]

def PlainText' (t : Text) : Bool := t.all fun c => c != 61 && c != 44 && c != 10 && !isSpace c

theorem plainText_dec {t : Text} (h : PlainText' t = true) : PlainText t := by
  intro c hc
  have := List.all_eq_true.mp h c hc
  simpa [and_assoc] using this

theorem twoAcks_ok : ∀ l ∈ twoAcks, l.Ok := by
  intro l hl
  simp only [twoAcks, List.mem_cons, List.not_mem_nil, or_false] at hl
  have hp : ∀ attrs : List (Text × Text), attrs.all (fun kv => PlainText' kv.1 && PlainText' kv.2) = true →
      ∀ kv ∈ attrs, PlainText kv.1 ∧ PlainText kv.2 := by
    intro attrs h kv hkv
    have := List.all_eq_true.mp h kv hkv
    rw [Bool.and_eq_true] at this
    exact ⟨plainText_dec this.1, plainText_dec this.2⟩
  rcases hl with rfl | rfl | rfl
  · exact ⟨by decide +kernel, by decide +kernel⟩
  · exact ⟨hp _ (by decide +kernel), by decide +kernel⟩
  · exact ⟨hp _ (by decide +kernel), by decide +kernel⟩

example : ∃ d s, parseSymbols (renderDbg twoAcks) = .ok d ∧ d.get (txt "\"op_ack\"") = some s ∧
    s.get (txt "val") = some (txt "0x4321") ∧ s.get (txt "id") = none ∧ d.get (txt "\"main.s\"") = none := by
  obtain ⟨d, h, hd⟩ := C35_parse twoAcks twoAcks_ok
  obtain ⟨s, h1, h2⟩ := (hd (txt "\"op_ack\"")).2
    [(txt "name", txt "\"op_ack\""), (txt "val", hexText 0x4321), (txt "type", txt "lab")] (by decide +kernel)
  refine ⟨d, s, h, h1, ?_, ?_, (hd _).1 (by decide +kernel)⟩
  · rw [h2]; decide +kernel
  · rw [h2]; decide +kernel

example : fillAddresses (renderDbg twoAcks) = .error .valueError := by
  refine (C35_addresses twoAcks twoAcks_ok ?_).2 .nop (.inl (by decide +kernel))
  intro attrs ha nm hnm _
  have hs : symsOf twoAcks = [[(txt "id", txt "0"), (txt "name", txt "\"op_ack\""), (txt "val", hexText 0x1234)],
    [(txt "name", txt "\"op_ack\""), (txt "val", hexText 0x4321), (txt "type", txt "lab")]] := rfl
  rw [hs] at ha
  have hnm' : nm = txt "\"op_" ++ txt "ack" ++ [34] := by
    simp only [List.mem_cons, List.not_mem_nil, or_false] at ha
    rcases ha with rfl | rfl
    · have : lastAttr [(txt "id", txt "0"), (txt "name", txt "\"op_ack\""), (txt "val", hexText 0x1234)]
        (txt "name") = some (txt "\"op_" ++ txt "ack" ++ [34]) := by decide +kernel
      rw [this] at hnm; cases hnm; rfl
    · have : lastAttr [(txt "name", txt "\"op_ack\""), (txt "val", hexText 0x4321), (txt "type", txt "lab")]
        (txt "name") = some (txt "\"op_" ++ txt "ack" ++ [34]) := by decide +kernel
      rw [this] at hnm; cases hnm; rfl
  refine ⟨⟨_, hnm'⟩, ?_⟩
  simp only [List.mem_cons, List.not_mem_nil, or_false] at ha
  rcases ha with rfl | rfl
  · exact ⟨0x1234, by decide +kernel⟩
  · exact ⟨0x4321, by decide +kernel⟩

/-- A stream with ticks, an ACK and a NOP, followed by padding. -/
example : readStream playerAddr Cmd.all (bytesOf playerAddr (.header .DHGR ::
    [.tick 31 0 0x7f#8 [0, 1, 255, 255], .ack true, .nop, .tick 0 31 0#8 [9, 9, 9, 9]] ++ [.terminate]) ++
    List.replicate 100 0) =
    some (.DHGR, [.tick 31 0 0x7f#8 [0, 1, 255, 255], .ack true, .nop, .tick 0 31 0#8 [9, 9, 9, 9]]) :=
  C34_decodes playerAddr (fun _ _ h => playerAddr_inj h) .DHGR _
    (by intro op h; fin_cases h <;> trivial) _

end IIVision
