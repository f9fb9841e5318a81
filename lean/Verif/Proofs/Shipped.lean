import Verif.Proofs.PlayerSymbols
import Mathlib.Tactic.Linarith

/-! What the check of the shipped symbols means. -/

namespace IIVision
open Spec

theorem natOf_textOfNat (f : Nat) : ∀ n, n < 256 ^ f → natOf (textOfNat f n) = n := by
  induction f with
  | zero => intro n h; simp at h; subst h; rfl
  | succ f ih =>
    intro n h
    unfold textOfNat
    split
    · rename_i h0; subst h0; rfl
    · show n % 256 + 256 * natOf (textOfNat f (n / 256)) = n
      rw [ih (n / 256) (by
        rw [Nat.pow_succ] at h
        exact Nat.div_lt_of_lt_mul (by omega))]
      omega

theorem natOf_pos {t : Text} (h : ∀ c ∈ t, 0 < c) (hne : t ≠ []) : 0 < natOf t := by
  cases t with
  | nil => exact absurd rfl hne
  | cons c t =>
    have := h c (by simp)
    unfold natOf; omega

theorem textOfNat_natOf (t : Text) : ∀ f, t.length ≤ f → (∀ c ∈ t, 0 < c ∧ c < 256) →
    textOfNat f (natOf t) = t := by
  induction t with
  | nil => intro f _ _; cases f <;> rfl
  | cons c t ih =>
    intro f hf h
    cases f with
    | zero => simp at hf
    | succ f =>
      have hc := h c (by simp)
      have hn : natOf (c :: t) = c + 256 * natOf t := rfl
      unfold textOfNat
      rw [if_neg (by omega), hn]
      rw [show (c + 256 * natOf t) % 256 = c by omega, show (c + 256 * natOf t) / 256 = natOf t by omega,
        ih f (by simpa using hf) (fun x hx => h x (by simp [hx]))]

theorem plainC_ok {c : Nat} (h : plainC c = true) : c ≠ 61 ∧ c ≠ 44 ∧ c ≠ 10 ∧ isSpace c = false := by
  have h' : (62 ≤ c ∧ c ≤ 126) ∨ (48 ≤ c ∧ c ≤ 60) ∨ c = 43 ∨ c = 34 := by
    simpa [plainC, or_assoc] using h
  refine ⟨by omega, by omega, by omega, ?_⟩
  have : ∀ c, c < 127 → ((62 ≤ c ∧ c ≤ 126) ∨ (48 ≤ c ∧ c ≤ 60) ∨ c = 43 ∨ c = 34) → isSpace c = false := by
    decide
  exact this c (by omega) h'

theorem plainN_ok (f : Nat) : ∀ n, plainN f n = true → PlainText (textOfNat f n) := by
  induction f with
  | zero => intro n _ c hc; simp [textOfNat] at hc
  | succ f ih =>
    intro n h c hc
    unfold textOfNat at hc
    split at hc
    · simp at hc
    · rename_i h0
      obtain ⟨m, rfl⟩ : ∃ m, n = m + 1 := ⟨n - 1, by omega⟩
      simp only [plainN, Bool.and_eq_true] at h
      rcases List.mem_cons.mp hc with rfl | hc
      · exact plainC_ok h.1
      · exact ih _ h.2 c hc

theorem all8_ok (p : Nat → Bool) (l : List Nat) (h : all8 p l = true) : ∀ x ∈ l, p x = true := by
  fun_induction all8 p l with
  | case1 a b c d e f g h' t ih =>
    simp only [Bool.and_eq_true] at h
    intro x hx
    simp only [List.mem_cons] at hx
    obtain ⟨⟨h1, h2, h3, h4, h5, h6, h7, h8⟩, ht⟩ := h
    rcases hx with rfl | rfl | rfl | rfl | rfl | rfl | rfl | rfl | hx
    all_goals first | assumption | exact ih ht x hx
  | case2 t ht => exact List.all_eq_true.mp h

theorem big_eq : (256 ^ 32 : Nat) = 0xffffffffffffffffffffffffffffffffffffffffffffffffffffffffffffffff + 1 := by
  decide +kernel

theorem lt_big {v : Nat} (h : Nat.ble v 0xffffffffffffffffffffffffffffffffffffffffffffffffffffffffffffffff = true) :
    v < 256 ^ 32 := by
  have := Nat.le_of_ble_eq_true h
  rw [big_eq]
  omega

theorem plainText_append {a b : Text} (ha : PlainText a) (hb : PlainText b) : PlainText (a ++ b) := by
  intro c hc
  rcases List.mem_append.mp hc with h | h
  · exact ha c h
  · exact hb c h

/-- A line accepted by `rawPlain`. -/
theorem rawPlain_ok {a : List (List Nat × List Nat)} (h : rawPlain a = true) :
    (∀ kv ∈ decAttrs a, PlainText kv.1 ∧ PlainText kv.2) ∧
    (∀ kv ∈ a, ∃ k, kv.1 = [k] ∧ k < 256 ^ 32) ∧ (∀ kv ∈ a, ∀ v ∈ kv.2, v < 256 ^ 32) := by
  unfold rawPlain at h
  rw [List.all_eq_true] at h
  have key : ∀ kv ∈ a, (∃ k, kv.1 = [k] ∧ k < 256 ^ 32 ∧ plainN 32 k = true) ∧
      ∀ v ∈ kv.2, v < 256 ^ 32 ∧ plainN 32 v = true := by
    intro kv hkv
    have := h kv hkv
    simp only [Bool.and_eq_true] at this
    obtain ⟨h1, h2⟩ := this
    constructor
    · split at h1
      · rename_i k hk
        simp only [Bool.and_eq_true] at h1
        exact ⟨k, hk, lt_big h1.1, h1.2⟩
      · simp at h1
    · intro v hv
      have := all8_ok _ _ h2 v hv
      simp only [Bool.and_eq_true] at this
      exact ⟨lt_big this.1, this.2⟩
  refine ⟨?_, ?_, ?_⟩
  · intro kv hkv
    obtain ⟨x, hx, rfl⟩ := List.mem_map.mp hkv
    obtain ⟨⟨k, hk, -, hp⟩, hv⟩ := key x hx
    have hpl : ∀ l : List Nat, (∀ v ∈ l, plainN 32 v = true) → PlainText (textOfNats l) := by
      intro l hl c hc
      obtain ⟨v, hv, hc⟩ := List.mem_flatMap.mp hc
      exact plainN_ok 32 v (hl v hv) c hc
    refine ⟨hpl _ ?_, hpl _ (fun v hv' => (hv v hv').2)⟩
    intro v hv'
    rw [hk] at hv'
    simp only [List.mem_singleton] at hv'
    subst hv'
    exact hp
  · intro kv hkv
    obtain ⟨⟨k, hk, hk2, -⟩, -⟩ := key kv hkv
    exact ⟨k, hk, hk2⟩
  · intro kv hkv v hv
    exact ((key kv hkv).2 v hv).1

theorem lastAttr_cons (kv : Text × Text) (l : List (Text × Text)) (k : Text) :
    lastAttr (kv :: l) k = (lastAttr l k).or (if kv.1 = k then some kv.2 else none) :=
  lastEntry_cons kv l k

theorem textOfNats_single (k : Nat) : textOfNats [k] = textOfNat 32 k := by
  simp [textOfNats]

theorem rawLast_cons (kv : List Nat × List Nat) (a : List (List Nat × List Nat)) (k : Nat) :
    rawLast (kv :: a) k = match rawLast a k with
      | some v => some v
      | none => match kv.1 with
        | [k'] => bif Nat.beq k' k then some kv.2 else none
        | _ => none := rfl

/-- Attributes found by number are those found by text. -/
theorem rawLast_ok (a : List (List Nat × List Nat)) (h : ∀ kv ∈ a, ∃ k, kv.1 = [k] ∧ k < 256 ^ 32)
    {k : Nat} (hk : k < 256 ^ 32) :
    lastAttr (decAttrs a) (textOfNat 32 k) = (rawLast a k).map textOfNats := by
  induction a with
  | nil => rfl
  | cons kv a ih =>
    have ih := ih (fun x hx => h x (by simp [hx]))
    obtain ⟨k', hk', hlt⟩ := h kv (by simp)
    show lastAttr ((textOfNats kv.1, textOfNats kv.2) :: decAttrs a) _ = _
    rw [lastAttr_cons, ih, rawLast_cons]
    cases hr : rawLast a k with
    | some v => rfl
    | none =>
      simp only [Option.map_none, Option.none_or, hk']
      by_cases he : k' = k
      · subst he
        simp [textOfNats_single]
      · have : ¬ textOfNats [k'] = textOfNat 32 k := by
          rw [textOfNats_single]
          intro e
          have := congrArg natOf e
          rw [natOf_textOfNat _ _ hlt, natOf_textOfNat _ _ hk] at this
          exact he this
        have he' : Nat.beq k' k = false := by
          cases hb : Nat.beq k' k with
          | false => rfl
          | true => exact absurd (Nat.eq_of_beq_eq_true hb) he
        rw [if_neg this, he']
        rfl

/-- What a symbol line must satisfy. -/
structure GoodSym (attrs : List (Text × Text)) : Prop where
  plain : ∀ kv ∈ attrs, PlainText kv.1 ∧ PlainText kv.2
  named : ∃ nm, lastAttr attrs (txt "name") = some nm ∧ ((txt "\"op_").isPrefixOf nm = true →
    ∃ c, nm = opSymbol c ∧ lastAttr attrs (txt "val") = some (hexText (playerAddr c)))

theorem lowerName_chars (c : Cmd) : (∀ x ∈ opSymbol c, 0 < x ∧ x < 256) ∧ (opSymbol c).length ≤ 32 := by
  have h : (Cmd.all.all fun c => (opSymbol c).all (fun x => Nat.blt 0 x && Nat.blt x 256) &&
    Nat.ble (opSymbol c).length 32) = true := by decide +kernel
  have := List.all_eq_true.mp h c (cmd_all c)
  simp only [Bool.and_eq_true, List.all_eq_true, Nat.blt_eq] at this
  exact ⟨this.1, Nat.le_of_ble_eq_true this.2⟩

theorem hexText_go_chars (f : Nat) : ∀ (n : Nat) (acc : Text), (∀ x ∈ acc, 0 < x ∧ x < 256) →
    (∀ x ∈ hexText.go f n acc, 0 < x ∧ x < 256) := by
  induction f with
  | zero => intro n acc h; exact h
  | succ f ih =>
    intro n acc h
    unfold hexText.go
    split
    · exact h
    · apply ih
      intro x hx
      rcases List.mem_cons.mp hx with rfl | hx
      · split <;> omega
      · exact h x hx

theorem hexText_chars (n : Nat) : ∀ x ∈ hexText n, 0 < x ∧ x < 256 := by
  intro x hx
  unfold hexText at hx
  rcases List.mem_cons.mp hx with rfl | hx
  · decide
  rcases List.mem_cons.mp hx with rfl | hx
  · decide
  split at hx
  · simp only [List.mem_singleton] at hx; subst hx; decide
  · exact hexText_go_chars _ _ _ (by simp) x hx

theorem playerAddr_text (c : Cmd) : (hexText (playerAddr c)).length ≤ 32 := by
  have h : (Cmd.all.all fun c => Nat.ble (hexText (playerAddr c)).length 32) = true := by decide +kernel
  exact Nat.le_of_ble_eq_true (List.all_eq_true.mp h c (cmd_all c))

theorem txt_name : txt "name" = textOfNat 32 0x656d616e := by decide +kernel
theorem txt_val : txt "val" = textOfNat 32 0x6c6176 := by decide +kernel
theorem txt_op : txt "\"op_" = [34, 111, 112, 95] := by decide +kernel

theorem op_prefix_nat {nm : Text} (h : (txt "\"op_").isPrefixOf nm = true) :
    natOf nm % 0x100000000 = 0x5f706f22 := by
  rw [txt_op, List.isPrefixOf_iff_prefix] at h
  obtain ⟨t, rfl⟩ := h
  show (34 + 256 * (111 + 256 * (112 + 256 * (95 + 256 * natOf t)))) % 0x100000000 = _
  omega

/-- One accepted line. -/
theorem eatSym_ok {i j : Nat} {a : List (List Nat × List Nat)} (h : eatSym i a = some j) :
    GoodSym (decAttrs a) ∧ (j = i ∨ (j = i + 1 ∧ lastAttr (decAttrs a) (txt "name") = some (opSymbol (fileCmd i)))) := by
  unfold eatSym at h
  cases hp : rawPlain a with
  | false => rw [hp] at h; cases h
  | true =>
    rw [hp] at h
    simp only [cond_true] at h
    obtain ⟨p1, p2, p3⟩ := rawPlain_ok hp
    have hn := rawLast_ok a p2 (k := 0x656d616e) (by decide +kernel)
    have hv := rawLast_ok a p2 (k := 0x6c6176) (by decide +kernel)
    rw [← txt_name] at hn
    rw [← txt_val] at hv
    split at h
    · rename_i N hN
      rw [hN] at hn
      simp only [Option.map_some, textOfNats_single] at hn
      have hNlt : N < 256 ^ 32 := by
        have : ∀ (a : List (List Nat × List Nat)), (∀ kv ∈ a, ∀ v ∈ kv.2, v < 256 ^ 32) →
            ∀ k l, rawLast a k = some l → ∀ v ∈ l, v < 256 ^ 32 := by
          intro a
          induction a with
          | nil => intro _ k l h; cases h
          | cons kv a ih =>
            intro h k l hl v hv
            unfold rawLast at hl
            cases hr : rawLast a k with
            | some w =>
              rw [hr] at hl
              cases hl
              exact ih (fun x hx => h x (by simp [hx])) k _ hr v hv
            | none =>
              rw [hr] at hl
              simp only at hl
              split at hl
              · rename_i k' hk'
                cases hb : Nat.beq k' k with
                | true => rw [hb] at hl; cases hl; exact h kv (by simp) v hv
                | false => rw [hb] at hl; cases hl
              · cases hl
        exact this a p3 _ _ hN N (by simp)
      cases hb : Nat.beq (N % 0x100000000) 0x5f706f22 with
      | false =>
        rw [hb] at h
        cases h
        refine ⟨⟨p1, _, hn, ?_⟩, .inl rfl⟩
        intro hpre
        have := op_prefix_nat hpre
        rw [natOf_textOfNat _ _ hNlt] at this
        rw [this] at hb
        exact absurd hb (by decide)
      | true =>
        rw [hb] at h
        simp only [cond_true] at h
        cases hb2 : Nat.beq N (natOf (opSymbol (fileCmd i))) with
        | false => rw [hb2] at h; cases h
        | true =>
          rw [hb2] at h
          simp only [cond_true] at h
          have hNe := Nat.eq_of_beq_eq_true hb2
          have hnm : textOfNat 32 N = opSymbol (fileCmd i) := by
            rw [hNe]
            exact textOfNat_natOf _ _ (lowerName_chars _).2 (lowerName_chars _).1
          rw [hnm] at hn
          split at h
          · rename_i V hV
            rw [hV] at hv
            simp only [Option.map_some, textOfNats_single] at hv
            cases hb3 : Nat.beq V (natOf (hexText (playerAddr (fileCmd i)))) with
            | false => rw [hb3] at h; cases h
            | true =>
              rw [hb3] at h
              cases h
              have hVe := Nat.eq_of_beq_eq_true hb3
              rw [hVe, textOfNat_natOf _ _ (playerAddr_text _) (hexText_chars _)] at hv
              exact ⟨⟨p1, _, hn, fun _ => ⟨_, rfl, hv⟩⟩, .inr ⟨rfl, hn⟩⟩
          · cases h
    · cases h

/-- All accepted lines. -/
theorem eat_fold (l : List (List (List Nat × List Nat))) : ∀ (i j : Nat), l.foldlM eatSym i = some j →
    (∀ a ∈ l, GoodSym (decAttrs a)) ∧
    ∀ n, i ≤ n → n < j → ∃ a ∈ l, lastAttr (decAttrs a) (txt "name") = some (opSymbol (fileCmd n)) := by
  induction l with
  | nil => intro i j h; cases h; exact ⟨by simp, fun n _ _ => by omega⟩
  | cons a l ih =>
    intro i j h
    rw [List.foldlM_cons] at h
    cases h1 : eatSym i a with
    | none => rw [h1] at h; cases h
    | some k =>
      rw [h1] at h
      obtain ⟨g1, g2⟩ := eatSym_ok h1
      obtain ⟨f1, f2⟩ := ih k j h
      refine ⟨?_, ?_⟩
      · intro x hx
        rcases List.mem_cons.mp hx with rfl | hx
        · exact g1
        · exact f1 x hx
      · intro n hn1 hn2
        by_cases hk : k ≤ n
        · obtain ⟨x, hx, hx2⟩ := f2 n hk hn2
          exact ⟨x, by simp [hx], hx2⟩
        · rcases g2 with rfl | ⟨rfl, g3⟩
          · omega
          · have : n = i := by omega
            subst this
            exact ⟨a, by simp, g3⟩

theorem eat_flatten (gs : List (List (List (List Nat × List Nat)))) : ∀ i,
    gs.foldlM (fun i g => g.foldlM eatSym i) i = gs.flatten.foldlM eatSym i := by
  induction gs with
  | nil => intro i; rfl
  | cons g gs ih =>
    intro i
    rw [List.foldlM_cons, List.flatten_cons, List.foldlM_append]
    congr 1
    funext j
    exact ih j

/-- Position of a command in the file. -/
def fileIndex : Cmd → Nat
  | .ack => 0
  | .terminate => 1
  | .nop => 1026
  | .header => 1027
  | .tick t p =>
    if p.val = 31 then (if 11 ≤ t.val then 33 - t.val else 865 - t.val)
    else if 5 ≤ p.val then 23 + 32 * (30 - p.val) + (31 - t.val)
    else 866 + 32 * (4 - p.val) + (31 - t.val)

theorem fileCmd_index (c : Cmd) : fileCmd (fileIndex c) = c ∧ fileIndex c < 1028 := by
  have h : (Cmd.all.all fun c => decide (fileCmd (fileIndex c) = c) && Nat.blt (fileIndex c) 1028) = true := by
    decide +kernel
  have := List.all_eq_true.mp h c (cmd_all c)
  simp only [Bool.and_eq_true, decide_eq_true_eq, Nat.blt_eq] at this
  exact this

/-- The shipped symbol lines: every one is well-formed, opcode symbols have the expected value,
and every opcode has one. -/
theorem shipped_good : (∀ attrs ∈ shippedSyms, GoodSym attrs) ∧
    ∀ c, ∃ attrs ∈ shippedSyms, lastAttr attrs (txt "name") = some (opSymbol c) := by
  have h := eat_all
  rw [eat_flatten] at h
  obtain ⟨h1, h2⟩ := eat_fold _ _ _ h
  constructor
  · intro attrs ha
    obtain ⟨a, ha', rfl⟩ := List.mem_map.mp ha
    exact h1 a ha'
  · intro c
    obtain ⟨c1, c2⟩ := fileCmd_index c
    obtain ⟨a, ha, hn⟩ := h2 (fileIndex c) (Nat.zero_le _) c2
    rw [c1] at hn
    exact ⟨_, List.mem_map.mpr ⟨a, ha, rfl⟩, hn⟩

/-- Number of a decimal digit string. -/
def numOf (l : Text) : Nat := l.foldl (fun n c => 10 * n + (c - 48)) 0

/-- The command of a name. -/
def cmdOfName (l : Text) : Cmd :=
  match l with
  | 104 :: _ => .header
  | 110 :: _ => .nop
  | 97 :: _ => .ack
  | 116 :: 101 :: _ => .terminate
  | l =>
    let l := l.drop 5
    let d := l.takeWhile fun c => Nat.ble 48 c && Nat.ble c 57
    .tick (Fin.ofNat 32 ((numOf d - 4) / 2)) (Fin.ofNat 32 (numOf ((l.drop d.length).drop 6) - 32))

theorem lowerName_inj {c c' : Cmd} (h : c.lowerName = c'.lowerName) : c = c' := by
  have hall : (Cmd.all.all fun c => decide (cmdOfName c.lowerName = c)) = true := by decide +kernel
  have key : ∀ c : Cmd, cmdOfName c.lowerName = c := fun c => by
    simpa using List.all_eq_true.mp hall c (cmd_all c)
  rw [← key c, ← key c', h]

/-- The command at an address. -/
def cmdOfAddr (a : Nat) : Cmd :=
  bif Nat.beq a 0x215b then .header
  else bif Nat.beq a 0xba64 then .terminate
  else bif Nat.beq a 0x4070 then .nop
  else bif Nat.beq a 0xba72 then .ack
  else
    let i (x : Nat) := Fin.ofNat 32 (tickOffsets.findIdx fun y => Nat.beq y x)
    bif Nat.blt a 0x1ece then .tick (i ((a - 0x803) % 1167)) (Fin.ofNat 32 ((a - 0x803) / 1167))
    else bif Nat.blt a 0x407f then .tick (i (a - 0x1ece)) 31
    else bif Nat.blt a 0xb705 then .tick (i ((a - 0x407f) % 1167)) (Fin.ofNat 32 (5 + (a - 0x407f) / 1167))
    else .tick (i (a - 0x1ece - 38663)) 31

theorem playerAddr_range (c : Cmd) : 0 < playerAddr c ∧ playerAddr c < 65536 := by
  have h : (Cmd.all.all fun c => Nat.blt 0 (playerAddr c) && Nat.blt (playerAddr c) 65536) = true := by
    decide +kernel
  have := List.all_eq_true.mp h c (cmd_all c)
  simpa only [Bool.and_eq_true, Nat.blt_eq] using this

theorem playerAddr_inj {c c' : Cmd} (h : playerAddr c = playerAddr c') : c = c' := by
  have hall : (Cmd.all.all fun c => decide (cmdOfAddr (playerAddr c) = c)) = true := by decide +kernel
  have key : ∀ c : Cmd, cmdOfAddr (playerAddr c) = c := fun c => by
    simpa using List.all_eq_true.mp hall c (cmd_all c)
  rw [← key c, ← key c', h]

end IIVision
