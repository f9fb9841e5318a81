import Verif.Proofs.Symbols

/-! The symbols of the shipped player. -/

namespace IIVision
open Spec

/-- Boolean form of `PlainText`. -/
def plainB (t : Text) : Bool := t.all fun c => c != 61 && c != 44 && c != 10 && !isSpace c

theorem plainB_iff (t : Text) : plainB t = true ↔ PlainText t := by
  unfold plainB PlainText
  rw [List.all_eq_true]
  constructor
  · intro h c hc
    have := h c hc
    simp only [Bool.and_eq_true, bne_iff_ne, Bool.not_eq_true'] at this
    exact ⟨this.1.1.1, this.1.1.2, this.1.2, this.2⟩
  · intro h c hc
    obtain ⟨h1, h2, h3, h4⟩ := h c hc
    simp [h1, h2, h3, h4]

/-- Decoded attributes of a line. -/
def decAttrs (a : List (List Nat × List Nat)) : List (Text × Text) :=
  a.map fun kv => (textOfNats kv.1, textOfNats kv.2)

/-- A plain character, checked quickly. -/
def plainC (c : Nat) : Bool := (Nat.ble 62 c && Nat.ble c 126) || (Nat.ble 48 c && Nat.ble c 60) || Nat.beq c 43 || Nat.beq c 34

def plainN : Nat → Nat → Bool
  | 0, _ => true
  | fuel + 1, n => match n with
    | 0 => true
    | n + 1 => plainC ((n + 1) % 256) && plainN fuel ((n + 1) / 256)

/-- Order of the opcodes in the debug file. -/
def fileCmd (i : Nat) : Cmd :=
  bif Nat.beq i 0 then .ack else bif Nat.beq i 1 then .terminate
  else bif Nat.blt i 23 then .tick (Fin.ofNat 32 (33 - i)) 31
  else bif Nat.blt i 855 then .tick (Fin.ofNat 32 (31 - (i - 23) % 32)) (Fin.ofNat 32 (30 - (i - 23) / 32))
  else bif Nat.blt i 866 then .tick (Fin.ofNat 32 (865 - i)) 31
  else bif Nat.blt i 1026 then .tick (Fin.ofNat 32 (31 - (i - 866) % 32)) (Fin.ofNat 32 (4 - (i - 866) / 32))
  else bif Nat.beq i 1026 then .nop else .header

/-- Number of a text, first character least significant. -/
def natOf : Text → Nat
  | [] => 0
  | c :: t => c + 256 * natOf t

/-- Value of the last attribute with a key, by numbers. -/
def rawLast (a : List (List Nat × List Nat)) (k : Nat) : Option (List Nat) :=
  match a with
  | [] => none
  | kv :: a => match rawLast a k with
    | some v => some v
    | none => match kv.1 with
      | [k'] => bif Nat.beq k' k then some kv.2 else none
      | _ => none

/-- `List.all` with fewer nested calls. -/
def all8 (p : Nat → Bool) : List Nat → Bool
  | a :: b :: c :: d :: e :: f :: g :: h :: t =>
    (p a && (p b && (p c && (p d && (p e && (p f && (p g && p h))))))) && all8 p t
  | t => t.all p

/-- All keys are short, all characters plain. -/
def rawPlain (a : List (List Nat × List Nat)) : Bool :=
  a.all fun kv => (match kv.1 with
    | [k] => Nat.ble k 0xffffffffffffffffffffffffffffffffffffffffffffffffffffffffffffffff && plainN 32 k
    | _ => false) && all8 (fun v => Nat.ble v 0xffffffffffffffffffffffffffffffffffffffffffffffffffffffffffffffff && plainN 32 v) kv.2

/-- Checks one line: plain, with a name; an opcode symbol must be the next expected one, at its
address. -/
def eatSym (i : Nat) (a : List (List Nat × List Nat)) : Option Nat :=
  bif rawPlain a then
    match rawLast a 0x656d616e with
    | some [N] => bif Nat.beq (N % 0x100000000) 0x5f706f22 then
        (bif Nat.beq N (natOf (opSymbol (fileCmd i))) then
          match rawLast a 0x6c6176 with
          | some [V] => bif Nat.beq V (natOf (hexText (playerAddr (fileCmd i)))) then some (i + 1) else none
          | _ => none
        else none)
      else some i
    | _ => none
  else none

theorem eat_split (l : List (List (List Nat × List Nat))) (n : Nat) {i j k : Nat}
    (h1 : (l.take n).foldlM eatSym i = some j) (h2 : (l.drop n).foldlM eatSym j = some k) :
    l.foldlM eatSym i = some k := by
  have h := List.foldlM_append (m := Option) (f := eatSym) (b := i) (l := l.take n) (l' := l.drop n)
  rw [List.take_append_drop, h1] at h
  rw [h]
  exact h2

theorem eat_0 : symLines0.foldlM eatSym 0 = some 19 := by decide +kernel
theorem eat_1 : symLines1.foldlM eatSym 19 = some 43 := by decide +kernel
theorem eat_2 : symLines2.foldlM eatSym 43 = some 54 := by decide +kernel
theorem eat_3 : symLines3.foldlM eatSym 54 = some 70 := by decide +kernel
theorem eat_4 : symLines4.foldlM eatSym 70 = some 86 := by decide +kernel
theorem eat_5 : symLines5.foldlM eatSym 86 = some 98 := by decide +kernel
theorem eat_6 : symLines6.foldlM eatSym 98 = some 117 := by decide +kernel
theorem eat_7 : symLines7.foldlM eatSym 117 = some 125 := by decide +kernel
theorem eat_8 : symLines8.foldlM eatSym 125 = some 149 := by decide +kernel
theorem eat_9 : symLines9.foldlM eatSym 149 = some 155 := by decide +kernel
theorem eat_10 : symLines10.foldlM eatSym 155 = some 181 := by decide +kernel
theorem eat_11 : symLines11.foldlM eatSym 181 = some 184 := by decide +kernel
theorem eat_12 : symLines12.foldlM eatSym 184 = some 209 := by decide +kernel
theorem eat_13 : symLines13.foldlM eatSym 209 = some 214 := by decide +kernel
theorem eat_14 : symLines14.foldlM eatSym 214 = some 237 := by decide +kernel
theorem eat_15 : symLines15.foldlM eatSym 237 = some 246 := by decide +kernel
theorem eat_16 : symLines16.foldlM eatSym 246 = some 264 := by decide +kernel
theorem eat_17 : symLines17.foldlM eatSym 264 = some 278 := by decide +kernel
theorem eat_18 : symLines18.foldlM eatSym 278 = some 292 := by decide +kernel
theorem eat_19 : symLines19.foldlM eatSym 292 = some 309 := by decide +kernel
theorem eat_20 : symLines20.foldlM eatSym 309 = some 319 := by decide +kernel
theorem eat_21 : symLines21.foldlM eatSym 319 = some 341 := by decide +kernel
theorem eat_22 : symLines22.foldlM eatSym 341 = some 348 := by decide +kernel
theorem eat_23 : symLines23.foldlM eatSym 348 = some 373 := by decide +kernel
theorem eat_24 : symLines24.foldlM eatSym 373 = some 377 := by decide +kernel
theorem eat_25 : symLines25.foldlM eatSym 377 = some 403 := by decide +kernel
theorem eat_26 : symLines26.foldlM eatSym 403 = some 407 := by decide +kernel
theorem eat_27 : symLines27.foldlM eatSym 407 = some 431 := by decide +kernel
theorem eat_28 : symLines28.foldlM eatSym 431 = some 438 := by decide +kernel
theorem eat_29 : symLines29.foldlM eatSym 438 = some 458 := by decide +kernel
theorem eat_30 : symLines30.foldlM eatSym 458 = some 470 := by decide +kernel
theorem eat_31 : symLines31.foldlM eatSym 470 = some 486 := by decide +kernel
theorem eat_32 : symLines32.foldlM eatSym 486 = some 502 := by decide +kernel
theorem eat_33 : symLines33.foldlM eatSym 502 = some 513 := by decide +kernel
theorem eat_34 : symLines34.foldlM eatSym 513 = some 533 := by decide +kernel
theorem eat_35 : symLines35.foldlM eatSym 533 = some 541 := by decide +kernel
theorem eat_36 : symLines36.foldlM eatSym 541 = some 565 := by decide +kernel
theorem eat_37 : symLines37.foldlM eatSym 565 = some 570 := by decide +kernel
theorem eat_38 : symLines38.foldlM eatSym 570 = some 597 := by decide +kernel
theorem eat_39 : symLines39.foldlM eatSym 597 = some 600 := by decide +kernel
theorem eat_40 : symLines40.foldlM eatSym 600 = some 624 := by decide +kernel
theorem eat_41 : symLines41.foldlM eatSym 624 = some 630 := by decide +kernel
theorem eat_42 : symLines42.foldlM eatSym 630 = some 652 := by decide +kernel
theorem eat_43 : symLines43.foldlM eatSym 652 = some 662 := by decide +kernel
theorem eat_44 : symLines44.foldlM eatSym 662 = some 679 := by decide +kernel
theorem eat_45 : symLines45.foldlM eatSym 679 = some 694 := by decide +kernel
theorem eat_46 : symLines46.foldlM eatSym 694 = some 707 := by decide +kernel
theorem eat_47 : symLines47.foldlM eatSym 707 = some 725 := by decide +kernel
theorem eat_48 : symLines48.foldlM eatSym 725 = some 734 := by decide +kernel
theorem eat_49 : symLines49.foldlM eatSym 734 = some 757 := by decide +kernel
theorem eat_50 : symLines50.foldlM eatSym 757 = some 763 := by decide +kernel
theorem eat_51 : symLines51.foldlM eatSym 763 = some 789 := by decide +kernel
theorem eat_52 : symLines52.foldlM eatSym 789 = some 793 := by decide +kernel
theorem eat_53 : symLines53.foldlM eatSym 793 = some 818 := by decide +kernel
theorem eat_54 : symLines54.foldlM eatSym 818 = some 822 := by decide +kernel
theorem eat_55 : symLines55.foldlM eatSym 822 = some 846 := by decide +kernel
theorem eat_56 : symLines56.foldlM eatSym 846 = some 854 := by decide +kernel
theorem eat_57 : symLines57.foldlM eatSym 854 = some 865 := by decide +kernel
theorem eat_58 : symLines58.foldlM eatSym 865 = some 877 := by decide +kernel
theorem eat_59 : symLines59.foldlM eatSym 877 = some 896 := by decide +kernel
theorem eat_60 : symLines60.foldlM eatSym 896 = some 904 := by decide +kernel
theorem eat_61 : symLines61.foldlM eatSym 904 = some 928 := by decide +kernel
theorem eat_62 : symLines62.foldlM eatSym 928 = some 934 := by decide +kernel
theorem eat_63 : symLines63.foldlM eatSym 934 = some 960 := by decide +kernel
theorem eat_64 : symLines64.foldlM eatSym 960 = some 963 := by decide +kernel
theorem eat_65 : symLines65.foldlM eatSym 963 = some 988 := by decide +kernel
theorem eat_66 : symLines66.foldlM eatSym 988 = some 993 := by decide +kernel
theorem eat_67 : symLines67.foldlM eatSym 993 = some 1016 := by decide +kernel
theorem eat_68 : symLines68.foldlM eatSym 1016 = some 1025 := by decide +kernel
theorem eat_69 : symLines69.foldlM eatSym 1025 = some 1028 := by decide +kernel
theorem eat_70 : symLines70.foldlM eatSym 1028 = some 1028 := by decide +kernel
theorem eat_71a : (symLines71.take 8).foldlM eatSym 1028 = some 1028 := by decide +kernel
theorem eat_71b : ((symLines71.drop 8).take 9).foldlM eatSym 1028 = some 1028 := by decide +kernel
theorem eat_71c : ((symLines71.drop 8).drop 9).foldlM eatSym 1028 = some 1028 := by decide +kernel
theorem eat_71 : symLines71.foldlM eatSym 1028 = some 1028 :=
  eat_split _ 8 eat_71a (eat_split _ 9 eat_71b eat_71c)
theorem eat_72 : symLines72.foldlM eatSym 1028 = some 1028 := by decide +kernel
theorem eat_73 : symLines73.foldlM eatSym 1028 = some 1028 := by decide +kernel

/-- One more group. -/
theorem eat_group {g : List (List (List Nat × List Nat))} {gs : List (List (List (List Nat × List Nat)))}
    {i j k : Nat} (h1 : g.foldlM eatSym i = some j)
    (h2 : gs.foldlM (fun i g => g.foldlM eatSym i) j = some k) :
    (g :: gs).foldlM (fun i g => g.foldlM eatSym i) i = some k := by
  rw [List.foldlM_cons, h1]
  exact h2

theorem eat_all : symLineGroups.foldlM (fun i g => g.foldlM eatSym i) 0 = some 1028 :=
  eat_group eat_0 (  eat_group eat_1 (  eat_group eat_2 (  eat_group eat_3 (  eat_group eat_4 (  eat_group eat_5 (
  eat_group eat_6 (  eat_group eat_7 (  eat_group eat_8 (  eat_group eat_9 (  eat_group eat_10 (  eat_group eat_11 (
  eat_group eat_12 (  eat_group eat_13 (  eat_group eat_14 (  eat_group eat_15 (  eat_group eat_16 (  eat_group eat_17 (
  eat_group eat_18 (  eat_group eat_19 (  eat_group eat_20 (  eat_group eat_21 (  eat_group eat_22 (  eat_group eat_23 (
  eat_group eat_24 (  eat_group eat_25 (  eat_group eat_26 (  eat_group eat_27 (  eat_group eat_28 (  eat_group eat_29 (
  eat_group eat_30 (  eat_group eat_31 (  eat_group eat_32 (  eat_group eat_33 (  eat_group eat_34 (  eat_group eat_35 (
  eat_group eat_36 (  eat_group eat_37 (  eat_group eat_38 (  eat_group eat_39 (  eat_group eat_40 (  eat_group eat_41 (
  eat_group eat_42 (  eat_group eat_43 (  eat_group eat_44 (  eat_group eat_45 (  eat_group eat_46 (  eat_group eat_47 (
  eat_group eat_48 (  eat_group eat_49 (  eat_group eat_50 (  eat_group eat_51 (  eat_group eat_52 (  eat_group eat_53 (
  eat_group eat_54 (  eat_group eat_55 (  eat_group eat_56 (  eat_group eat_57 (  eat_group eat_58 (  eat_group eat_59 (
  eat_group eat_60 (  eat_group eat_61 (  eat_group eat_62 (  eat_group eat_63 (  eat_group eat_64 (  eat_group eat_65 (
  eat_group eat_66 (  eat_group eat_67 (  eat_group eat_68 (  eat_group eat_69 (  eat_group eat_70 (  eat_group eat_71 (
  eat_group eat_72 (  eat_group eat_73 (rfl))))))))))))))))))))))))))))))))))))))))))))))))))))))))))))))))))))))))))

end IIVision
