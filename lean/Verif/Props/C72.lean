import Verif.Props.C71
import Verif.Model.InfoContainer
import Verif.Spec.InfoContainer
/-!
# C72: What fsapfsinfo shows about a container

Without options for files, fsapfsinfo prints a text from which the identifier of the container can be read, and of each volume its identifier, name, features, whether it is locked, and the names of its
snapshots.
-/
namespace Verif.Props
open Verif Res Spec BTree FsTree FileRead
open Verif.PathString (cString number_decimal hex hexDigit hexNumber_append)
open Verif.Info (ascii line heading uuidString uuidLine hexadecimal hexadecimal8 flagLine compatibleLines incompatibleLines readOnlyLines openSnapshot snapshotsOut featuresText volumeOut containerLocked
  volumesOut containerOut)
open Verif.Program (Machine Options Obtained)
open Verif.Spec.Info (chars ShownVolume ShownContainer pairs uuidOf hexOf FlagsAre compatibleNames incompatibleNames features ShowsSnapshots ShowsVolume ShowsVolumes ShowsContainer)

/-! Lines -/

/-- a text consists of lines -/
def LinesOf (text : Bytes) (ls : List (List Char)) : Prop := ∀ r, (Escape.lines (text ++ r)).map chars = ls ++ (Escape.lines r).map chars

theorem reads_nil : LinesOf [] [] := fun _ => rfl

theorem reads_append {a b : Bytes} {as bs : List (List Char)} (ha : LinesOf a as) (hb : LinesOf b bs) : LinesOf (a ++ b) (as ++ bs) := by
  intro r
  rw [List.append_assoc, ha, hb, List.append_assoc]

theorem reads_line {l : Bytes} (h : (0x0a : UInt8) ∉ l) : LinesOf (l ++ [0x0a]) [chars l] := by
  intro r
  rw [List.append_assoc, List.cons_append, List.nil_append, PathString.lines_line _ _ h]
  rfl

theorem reads_empty : LinesOf [0x0a] [[]] := reads_line (l := []) (by simp)

theorem chars_append (a b : Bytes) : chars (a ++ b) = chars a ++ chars b := by
  unfold chars
  rw [List.map_append]

theorem reads_value {name label : String} (h : chars (ascii name ++ ascii ": ") = label.toList ∧ (0x0a : UInt8) ∉ ascii name) {v : Bytes} (hv : (0x0a : UInt8) ∉ v) :
    LinesOf (line name v) [label.toList ++ chars v] := by
  unfold line
  rw [← h.1, ← chars_append]
  refine reads_line ?_
  simp only [List.mem_append, not_or]
  exact ⟨⟨h.2, by decide⟩, hv⟩

theorem reads_text {s : Bytes} {ls : List (List Char)} (h : s = ls.flatMap (fun l => (l.map fun c => UInt8.ofNat c.toNat) ++ [0x0a]) ∧ ∀ l ∈ ls, (0x0a : UInt8) ∉ (l.map fun c => UInt8.ofNat c.toNat) ∧
    chars (l.map fun c => UInt8.ofNat c.toNat) = l) : LinesOf s ls := by
  obtain ⟨rfl, h⟩ := h
  induction ls with
  | nil => exact reads_nil
  | cons l ls ih =>
    obtain ⟨h1, h2⟩ := h l List.mem_cons_self
    have := reads_append (reads_line h1) (ih fun x hx => h x (List.mem_cons_of_mem _ hx))
    rw [h2] at this
    exact this

/-! Numbers -/

theorem digit_hexDigit : ∀ k : Fin 16, Escape.digit (hexDigit k.1) = some k.1 ∧ hexDigit k.1 ≠ 0x0a := by decide +kernel

theorem hexNumber_hexadecimal (n : Nat) : Escape.hexNumber 0 (hexadecimal n) = some n := by
  induction n using Nat.strongRecOn with
  | ind n ih =>
    have hd : ∀ k v, k < 16 → Escape.hexNumber v [hexDigit k] = some (v * 16 + k) := by
      intro k v hk
      simp only [Escape.hexNumber, (digit_hexDigit ⟨k, hk⟩).1]
    unfold hexadecimal
    split
    · rw [hd n 0 (by omega)]
      congr 1
      omega
    · rw [hexNumber_append, ih (n / 16) (by omega), Option.bind_some, hd _ _ (by omega)]
      congr 1
      omega

theorem hexadecimal_line (n : Nat) : (0x0a : UInt8) ∉ hexadecimal n := by
  induction n using Nat.strongRecOn with
  | ind n ih =>
    have hd : ∀ k, k < 16 → (0x0a : UInt8) ∉ [hexDigit k] := fun k hk h => (digit_hexDigit ⟨k, hk⟩).2 (List.mem_singleton.1 h).symm
    unfold hexadecimal
    split
    · exact hd n (by omega)
    · intro h
      rcases List.mem_append.1 h with h | h
      · exact ih _ (by omega) h
      · exact hd _ (by omega) h

theorem hexadecimal_ne_nil (n : Nat) : hexadecimal n ≠ [] := by
  unfold hexadecimal
  split <;> simp

theorem hexNumber_zeros (k : Nat) (r : Bytes) : Escape.hexNumber 0 (List.replicate k 0x30 ++ r) = Escape.hexNumber 0 r := by
  induction k with
  | zero => rfl
  | succ k ih =>
    rw [List.replicate_succ, List.cons_append, Escape.hexNumber, show Escape.digit 0x30 = some 0 from by decide]
    exact ih

theorem hexOf_hexadecimal8 (n : Nat) : hexOf (hexadecimal8 n) = some n := by
  have h : ∀ s : Bytes, s ≠ [] → hexOf ([0x30, 0x78] ++ s) = Escape.hexNumber 0 s := by
    intro s hs
    cases s with
    | nil => exact absurd rfl hs
    | cons b s => rfl
  unfold hexadecimal8
  rw [h _ (by simp [hexadecimal_ne_nil]), hexNumber_zeros, hexNumber_hexadecimal]

theorem hexadecimal_length : ∀ (k n : Nat), n < 16 ^ (k + 1) → (hexadecimal n).length ≤ k + 1
  | 0, n, h => by
    unfold hexadecimal
    rw [if_pos (by omega)]
    simp
  | k + 1, n, h => by
    unfold hexadecimal
    split
    · simp
    · have := hexadecimal_length k (n / 16) (by rw [Nat.pow_succ] at h; omega)
      simp only [List.length_append, List.length_cons, List.length_nil]
      omega

theorem flags_hexadecimal8 (n : Nat) : FlagsAre n (hexadecimal8 n) := by
  refine ⟨hexOf_hexadecimal8 n, fun h => ?_⟩
  have := hexadecimal_length 7 n (by omega)
  unfold hexadecimal8
  simp only [List.length_append, List.length_replicate, List.length_cons, List.length_nil]
  omega

theorem hexadecimal8_line (n : Nat) : (0x0a : UInt8) ∉ hexadecimal8 n := by
  unfold hexadecimal8
  simp only [List.mem_append, not_or]
  refine ⟨by decide, fun h => ?_, hexadecimal_line n⟩
  cases (List.mem_replicate.1 h).2

/-! UUIDs -/

/-- the digits of bytes -/
def digitsOf (u : Bytes) : Bytes := u.flatMap fun b => hex 2 b.toNat

theorem digitsOf_length (u : Bytes) : (digitsOf u).length = 2 * u.length := by
  induction u with
  | nil => rfl
  | cons b u ih =>
    unfold digitsOf at ih ⊢
    rw [List.flatMap_cons, List.length_append, PathString.hex_length, ih, List.length_cons]
    omega

theorem hex_two (b : UInt8) : hex 2 b.toNat = [hexDigit (b.toNat / 16), hexDigit (b.toNat % 16)] := by
  have : b.toNat < 256 := b.toNat_lt
  simp only [hex, List.nil_append]
  rw [Nat.mod_eq_of_lt (by omega)]
  rfl

theorem pairs_digits (u : Bytes) : pairs (digitsOf u) = some u := by
  induction u with
  | nil => rfl
  | cons b u ih =>
    have : b.toNat < 256 := b.toNat_lt
    unfold digitsOf at ih ⊢
    rw [List.flatMap_cons, hex_two, List.cons_append, List.cons_append, List.nil_append, pairs, (digit_hexDigit ⟨b.toNat / 16, by omega⟩).1, (digit_hexDigit ⟨b.toNat % 16, by omega⟩).1, ih]
    simp only [Option.bind_some, Option.map_some]
    rw [show b.toNat / 16 * 16 + b.toNat % 16 = b.toNat by omega, UInt8.ofNat_toNat]

theorem digitsOf_append (a b : Bytes) : digitsOf (a ++ b) = digitsOf a ++ digitsOf b := List.flatMap_append

theorem digitsOf_line (u : Bytes) : (0x0a : UInt8) ∉ digitsOf u := by
  intro h
  obtain ⟨b, _, hb⟩ := List.mem_flatMap.1 h
  have : b.toNat < 256 := b.toNat_lt
  rw [hex_two] at hb
  simp only [List.mem_cons, List.not_mem_nil, or_false] at hb
  rcases hb with h | h
  · exact (digit_hexDigit ⟨b.toNat / 16, by omega⟩).2 h.symm
  · exact (digit_hexDigit ⟨b.toNat % 16, by omega⟩).2 h.symm

theorem uuid_read {a b c d e : Bytes} (ha : a.length = 8) (hb : b.length = 4) (hc : c.length = 4) (hd : d.length = 4) (he : e.length = 12) :
    uuidOf (a ++ [0x2d] ++ b ++ [0x2d] ++ c ++ [0x2d] ++ d ++ [0x2d] ++ e) = pairs (a ++ b ++ c ++ d ++ e) := by
  match a, ha with
  | [a0, a1, a2, a3, a4, a5, a6, a7], _ =>
    match b, hb with
    | [b0, b1, b2, b3], _ =>
      match c, hc with
      | [c0, c1, c2, c3], _ =>
        match d, hd with
        | [d0, d1, d2, d3], _ =>
          unfold uuidOf
          rw [if_pos]
          · rfl
          · simp [he]

theorem uuidOf_uuidString {u : Bytes} (h : u.length = 16) : uuidOf (uuidString u) = some u := by
  have hl : ∀ a n, a + n ≤ 16 → (digitsOf ((u.drop a).take n)).length = 2 * n := by
    intro a n ha
    rw [digitsOf_length, List.length_take, List.length_drop]
    omega
  have := uuid_read (hl 0 4 (by omega)) (hl 4 2 (by omega)) (hl 6 2 (by omega)) (hl 8 2 (by omega)) (hl 10 6 (by omega))
  unfold uuidString
  refine this.trans ?_
  rw [← digitsOf_append, ← digitsOf_append, ← digitsOf_append, ← digitsOf_append, pairs_digits]
  congr 1
  have hs : ∀ a b, u.take a ++ (u.drop a).take b = u.take (a + b) := by
    intro a b
    rw [List.take_add]
  rw [List.drop_zero, hs 4 2, hs 6 2, hs 8 2, hs 10 6, List.take_of_length_le (by omega)]

theorem uuidString_line (u : Bytes) : (0x0a : UInt8) ∉ uuidString u := by
  have h : ∀ a n, (0x0a : UInt8) ∉ ((u.drop a).take n).flatMap (fun b => hex 2 b.toNat) := fun a n => digitsOf_line _
  unfold uuidString
  simp only [List.mem_append, not_or]
  exact ⟨⟨⟨⟨⟨⟨⟨⟨h _ _, by decide⟩, h _ _⟩, by decide⟩, h _ _⟩, by decide⟩, h _ _⟩, by decide⟩, h _ _⟩

/-! Features -/

theorem and_two_pow_ne (n i : Nat) : n &&& 2 ^ i ≠ 0 ↔ n.testBit i = true := by
  constructor
  · intro h
    obtain ⟨j, hj⟩ := Nat.exists_testBit_of_ne_zero h
    rw [Nat.testBit_and, Nat.testBit_two_pow] at hj
    simp only [Bool.and_eq_true, decide_eq_true_eq] at hj
    rw [hj.2]
    exact hj.1
  · intro h e
    have : (n &&& 2 ^ i).testBit i = true := by
      rw [Nat.testBit_and, Nat.testBit_two_pow, h]
      simp
    rw [e] at this
    simp at this

theorem reads_flag (flags i : Nat) {mask : Nat} {text name : String} (hm : mask = 2 ^ i) (ht : LinesOf (ascii text) ["\t\t(".toList ++ name.toList ++ ")".toList]) :
    LinesOf (flagLine flags mask text) (if flags.testBit i then ["\t\t(".toList ++ name.toList ++ ")".toList] else []) := by
  unfold flagLine
  by_cases h : flags.testBit i = true
  · rw [if_pos (by rw [hm]; exact (and_two_pow_ne _ _).2 h), if_pos h]
    exact ht
  · rw [if_neg (by rw [hm, and_two_pow_ne]; exact h), if_neg h]
    exact reads_nil

theorem reads_compatible (flags : Nat) : LinesOf (compatibleLines flags) (features flags 0 compatibleNames ++ [[]]) := by
  unfold compatibleLines
  have f := fun i mask text name hm ht => @reads_flag flags i mask text name hm (reads_text ht)
  have := reads_append (reads_append (reads_append (reads_append (reads_append (f 0 1 "\t\t(APFS_FEATURE_DEFRAG_PRERELEASE)\n" "APFS_FEATURE_DEFRAG_PRERELEASE" (by decide) (by decide +kernel))
    (f 1 2 "\t\t(APFS_FEATURE_HARDLINK_MAP_RECORDS)\n" "APFS_FEATURE_HARDLINK_MAP_RECORDS" (by decide) (by decide +kernel)))
    (f 2 4 "\t\t(APFS_FEATURE_DEFRAG)\n" "APFS_FEATURE_DEFRAG" (by decide) (by decide +kernel)))
    (f 3 8 "\t\t(APFS_FEATURE_STRICTATIME)\n" "APFS_FEATURE_STRICTATIME" (by decide) (by decide +kernel)))
    (f 4 16 "\t\t(APFS_FEATURE_VOLGRP_SYSTEM_INO_SPACE)\n" "APFS_FEATURE_VOLGRP_SYSTEM_INO_SPACE" (by decide) (by decide +kernel))) reads_empty
  simp only [compatibleNames, features, List.append_assoc, List.append_nil, Nat.zero_add] at this ⊢
  exact this

theorem reads_incompatible (flags : Nat) : LinesOf (incompatibleLines flags) (features flags 0 incompatibleNames ++ [[]]) := by
  unfold incompatibleLines
  have f := fun i mask text name hm ht => @reads_flag flags i mask text name hm (reads_text ht)
  have := reads_append (reads_append (reads_append (reads_append (reads_append (reads_append
    (f 0 1 "\t\t(APFS_INCOMPAT_CASE_INSENSITIVE)\n" "APFS_INCOMPAT_CASE_INSENSITIVE" (by decide) (by decide +kernel))
    (f 1 2 "\t\t(APFS_INCOMPAT_DATALESS_SNAPS)\n" "APFS_INCOMPAT_DATALESS_SNAPS" (by decide) (by decide +kernel)))
    (f 2 4 "\t\t(APFS_INCOMPAT_ENC_ROLLED)\n" "APFS_INCOMPAT_ENC_ROLLED" (by decide) (by decide +kernel)))
    (f 3 8 "\t\t(APFS_INCOMPAT_NORMALIZATION_INSENSITIVE)\n" "APFS_INCOMPAT_NORMALIZATION_INSENSITIVE" (by decide) (by decide +kernel)))
    (f 4 16 "\t\t(APFS_INCOMPAT_INCOMPLETE_RESTORE)\n" "APFS_INCOMPAT_INCOMPLETE_RESTORE" (by decide) (by decide +kernel)))
    (f 5 32 "\t\t(APFS_INCOMPAT_SEALED_VOLUME)\n" "APFS_INCOMPAT_SEALED_VOLUME" (by decide) (by decide +kernel))) reads_empty
  simp only [incompatibleNames, features, List.append_assoc, List.append_nil, Nat.zero_add] at this ⊢
  exact this

/-! What is printed -/

theorem andThen_eq {a b : Out} {t : Bytes} : Out.andThen a b = (t, ok ()) ↔ ∃ t1 t2, a = (t1, ok ()) ∧ b = (t2, ok ()) ∧ t = t1 ++ t2 := by
  obtain ⟨a1, a2⟩ := a
  obtain ⟨b1, b2⟩ := b
  unfold Out.andThen
  cases a2 with
  | ok x =>
    constructor
    · intro h
      cases h
      exact ⟨_, _, rfl, rfl, rfl⟩
    · rintro ⟨t1, t2, h1, h2, rfl⟩
      cases h1
      cases h2
      rfl
  | err => simp
  | ub => simp

theorem need_eq {α : Type} {r : Res α} {f : α → Out} {t : Bytes} : Out.need r f = (t, ok ()) ↔ ∃ a, r = ok a ∧ f a = (t, ok ()) := by
  unfold Out.need
  cases r with
  | ok a => simp
  | err => simp
  | ub => simp

/-- libuna copies strings in UTF-8 -/
def ReadsText (una : Bytes → Res Bytes) : Prop := ∀ name, PathString.Name name → una (Utf8.encode name) = ok (Utf8.encode name)

/-- bytes are a name on one line -/
def Called (bytes : Bytes) (name : List Nat) : Prop := PathString.Name name ∧ (0x0a : UInt8) ∉ bytes ∧ bytes = Utf8.encode name

theorem called_una {una : Bytes → Res Bytes} (hu : ReadsText una) {bytes : Bytes} {name : List Nat} (h : Called bytes name) : una bytes = ok bytes ∧ cString bytes = bytes := by
  obtain ⟨h1, _, rfl⟩ := h
  exact ⟨hu _ h1, PathString.cString_eq (encode_nonzero h1)⟩

/-- what libfsapfs returns as names of snapshots is names on one line -/
inductive SnapshotsCalled : List Snapshot.Metadata → List (List Nat) → Prop
  | nil : SnapshotsCalled [] []
  | cons {m : Snapshot.Metadata} {ms : List Snapshot.Metadata} {bytes : Bytes} {name : List Nat} {names : List (List Nat)} (name_ : m.utf8Name = ok bytes) (called : Called bytes name)
    (rest : SnapshotsCalled ms names) : SnapshotsCalled (m :: ms) (name :: names)

theorem SnapshotsCalled.length {ms : List Snapshot.Metadata} {names : List (List Nat)} (h : SnapshotsCalled ms names) : ms.length = names.length := by
  induction h with
  | nil => rfl
  | cons _ _ _ ih => simp [ih]

variable {una : Bytes → Res Bytes} {image : Container.Image}

theorem snapshots_text (hu : ReadsText una) {ms : List Snapshot.Metadata} {names : List (List Nat)} (h : SnapshotsCalled ms names) (ho : ∀ m ∈ ms, ∃ s, openSnapshot image m = ok s) (i : Nat) :
    ∃ text ls, snapshotsOut una image i ms = (text, ok ()) ∧ LinesOf text ls ∧ ShowsSnapshots i names ls := by
  induction h generalizing i with
  | nil => exact ⟨[], [], rfl, reads_nil, .nil i⟩
  | @cons m ms bytes name names hm hc _ ih =>
    obtain ⟨s, hs⟩ := ho m List.mem_cons_self
    obtain ⟨text, ls, h1, h2, h3⟩ := ih (fun m hm => ho m (List.mem_cons_of_mem _ hm)) (i + 1)
    obtain ⟨c1, c2⟩ := called_una hu hc
    refine ⟨(ascii "\tSnapshot: " ++ PathString.decimal (i + 1) ++ ascii " information:\n" ++ ascii "\t\tName\t\t\t: ") ++ ((cString bytes ++ [0x0a]) ++ text), _, ?_, ?_, .cons (number_decimal (i + 1)) h3⟩
    · rw [snapshotsOut]
      refine need_eq.2 ⟨s, hs, andThen_eq.2 ⟨_, _, rfl, need_eq.2 ⟨bytes, by rw [hm]; exact c1, andThen_eq.2 ⟨_, _, rfl, h1, rfl⟩⟩, rfl⟩⟩
    · have l1 : LinesOf ((ascii "\tSnapshot: " ++ PathString.decimal (i + 1) ++ ascii " information:") ++ [0x0a]) [chars (ascii "\tSnapshot: " ++ PathString.decimal (i + 1) ++ ascii " information:")] := by
        refine reads_line ?_
        simp only [List.mem_append, not_or]
        exact ⟨⟨by decide +kernel, decimal_line _⟩, by decide +kernel⟩
      have l2 : LinesOf ((ascii "\t\tName\t\t\t: " ++ bytes) ++ [0x0a]) [chars (ascii "\t\tName\t\t\t: " ++ bytes)] := by
        refine reads_line ?_
        simp only [List.mem_append, not_or]
        exact ⟨by decide +kernel, hc.2.1⟩
      have := reads_append l1 (reads_append l2 h2)
      rw [chars_append, chars_append, chars_append, show chars (ascii "\tSnapshot: ") = "\tSnapshot: ".toList from by decide +kernel,
        show chars (ascii " information:") = " information:".toList from by decide +kernel, show chars (ascii "\t\tName\t\t\t: ") = "\t\tName\t\t\t: ".toList from by decide +kernel, hc.2.2] at this
      rw [c2, hc.2.2, show ascii " information:\n" = ascii " information:" ++ [0x0a] from by decide +kernel]
      simpa only [List.append_assoc, List.cons_append, List.nil_append] using this

/-- what is to be shown of an open volume -/
def shownOf (d : Bytes) (name : List Nat) (locked : Bool) (names : List (List Nat)) : ShownVolume :=
  { uuid := Apsb.uuid d, name := name, compatible := Apsb.compatible d, incompatible := Apsb.incompatible d, readOnlyCompatible := Apsb.readOnlyCompatible d, locked := locked, snapshots := names }

theorem reads_locked {locked : Bool} : LinesOf (if locked then ascii "\tIs locked\n" else []) (if locked then ["\tIs locked".toList] else []) := by
  cases locked with
  | true => exact reads_text (by decide +kernel)
  | false => exact reads_nil

theorem volume_text (hu : ReadsText una) {r : Obtained} {d : Bytes} (hl : (Apsb.uuid d).length = 16) (hR : Reports r.volume d) {name : List Nat} (hn : Called (cstring (Apsb.nameField d)) name)
    {names : List (List Nat)} (hs : SnapshotsCalled r.volume.snapshots names) (ho : ∀ m ∈ r.volume.snapshots, ∃ s, openSnapshot image m = ok s) (i : Nat) :
    ∃ text ls, volumeOut una image i r = (text, ok ()) ∧ LinesOf text ls ∧ ShowsVolume i (shownOf d name r.state.isLocked names) ls := by
  obtain ⟨text, ls, h1, h2, h3⟩ := snapshots_text hu hs ho 0
  obtain ⟨c1, c2⟩ := called_una hu hn
  have hid : VolumeOpen.getIdentifier r.volume (List.replicate 16 0) = ok (Apsb.uuid d) := by
    rw [hR.identifier (List.replicate 16 0) (by simp) (by simp)]
    simp
  have hf : VolumeOpen.getFeaturesFlags r.volume = (Apsb.compatible d, Apsb.incompatible d, Apsb.readOnlyCompatible d) := hR.features
  refine ⟨(ascii "\nVolume: " ++ PathString.decimal (i + 1) ++ ascii " information:\n") ++ ((uuidLine "\tIdentifier\t\t\t" (Apsb.uuid d) ++ ascii "\tName\t\t\t\t: ") ++
    ((cString (cstring (Apsb.nameField d)) ++ [0x0a] ++ featuresText r.volume ++ (if r.state.isLocked then ascii "\tIs locked\n" else []) ++
      line "\tNumber of snapshots\t\t" (PathString.decimal (VolumeOpen.numberOfSnapshots r.volume))) ++ text)), _, ?_, ?_,
    ⟨_, _, _, _, _, PathString.decimal (VolumeOpen.numberOfSnapshots r.volume), ls, rfl, number_decimal (i + 1), uuidOf_uuidString hl, flags_hexadecimal8 _, flags_hexadecimal8 _, flags_hexadecimal8 _, ?_, h3⟩⟩
  · exact andThen_eq.2 ⟨_, _, rfl, need_eq.2 ⟨_, hid, andThen_eq.2 ⟨_, _, rfl, need_eq.2 ⟨_, (by rw [hR.name]; exact c1), andThen_eq.2 ⟨_, _, rfl, h1, rfl⟩⟩, rfl⟩⟩, rfl⟩
  · have l1 : LinesOf (ascii "\nVolume: " ++ PathString.decimal (i + 1) ++ ascii " information:\n") [[], "Volume: ".toList ++ chars (PathString.decimal (i + 1)) ++ " information:".toList] := by
      have a : LinesOf ((ascii "Volume: " ++ PathString.decimal (i + 1) ++ ascii " information:") ++ [0x0a]) [chars (ascii "Volume: " ++ PathString.decimal (i + 1) ++ ascii " information:")] := by
        refine reads_line ?_
        simp only [List.mem_append, not_or]
        exact ⟨⟨by decide +kernel, decimal_line _⟩, by decide +kernel⟩
      have a := reads_append reads_empty a
      rw [chars_append, chars_append, show chars (ascii "Volume: ") = "Volume: ".toList from by decide +kernel, show chars (ascii " information:") = " information:".toList from by decide +kernel] at a
      rw [show ascii " information:\n" = ascii " information:" ++ [0x0a] from by decide +kernel, show ascii "\nVolume: " = [0x0a] ++ ascii "Volume: " from by decide +kernel]
      simpa only [List.append_assoc, List.cons_append, List.nil_append] using a
    have l2 : LinesOf ((ascii "\tName\t\t\t\t: " ++ cstring (Apsb.nameField d)) ++ [0x0a]) ["\tName\t\t\t\t: ".toList ++ chars (Utf8.encode name)] := by
      have a : LinesOf ((ascii "\tName\t\t\t\t: " ++ cstring (Apsb.nameField d)) ++ [0x0a]) [chars (ascii "\tName\t\t\t\t: " ++ cstring (Apsb.nameField d))] := by
        refine reads_line ?_
        simp only [List.mem_append, not_or]
        exact ⟨by decide +kernel, hn.2.1⟩
      rw [chars_append, show chars (ascii "\tName\t\t\t\t: ") = "\tName\t\t\t\t: ".toList from by decide +kernel] at a
      rw [← hn.2.2]
      exact a
    have l3 : LinesOf (featuresText r.volume) (["\tCompatible features\t\t: ".toList ++ chars (hexadecimal8 (Apsb.compatible d))] ++ (features (Apsb.compatible d) 0 compatibleNames ++ [[]]) ++
        ["\tIncompatible features\t\t: ".toList ++ chars (hexadecimal8 (Apsb.incompatible d))] ++ (features (Apsb.incompatible d) 0 incompatibleNames ++ [[]]) ++
        ["\tRead-only compatible features\t: ".toList ++ chars (hexadecimal8 (Apsb.readOnlyCompatible d))] ++ [[]]) := by
      unfold featuresText
      rw [hf]
      exact reads_append (reads_append (reads_append (reads_append (reads_append (reads_value (by decide +kernel) (hexadecimal8_line _)) (reads_compatible _))
        (reads_value (by decide +kernel) (hexadecimal8_line _))) (reads_incompatible _)) (reads_value (by decide +kernel) (hexadecimal8_line _))) reads_empty
    have l0 : LinesOf (uuidLine "\tIdentifier\t\t\t" (Apsb.uuid d)) ["\tIdentifier\t\t\t: ".toList ++ chars (uuidString (Apsb.uuid d))] := reads_value (by decide +kernel) (uuidString_line _)
    have l4 : LinesOf (line "\tNumber of snapshots\t\t" (PathString.decimal (VolumeOpen.numberOfSnapshots r.volume)))
      ["\tNumber of snapshots\t\t: ".toList ++ chars (PathString.decimal (VolumeOpen.numberOfSnapshots r.volume))] := reads_value (by decide +kernel) (decimal_line _)
    have := reads_append l1 (reads_append l0 (reads_append l2 (reads_append l3 (reads_append (reads_locked (locked := r.state.isLocked)) (reads_append l4 h2)))))
    rw [c2]
    simp only [List.append_assoc, List.cons_append, List.nil_append, shownOf] at this ⊢
    exact this
  · rw [number_decimal]
    unfold VolumeOpen.numberOfSnapshots
    rw [hs.length]
    rfl

end Verif.Props
