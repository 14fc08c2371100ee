import Verif.Props.C66
import Verif.Props.C69
import Verif.Props.C70
import Verif.Model.Info
import Verif.Spec.Info
/-!
# C71: What fsapfsinfo shows about files

`fsapfsinfo -E` with an identifier, `-E all` and `-F` with a path print for each file a text from which identifier, name, size, times, links, owner, group, mode, target and extended attributes can be read.
-/
namespace Verif.Props
open Verif Res Spec BTree FsTree FileRead
open Verif.PathString (escaped Lawful ssizeMax cString modeString number_decimal mode_letters unescape_flatMap mem_flatMap_escaped numeric_line numeric_decimal copyFrom_escaped)
open Verif.Mount (Mounted)
open Verif.Spec.Bodyfile (Each)
open Verif.Info (ascii octal octal7 timeLine line attributeLines attributesText addedLine deviceLine targetLine valueLines fileText fileBlock)
open Verif.Spec.Info (cut chars entry entries row octalNumber TimeIs ModeIs Attributes ShowsFile OneLine)

/-! Lines -/

theorem cut_plain {p : Bytes} (hp : ∀ b ∈ p, b ≠ 0x09) (r : Bytes) : cut (p ++ r) = (cut r).map fun x => (p ++ x.1, x.2) := by
  induction p with
  | nil => simp
  | cons b p ih =>
    have : ¬ (b :: (p ++ r)).take 3 = [0x09, 0x3a, 0x20] := fun h => hp b (by simp) (by simp only [List.take_succ_cons] at h; exact (List.cons.inj h).1)
    rw [List.cons_append, cut, if_neg this, ih (fun x hx => hp x (by simp [hx]))]
    cases cut r <;> rfl

theorem cut_label {p : Bytes} (hp : (0x3a : UInt8) ∉ p) (value : Bytes) : cut (p ++ 0x09 :: 0x3a :: 0x20 :: value) = some (p, value) := by
  induction p with
  | nil => rfl
  | cons b p ih =>
    have : ¬ (b :: (p ++ 0x09 :: 0x3a :: 0x20 :: value)).take 3 = [0x09, 0x3a, 0x20] := by
      intro h
      cases p with
      | nil => simp at h
      | cons c p =>
        simp only [List.cons_append, List.take_succ_cons, List.cons.injEq] at h
        exact hp (by simp [h.2.1])
    rw [List.cons_append, cut, if_neg this, ih (fun h => hp (by simp [h]))]
    rfl

/-- a label of a format string -/
def Labels (name label : String) : Prop := ∃ p, ascii name = p ++ [0x09] ∧ (0x3a : UInt8) ∉ p ∧ (0x0a : UInt8) ∉ p ∧ chars (p.filter (· ≠ 0x09)) = label.toList

theorem labels_of {name label : String} (h : (ascii name).getLast? = some 0x09 ∧ (0x3a : UInt8) ∉ (ascii name).dropLast ∧ (0x0a : UInt8) ∉ (ascii name).dropLast ∧
    chars ((ascii name).dropLast.filter (· ≠ 0x09)) = label.toList) : Labels name label := by
  refine ⟨(ascii name).dropLast, ?_, h.2.1, h.2.2.1, h.2.2.2⟩
  obtain ⟨h1, h2⟩ := List.getLast?_eq_some_iff.1 h.1
  rw [h2, List.dropLast_concat]

theorem entries_line {name label : String} (h : Labels name label) {value : Bytes} (hv : (0x0a : UInt8) ∉ value) (r : Bytes) : entries (line name value ++ r) = row label value :: entries r := by
  obtain ⟨p, h1, h2, h3, h4⟩ := h
  have he : line name value ++ r = (p ++ 0x09 :: 0x3a :: 0x20 :: value) ++ 0x0a :: r := by
    unfold line
    rw [h1, show ascii ": " = [0x3a, 0x20] from by decide]
    simp
  unfold entries
  rw [he, PathString.lines_line _ _ (by simp [h3, hv]), List.map_cons]
  unfold entry
  rw [cut_label h2]
  simp only [Option.map_some, h4, row]

theorem decimal_line (n : Nat) : (0x0a : UInt8) ∉ PathString.decimal n := numeric_line (numeric_decimal n)

/-! Modes -/

theorem octalNumber_append (a b : Bytes) (v : Nat) : octalNumber v (a ++ b) = (octalNumber v a).bind fun w => octalNumber w b := by
  induction a generalizing v with
  | nil => rfl
  | cons x a ih =>
    simp only [List.cons_append, octalNumber]
    split
    · exact ih _
    · rfl

theorem octalNumber_octal (n : Nat) : octalNumber 0 (octal n) = some n := by
  induction n using Nat.strongRecOn with
  | ind n ih =>
    have hd : ∀ k v, k < 8 → octalNumber v [UInt8.ofNat (0x30 + k)] = some (v * 8 + k) := by
      intro k v hk
      have : (UInt8.ofNat (0x30 + k)).toNat = 0x30 + k := by rw [UInt8.toNat_ofNat']; omega
      simp only [octalNumber, this]
      rw [if_pos (by omega)]
      congr 1
      omega
    unfold octal
    split
    · rw [hd n 0 (by omega)]
      congr 1
      omega
    · rw [octalNumber_append, ih (n / 8) (by omega), Option.bind_some, hd _ _ (by omega)]
      congr 1
      omega

theorem octal_byte (n : Nat) : ∀ b ∈ octal n, 0x30 ≤ b.toNat ∧ b.toNat ≤ 0x37 := by
  induction n using Nat.strongRecOn with
  | ind n ih =>
    have hd : ∀ k, k < 8 → ∀ b ∈ [UInt8.ofNat (0x30 + k)], 0x30 ≤ b.toNat ∧ b.toNat ≤ 0x37 := by
      intro k hk b hb
      cases List.mem_singleton.1 hb
      have : (UInt8.ofNat (0x30 + k)).toNat = 0x30 + k := by rw [UInt8.toNat_ofNat']; omega
      omega
    unfold octal
    split
    · exact hd n (by omega)
    · intro b hb
      rcases List.mem_append.1 hb with h | h
      · exact ih _ (by omega) b h
      · exact hd _ (by omega) b h

theorem octal_ne_nil (n : Nat) : octal n ≠ [] := by
  unfold octal
  split <;> simp

theorem octalNumber_zeros (k : Nat) (r : Bytes) : octalNumber 0 (List.replicate k 0x30 ++ r) = octalNumber 0 r := by
  induction k with
  | zero => rfl
  | succ k ih =>
    rw [List.replicate_succ, List.cons_append, octalNumber, if_pos (by decide)]
    exact ih

theorem octal_length : ∀ (k n : Nat), n < 8 ^ (k + 1) → (octal n).length ≤ k + 1
  | 0, n, h => by
    unfold octal
    rw [if_pos (by omega)]
    simp
  | k + 1, n, h => by
    unfold octal
    split
    · simp
    · have := octal_length k (n / 8) (by rw [Nat.pow_succ] at h; omega)
      simp only [List.length_append, List.length_cons, List.length_nil]
      omega

theorem mode_shown (mode : Nat) : ModeIs mode (modeString mode ++ ascii " (" ++ octal7 mode ++ ascii ")") := by
  refine ⟨modeString mode, octal7 mode, ?_, mode_letters mode, ?_, ?_, ?_⟩
  · unfold chars
    simp only [List.map_append]
    rfl
  · unfold octal7
    simp [octal_ne_nil]
  · unfold octal7
    rw [octalNumber_zeros, octalNumber_octal]
  · intro h
    have := octal_length 6 mode (by omega)
    unfold octal7
    rw [List.length_append, List.length_replicate]
    omega

theorem mode_line (mode : Nat) : (0x0a : UInt8) ∉ modeString mode ++ ascii " (" ++ octal7 mode ++ ascii ")" := by
  have h1 : (0x0a : UInt8) ∉ modeString mode := (PathString.plain_mode mode).2
  have h2 : (0x0a : UInt8) ∉ octal7 mode := by
    unfold octal7
    intro h
    rcases List.mem_append.1 h with h | h
    · cases (List.mem_replicate.1 h).2
    · exact absurd (octal_byte mode _ h) (by decide)
  have h3 : (0x0a : UInt8) ∉ ascii " (" ∧ (0x0a : UInt8) ∉ ascii ")" := by decide
  simp [h1, h2, h3]

/-! Times -/

/-- libfdatetime: `read` gets a time back from its text, which is on one line -/
def Clock (clock : Int → Res Bytes) (read : Bytes → Option Int) : Prop := ∀ t : Int, - 2 ^ 63 ≤ t → t < 2 ^ 63 → ∃ s, clock t = ok s ∧ read s = some t ∧ (0x0a : UInt8) ∉ s

theorem timeLine_good {clock : Int → Res Bytes} {read : Bytes → Option Int} (hC : Clock clock read) (name : String) {t : Nat} (ht : t < 2 ^ 64) :
    ∃ value, timeLine clock name (Mount.signed64 t) = ok (line name value) ∧ TimeIs read t value ∧ (0x0a : UInt8) ∉ value := by
  have he : Mount.signed64 t = Spec.Info.signed t := rfl
  by_cases h0 : t = 0
  · subst h0
    refine ⟨ascii "Not set (0)", ?_, ⟨fun _ => by decide, fun h => absurd rfl h⟩, by decide⟩
    unfold timeLine
    rw [if_pos (by decide)]
    unfold line
    rw [show ascii ": Not set (0)\n" = ascii ": " ++ ascii "Not set (0)" ++ [0x0a] from by decide]
    simp
  · have hne : Spec.Info.signed t ≠ 0 := by unfold Spec.Info.signed; split <;> omega
    obtain ⟨s, h1, h2, h3⟩ := hC (Spec.Info.signed t) (by unfold Spec.Info.signed; split <;> omega) (by unfold Spec.Info.signed; split <;> omega)
    refine ⟨s ++ [0x5a], ?_, ⟨fun h => absurd h h0, fun _ => ⟨s, rfl, h2⟩⟩, by simp [h3]⟩
    unfold timeLine
    rw [he, if_neg hne, h1, ok_bind]
    unfold line
    rw [show ascii "Z\n" = [0x5a] ++ [0x0a] from by decide]
    simp

/-! Extended attributes -/

theorem entry_attribute (k : Nat) (name : Bytes) : entry (ascii "\t\tAttribute: " ++ PathString.decimal (k + 1) ++ ascii "\t: " ++ name) = some ("Attribute: ".toList ++ chars (PathString.decimal (k + 1)), name) := by
  have hd : ∀ b ∈ ascii "Attribute: " ++ PathString.decimal (k + 1), b ≠ 0x09 := by
    intro b hb
    rcases List.mem_append.1 hb with h | h
    · exact (by decide : ∀ b ∈ ascii "Attribute: ", b ≠ 0x09) b h
    · rintro rfl
      exact absurd (PathString.mem_decimal h) (by decide)
  have he : ascii "\t\tAttribute: " ++ PathString.decimal (k + 1) ++ ascii "\t: " ++ name = 0x09 :: 0x09 :: ((ascii "Attribute: " ++ PathString.decimal (k + 1)) ++ 0x09 :: 0x3a :: 0x20 :: name) := by
    rw [show ascii "\t\tAttribute: " = 0x09 :: 0x09 :: ascii "Attribute: " from by decide, show ascii "\t: " = [0x09, 0x3a, 0x20] from by decide]
    simp
  have h1 : cut ((ascii "Attribute: " ++ PathString.decimal (k + 1)) ++ 0x09 :: 0x3a :: 0x20 :: name) = some (ascii "Attribute: " ++ PathString.decimal (k + 1), name) := by
    rw [cut_plain hd, cut, if_pos (by simp)]
    simp
  have h2 : cut (0x09 :: ((ascii "Attribute: " ++ PathString.decimal (k + 1)) ++ 0x09 :: 0x3a :: 0x20 :: name)) = some (0x09 :: (ascii "Attribute: " ++ PathString.decimal (k + 1)), name) := by
    rw [cut, if_neg, h1]
    · rfl
    · rw [show ascii "Attribute: " = 0x41 :: ascii "ttribute: " from by decide]
      simp
  have hf : (ascii "Attribute: " ++ PathString.decimal (k + 1)).filter (fun b => b ≠ 0x09) = ascii "Attribute: " ++ PathString.decimal (k + 1) := by
    rw [List.filter_eq_self]
    simpa using hd
  unfold entry
  rw [he, cut, if_neg (by simp), h2]
  simp only [Option.map_some]
  rw [List.filter_cons_of_neg (by simp), List.filter_cons_of_neg (by simp), hf]
  unfold chars
  rw [List.map_append, show (ascii "Attribute: ").map (fun c => Char.ofNat c.toNat) = "Attribute: ".toList from by decide]

section
variable {m : Mounted}

theorem attributeLines_good (hL : Libraries m) : ∀ (xs : List XAttr) (k : Nat), (∀ x ∈ xs, ∃ name, (∀ c ∈ name, Scalar c ∧ c ≠ 0) ∧ x.name = Utf8.encode name) → (∀ x ∈ xs, (0x0a : UInt8) ∉ x.name) →
    ∃ text rest, attributeLines m.una k (xs.map FileEntry.attr) = ok text ∧ entries text = rest ∧ Attributes k xs rest
  | [], k, _, _ => ⟨[], [], rfl, rfl, .nil k⟩
  | x :: xs, k, hn, hl => by
    obtain ⟨text, rest, h1, h2, h3⟩ := attributeLines_good hL xs (k + 1) (fun x h => hn x (List.mem_cons_of_mem _ h)) (fun x h => hl x (List.mem_cons_of_mem _ h))
    obtain ⟨name, hc, he⟩ := hn x (by simp)
    have hu : m.una (FileEntry.attr x).name = ok x.name := by
      rw [show (FileEntry.attr x).name = x.name ++ [0] from rfl, he]
      exact hL.names name hc
    have hcs : cString x.name = x.name := PathString.cString_eq (by rw [he]; exact encode_nonzero hc)
    refine ⟨ascii "\t\tAttribute: " ++ PathString.decimal (k + 1) ++ ascii "\t: " ++ cString x.name ++ [0x0a] ++ text, _, ?_, ?_, .cons (digits := PathString.decimal (k + 1)) (number_decimal _) h3⟩
    · rw [List.map_cons, attributeLines, hu, ok_bind, h1, ok_bind]
    · have hf : (0x0a : UInt8) ∉ ascii "\t\tAttribute: " ++ PathString.decimal (k + 1) ++ ascii "\t: " ++ cString x.name := by
        rw [hcs]
        have h1 : (0x0a : UInt8) ∉ ascii "\t\tAttribute: " ∧ (0x0a : UInt8) ∉ ascii "\t: " := by decide
        simp only [List.mem_append, not_or]
        exact ⟨⟨⟨h1.1, decimal_line (k + 1)⟩, h1.2⟩, hl x (by simp)⟩
      unfold entries
      rw [List.append_assoc, List.cons_append, List.nil_append, PathString.lines_line _ _ hf, List.map_cons, hcs, entry_attribute]
      unfold entries at h2
      rw [h2]

/-! One file -/

/-- the target that is printed -/
theorem linkTarget_file (hL : Libraries m) {v : VolumeFile} (hv : v.stored.Valid) {env : FileEntry.Env} (hh : FileEntry.Healthy v.stored env) {e : FileEntry.Entry} (he : FileEntry.Reached v.stored e) :
    FileEntry.Reached v.stored (Bodyfile.linkTarget m.una env e).2 ∧ (v.stored.attribute? symlink = none → (Bodyfile.linkTarget m.una env e).1 = ok none) ∧
    ∀ target, LinksTo v target → (Bodyfile.linkTarget m.una env e).1 = ok (some (Utf8.encode target)) := by
  have hsp : ∀ e, FileEntry.Reached v.stored e → ∀ t, FileEntry.target? v.stored = some t → (FileEntry.symlinkTarget env e).1 = ok t :=
    fun e he => (FileEntry.symlinkTarget_spec hv (he.inv hv) hh.faithful).2.2.2 hh
  have hre : ∀ e, FileEntry.Reached v.stored e → FileEntry.Reached v.stored (FileEntry.symlinkTarget env e).2 :=
    fun e he => .call env .target he hh.faithful
  refine ⟨?_, fun ha => ?_, fun target ht => ?_⟩
  · unfold Bodyfile.linkTarget
    have h1 := hre e he
    cases h : FileEntry.symlinkTarget env e with
    | mk a e1 =>
      rw [h] at h1
      cases a with
      | err => exact h1
      | ub => exact h1
      | ok t =>
        cases t with
        | none => exact h1
        | some t =>
          dsimp only
          cases m.una t with
          | err => exact h1
          | ub => exact h1
          | ok _ =>
            dsimp only
            have h2 := hre e1 h1
            cases h' : FileEntry.symlinkTarget env e1 with
            | mk a e2 =>
              rw [h'] at h2
              cases a with
              | err => exact h2
              | ub => exact h2
              | ok t => cases t <;> exact h2
  · have h1 := hsp e he none (by unfold FileEntry.target?; rw [ha])
    unfold Bodyfile.linkTarget
    cases h : FileEntry.symlinkTarget env e with
    | mk a e1 =>
      rw [h] at h1
      dsimp only at h1
      subst h1
      rfl
  · have htg : FileEntry.target? v.stored = some (some (storedName target)) := by
      unfold FileEntry.target?
      rw [ht.value]
      have h3 := ht.size
      have h4 : 0 < (storedName target).length := by simp [storedName]
      dsimp only
      rw [if_neg (by omega)]
    have h1 := hsp e he _ htg
    have h2 := hre e he
    unfold Bodyfile.linkTarget
    cases h : FileEntry.symlinkTarget env e with
    | mk a e1 =>
      rw [h] at h1 h2
      dsimp only at h1 h2
      subst h1
      dsimp only
      rw [hL.names _ ht.characters]
      dsimp only
      have h3 := hsp e1 h2 _ htg
      cases h' : FileEntry.symlinkTarget env e1 with
      | mk a e2 =>
        rw [h'] at h3
        dsimp only at h3
        subst h3
        dsimp only
        rw [hL.names _ ht.characters]
        rfl

theorem attributesText_good (hL : Libraries m) {v : VolumeFile} (hv : v.stored.Valid) {env : FileEntry.Env} (hh : FileEntry.Healthy v.stored env) {e : FileEntry.Entry} (he : FileEntry.Reached v.stored e)
    (hn : ∀ x ∈ v.attributes, ∃ name, (∀ c ∈ name, Scalar c ∧ c ≠ 0) ∧ x.name = Utf8.encode name) (hl : ∀ x ∈ v.attributes, (0x0a : UInt8) ∉ x.name) :
    ∃ text, attributesText m.una env e = ok text ∧ (v.attributes = [] → entries text = []) ∧ (v.attributes ≠ [] → ∃ rest, entries text = none :: rest ∧ Attributes 0 v.attributes rest) := by
  have hnum : (FileEntry.numberOfAttributes env e).1 = ok v.attributes.length ∧ (FileEntry.numberOfAttributes env e).2.attributes = some (v.attributes.map FileEntry.attr) := by
    obtain ⟨r, e', g1, _, g3, g4, _, g6⟩ := FileEntry.needAttributes_spec hv (he.inv hv) hh.faithful
    have h3 := (FileEntry.numberOfAttributes_spec hv (he.inv hv) hh.faithful).2.2.2 hh
    refine ⟨h3, ?_⟩
    unfold FileEntry.numberOfAttributes
    rw [g1, g3 hh]
    have := g6 (g3 hh)
    simp only
    rw [this]
    exact this
  obtain ⟨text, rest, h1, h2, h3⟩ := attributeLines_good hL v.attributes 0 hn hl
  unfold attributesText
  rw [hnum.1, ok_bind]
  by_cases h0 : v.attributes = []
  · rw [if_neg (by simp [h0])]
    exact ⟨[], rfl, fun _ => rfl, fun h => absurd h0 h⟩
  · rw [if_pos (List.length_pos_iff.2 h0), hnum.2]
    refine ⟨ascii "\tExtended attributes:\n" ++ text, ?_, fun h => absurd h h0, fun _ => ⟨rest, ?_, h3⟩⟩
    · simp only
      rw [ok_bind, List.take_of_length_le (by simp), h1, ok_bind]
    · have : ascii "\tExtended attributes:\n" ++ text = ascii "\tExtended attributes:" ++ 0x0a :: text := by
        rw [show ascii "\tExtended attributes:\n" = ascii "\tExtended attributes:" ++ [0x0a] from by decide]
        simp
      unfold entries at h2 ⊢
      rw [this, PathString.lines_line _ _ (by decide), List.map_cons, h2, show entry (ascii "\tExtended attributes:") = none from by decide]

/-- a name that can be shown -/
structure Nameable (name : List Nat) : Prop where
  nonempty : name ≠ []
  characters : PathString.Name name
  size : (Utf8.encode name).length ≤ (ssizeMax - 1) / 10

/-- The text of a file. -/
theorem fileText_good (hL : Libraries m) {clock : Int → Res Bytes} {read : Bytes → Option Int} (hC : Clock clock read) {v : VolumeFile} {n : FileNode} (hn : InodeShows n.inode v) (hv : v.stored.Valid)
    (hh : FileEntry.Healthy v.stored (FileRead.env m.files m.compare n.inode)) {size : Nat} (hsize : v.stored.size? = some size) (hlt : size < 2 ^ 63)
    (ha : ∀ x ∈ v.attributes, ∃ name, (∀ c ∈ name, Scalar c ∧ c ≠ 0) ∧ x.name = Utf8.encode name) (ho : OneLine v) {name : List Nat} (hname : Nameable name) (hnode : nodeName m.una n = ok (Utf8.encode name))
    (hadded : ∀ r, n.record = some r → r.added < 2 ^ 64) :
    ∃ text, fileText m clock n = ok text ∧ ShowsFile read (·.fixed.created) (·.fixed.modified) v name (n.record.map (·.added)) text := by
  have hm := hn.mirrors
  have hf := hm.fits
  obtain ⟨t1, t2, t3⟩ := linkTarget_file hL hv hh (reached_entryOf hm)
  have htarget : ∃ target, (Bodyfile.linkTarget m.una (FileRead.env m.files m.compare n.inode) (FileRead.entryOf n.inode)).1 = ok target ∧
      ∃ rows, (∀ r, entries (targetLine target ++ r) = rows ++ entries r) ∧ (v.stored.attribute? symlink = none → rows = []) ∧ ∀ t, LinksTo v t → rows = [row "Symbolic link target" (Utf8.encode t)] := by
    rcases ho.1 with h | ⟨target, h, hpl⟩
    · refine ⟨none, t2 h, [], fun r => rfl, fun _ => rfl, fun t ht => ?_⟩
      rw [ht.value] at h
      cases h
    · have hcs : cString (Utf8.encode target) = Utf8.encode target := PathString.cString_eq (encode_nonzero (cs := target) h.characters)
      refine ⟨some (Utf8.encode target), t3 target h, [row "Symbolic link target" (Utf8.encode target)], fun r => ?_, fun hno => ?_, fun t ht => ?_⟩
      · unfold targetLine
        dsimp only
        rw [hcs, entries_line (label := "Symbolic link target") (labels_of (by decide)) hpl]
        rfl
      · rw [h.value] at hno
        cases hno
      · have := Option.some.inj (h.value.symm.trans ht.value)
        unfold storedName at this
        rw [List.append_cancel_right this]
  obtain ⟨target, g1, targetRows, g2, g3, g4⟩ := htarget
  have hsz : (FileEntry.getSize (FileRead.env m.files m.compare n.inode) (Bodyfile.linkTarget m.una (FileRead.env m.files m.compare n.inode) (FileRead.entryOf n.inode)).2).1 = ok size ∧
      FileEntry.Reached v.stored (FileEntry.getSize (FileRead.env m.files m.compare n.inode) (Bodyfile.linkTarget m.una (FileRead.env m.files m.compare n.inode) (FileRead.entryOf n.inode)).2).2 := by
    refine ⟨?_, .call (FileRead.env m.files m.compare n.inode) .size t1 hh.faithful⟩
    refine c40_size_available _ hv _ t1 _ hh ?_ size hsize
    intro mt k hk
    unfold StoredFile.size? at hsize
    rw [hk] at hsize
    have := Option.some.inj hsize
    omega
  obtain ⟨attributes, a1, a2, a3⟩ := attributesText_good hL hv hh hsz.2 ha ho.2
  have hdevice : ∃ rows, (∀ r, entries (deviceLine n.inode ++ r) = rows ++ entries r) ∧ (v.type ≠ 2 ∧ v.type ≠ 6 → rows = []) ∧ ∀ x ∈ rows, ∃ value, x = row "Device number" value := by
    unfold deviceLine
    cases hd : Records.deviceNumber n.inode with
    | none => exact ⟨[], fun r => rfl, fun _ => rfl, fun x hx => nomatch hx⟩
    | some d =>
      obtain ⟨major, minor⟩ := d
      refine ⟨[row "Device number" (PathString.decimal major ++ [0x2c] ++ PathString.decimal minor)], fun r => ?_, fun ⟨k1, k2⟩ => ?_, fun x hx => ⟨_, List.mem_singleton.1 hx⟩⟩
      · dsimp only
        rw [entries_line (label := "Device number") (labels_of (by decide))]
        · rfl
        · have h1 := decimal_line major
          have h2 := decimal_line minor
          simp only [List.mem_append, not_or]
          exact ⟨⟨h1, by decide⟩, h2⟩
      · exfalso
        have ht := type_of_mode hm
        unfold Records.deviceNumber at hd
        rw [if_neg (by omega)] at hd
        cases hd
  obtain ⟨deviceRows, d1, d2, d3⟩ := hdevice
  obtain ⟨created, c1, c2, c3⟩ := timeLine_good hC "\tCreation time\t\t" hf.modified
  obtain ⟨modified, m1, m2, m3⟩ := timeLine_good hC "\tModification time\t" hf.created
  obtain ⟨changed, i1, i2, i3⟩ := timeLine_good hC "\tInode change time\t" hf.changed
  obtain ⟨accessed, x1, x2, x3⟩ := timeLine_good hC "\tAccess time\t\t" hf.accessed
  rw [← hn.creation] at c1
  rw [← hm.modification] at m1
  rw [← hm.change] at i1
  rw [← hm.access] at x1
  have hadd : ∃ text rows, addedLine clock n.record = ok text ∧ (∀ r, entries (text ++ r) = rows ++ entries r) ∧
      (match n.record.map (·.added) with | none => rows = [] | some t => ∃ value, rows = [row "Added time" value] ∧ TimeIs read t value) := by
    cases hr : n.record with
    | none => exact ⟨[], [], rfl, fun r => rfl, rfl⟩
    | some r =>
      obtain ⟨value, k1, k2, k3⟩ := timeLine_good hC "\tAdded time\t\t" (hadded r hr)
      exact ⟨_, [row "Added time" value], k1, fun r => by rw [entries_line (label := "Added time") (labels_of (by decide)) k3]; rfl, value, rfl, k2⟩
  obtain ⟨added, addedRows, e1, e2, e3⟩ := hadd
  have hshown : (0x0a : UInt8) ∉ name.flatMap (escaped .info) := fun h => absurd (mem_flatMap_escaped hname.characters h).1 (by decide)
  refine ⟨line "\tIdentifier\t\t" (PathString.decimal n.inode.identifier) ++ line "\tName\t\t\t" (name.flatMap (escaped .info)) ++ line "\tSize\t\t\t" (PathString.decimal size) ++
    line "\tCreation time\t\t" created ++ line "\tModification time\t" modified ++ line "\tInode change time\t" changed ++ line "\tAccess time\t\t" accessed ++ added ++
    line "\tNumber of links\t\t" (PathString.decimal n.inode.links) ++ line "\tOwner identifier\t" (PathString.decimal n.inode.owner) ++ line "\tGroup identifier\t" (PathString.decimal n.inode.group) ++
    line "\tFile mode\t\t" (modeString n.inode.mode ++ ascii " (" ++ octal7 n.inode.mode ++ ascii ")") ++ deviceLine n.inode ++ targetLine target ++ attributes, ?_, ?_⟩
  · unfold fileText
    rw [hnode, ok_bind]
    dsimp only
    cases hq : Bodyfile.linkTarget m.una (FileRead.env m.files m.compare n.inode) (FileRead.entryOf n.inode) with
    | mk a e =>
      rw [hq] at g1 hsz a1
      dsimp only at g1 hsz a1 ⊢
      subst g1
      dsimp only
      cases hz : FileEntry.getSize (FileRead.env m.files m.compare n.inode) e with
      | mk a e' =>
        rw [hz] at hsz a1
        dsimp only at hsz a1 ⊢
        rw [hsz.1]
        dsimp only
        rw [copyFrom_escaped hL.text .info name hname.characters hname.nonempty hname.size, ok_bind, a1, ok_bind]
        unfold valueLines
        rw [c1, ok_bind, m1, ok_bind, i1, ok_bind, x1, ok_bind, e1, ok_bind]
  · refine ⟨PathString.decimal n.inode.identifier, name.flatMap (escaped .info), PathString.decimal size, created, modified, changed, accessed, PathString.decimal n.inode.links,
      PathString.decimal n.inode.owner, PathString.decimal n.inode.group, _, size, addedRows, deviceRows, targetRows, entries attributes, ?_, ?_, ?_, hsize, number_decimal _, c2, m2, i2, x2, e3, ?_, ?_, ?_,
      hm.mode ▸ mode_shown n.inode.mode, d2, d3, g3, g4, a2, a3⟩
    · simp only [List.append_assoc]
      rw [entries_line (label := "Identifier") (labels_of (by decide)) (decimal_line _), entries_line (label := "Name") (labels_of (by decide)) hshown,
        entries_line (label := "Size") (labels_of (by decide)) (decimal_line _), entries_line (label := "Creation time") (labels_of (by decide)) c3,
        entries_line (label := "Modification time") (labels_of (by decide)) m3, entries_line (label := "Inode change time") (labels_of (by decide)) i3,
        entries_line (label := "Access time") (labels_of (by decide)) x3, e2, entries_line (label := "Number of links") (labels_of (by decide)) (decimal_line _),
        entries_line (label := "Owner identifier") (labels_of (by decide)) (decimal_line _), entries_line (label := "Group identifier") (labels_of (by decide)) (decimal_line _),
        entries_line (label := "File mode") (labels_of (by decide)) (by simpa only [List.append_assoc] using mode_line n.inode.mode), d1, g2]
      simp [hm.mode]
    · rw [number_decimal, hm.identifier]
    · have := unescape_flatMap .info name hname.characters []
      rw [List.append_nil] at this
      rw [this]
      simp [Escape.unescape]
    · rw [number_decimal, hn.links]
    · rw [number_decimal, hn.owner]
    · rw [number_decimal, hn.group]

/-! Files of a volume -/

/-- the file system of a volume -/
structure FileTree (m : Mounted) (s : Storage) (xid : Nat) (rs : List Record) (image : Nat → Option Bytes) (cipher : Option (Cipher × Cipher)) : Prop where
  serves : Serves m.files s xid image cipher
  holds : FsHolds s xid rs
  types : ∀ r ∈ rs, 3 ≤ fsType r.1
  root : ∃ r ∈ rs, IsOf 2 3 r

/-- The records and blocks of a volume hold a file, which does not have to be in a directory. -/
structure KeepsFile (m : Mounted) (rs : List Record) (image : Nat → Option Bytes) (enc : Option (Bytes → Bytes → Bytes)) (v : VolumeFile) : Prop where
  inode : ∃ r ∈ rs, InodeRecord r v
  file : FileIn rs image enc v.stored v.fixed.dataStream
  size : ∃ n, v.stored.size? = some n ∧ n < 2 ^ 63
  named : v.name ≠ [] ∧ (∀ x ∈ v.name, Scalar x ∧ x ≠ 0) ∧ (Utf8.encode v.name).length < 65535
  attributes : ∀ x ∈ v.attributes, ∃ name, (∀ x ∈ name, Scalar x ∧ x ≠ 0) ∧ x.name = Utf8.encode name
  compares : Compares m.compare v.stored

section
variable {s : Storage} {xid : Nat} {rs : List Record} {image : Nat → Option Bytes} {cipher : Option (Cipher × Cipher)} {V : View} {clock : Int → Res Bytes} {read : Bytes → Option Int}

theorem Mounts.fileTree (hS : Mounts m s xid rs image cipher V) : FileTree m s xid rs image cipher := ⟨hS.serves, hS.holds, hS.has.types, hS.root⟩

theorem Mounts.kept (hS : Mounts m s xid rs image cipher V) {i : Nat} (hr : Reach V.dirs i) : KeepsFile m rs image (cipher.map (·.1)) (V.file i) :=
  ⟨hS.has.inode i hr, hS.has.file i hr, hS.has.size i hr, hS.has.named i hr, hS.has.attributes i hr, hS.compares i hr⟩

theorem kept_found (hT : FileTree m s xid rs image cipher) {v : VolumeFile} (hK : KeepsFile m rs image (cipher.map (·.1)) v) :
    ∃ n, FileRead.byIdentifier m.files v.identifier = ok (some n) ∧ InodeShows n v := by
  obtain ⟨r, h1, h2⟩ := hK.inode
  obtain ⟨n, h3, h4⟩ := record_shows h2 hK.file.identifier
  refine ⟨n, ?_, h4⟩
  unfold FileRead.byIdentifier
  rw [hT.serves.tree, hT.serves.xid, (c19_lookup_partial s xid rs hT.holds v.identifier hK.file.identifier hK.file.one hT.types).1 r h1 (isOf_record h2 hK.file.identifier), h3]
  rfl

theorem kept_missing (hT : FileTree m s xid rs image cipher) {i : Nat} (hi : i < 2 ^ 60) (h : ∀ r ∈ rs, ¬ IsOf i 3 r) : FileRead.byIdentifier m.files i = ok none := by
  unfold FileRead.byIdentifier
  rw [hT.serves.tree, hT.serves.xid]
  exact (c19_lookup_partial s xid rs hT.holds i hi (List.pairwise_of_forall_mem_list fun a ha b _ hab => h a ha hab.1) hT.types).2 h

theorem kept_nameable {v : VolumeFile} (hK : KeepsFile m rs image (cipher.map (·.1)) v) : Nameable v.name :=
  ⟨hK.named.1, hK.named.2.1, by have := hK.named.2.2; unfold ssizeMax; omega⟩

theorem kept_text (hL : Libraries m) (hC : Clock clock read) (hT : FileTree m s xid rs image cipher) {v : VolumeFile} (hK : KeepsFile m rs image (cipher.map (·.1)) v) (ho : OneLine v) {n : FileNode}
    (hn : InodeShows n.inode v) {name : List Nat} (hname : Nameable name) (hnode : nodeName m.una n = ok (Utf8.encode name)) (hadded : ∀ r, n.record = some r → r.added < 2 ^ 64) :
    ∃ text, fileText m clock n = ok text ∧ ShowsFile read (·.fixed.created) (·.fixed.modified) v name (n.record.map (·.added)) text := by
  obtain ⟨size, h1, h2⟩ := hK.size
  exact fileText_good hL hC hn hK.file.valid (healthy_env hT.serves hT.holds hT.root hK.file hK.compares hn.mirrors.readsAs) h1 h2 hK.attributes ho hname hnode hadded

theorem nodeName_inode (hL : Libraries m) {v : VolumeFile} (hc : ∀ x ∈ v.name, Scalar x ∧ x ≠ 0) {n : Records.Inode} (hn : InodeShows n v) :
    nodeName m.una { inode := n, record := none } = ok (Utf8.encode v.name) := by
  unfold nodeName
  dsimp only
  rw [hn.mirrors.name]
  exact hL.names _ hc

/-- a file entry with the lines around it -/
def block (text : Bytes) : Bytes := ascii "File entry:\n" ++ text ++ ascii "\n"

theorem fileBlock_ok {n : FileNode} {text : Bytes} (h : fileText m clock n = ok text) : fileBlock m clock n = (block text, ok ()) := by
  unfold fileBlock block
  rw [h, andThen_ok]
  simp only [Out.need]
  rw [List.append_assoc]
  rfl

/-- **C71, identifiers.** Asked for the identifier of a file of the volume, fsapfsinfo prints a text that shows this file: identifier, name, size, times, links, owner, group, mode, target and extended attributes.

What is missing: the times of creation and modification are each shown as the other, refuted by `c71_swapped`; targets and names of extended attributes with a line feed, refuted by `c71_forged`; files without name. -/
theorem c71_identifier_partial (hL : Libraries m) (hC : Clock clock read) (hT : FileTree m s xid rs image cipher) {v : VolumeFile} (hK : KeepsFile m rs image (cipher.map (·.1)) v) (ho : OneLine v) :
    ∃ text, Info.byIdentifier m clock v.identifier = (block text, ok ()) ∧ ShowsFile read (·.fixed.created) (·.fixed.modified) v v.name none text := by
  obtain ⟨n, h1, h2⟩ := kept_found hT hK
  obtain ⟨text, h3, h4⟩ := kept_text hL hC hT hK ho (n := { inode := n, record := none }) h2 (kept_nameable hK) (nodeName_inode hL hK.named.2.1 h2) (fun _ h => nomatch h)
  refine ⟨text, ?_, h4⟩
  unfold Info.byIdentifier
  rw [h1]
  exact fileBlock_ok h3

/-- **C71, identifiers that no file has**: an error. -/
theorem c71_missing (hT : FileTree m s xid rs image cipher) {i : Nat} (hi : i < 2 ^ 60) (h : ∀ r ∈ rs, ¬ IsOf i 3 r) : Info.byIdentifier m clock i = ([], err) := by
  unfold Info.byIdentifier
  rw [kept_missing hT hi h]
  rfl

theorem timeIs_unique {a b : Nat} {value : Bytes} (ha : a < 2 ^ 64) (hb : b < 2 ^ 64) (h1 : TimeIs read a value) (h2 : TimeIs read b value) : a = b := by
  have zero : ∀ {s : Bytes}, chars (s ++ [0x5a]) = "Not set (0)".toList → False := by
    intro s h
    have h := congrArg List.getLast? h
    unfold chars at h
    rw [List.map_append, List.map_cons, List.map_nil, List.getLast?_concat] at h
    exact absurd h (by decide)
  by_cases h0 : a = 0
  · by_cases h0' : b = 0
    · omega
    · obtain ⟨s, rfl, _⟩ := h2.2 h0'
      exact (zero (h1.1 h0)).elim
  · obtain ⟨s, rfl, k1⟩ := h1.2 h0
    by_cases h0' : b = 0
    · exact (zero (h2.1 h0')).elim
    · obtain ⟨t, k2, k3⟩ := h2.2 h0'
      have := List.append_cancel_right k2
      subst this
      rw [k1] at k3
      have := Option.some.inj k3
      unfold Spec.Info.signed at this
      split at this <;> split at this <;> omega

/-- **C71, refuted: times.** If the times of creation and modification of a file are different then each of them is shown as the other one. -/
theorem c71_swapped (hL : Libraries m) (hC : Clock clock read) (hT : FileTree m s xid rs image cipher) {v : VolumeFile} (hK : KeepsFile m rs image (cipher.map (·.1)) v) (ho : OneLine v)
    (hne : v.fixed.created ≠ v.fixed.modified) :
    ¬ ∃ text, Info.byIdentifier m clock v.identifier = (block text, ok ()) ∧ ShowsFile read (·.fixed.modified) (·.fixed.created) v v.name none text := by
  rintro ⟨text, h1, h2⟩
  obtain ⟨text', h3, h4⟩ := c71_identifier_partial hL hC hT hK ho
  rw [h3] at h1
  have : text' = text := by
    have := (Prod.mk.inj h1).1
    unfold block at this
    exact List.append_cancel_left (List.append_cancel_right this)
  subst this
  obtain ⟨_, _, _, c1, _, _, _, _, _, _, _, _, _, _, _, _, e1, _, _, _, _, t1, _⟩ := h2
  obtain ⟨_, _, _, c2, _, _, _, _, _, _, _, _, _, _, _, _, e2, _, _, _, _, t2, _⟩ := h4
  rw [e1] at e2
  have hc : c1 = c2 := by
    simp only [List.cons_append, List.cons.injEq, row] at e2
    exact (Prod.mk.inj (Option.some.inj e2.2.2.2.1)).2
  subst hc
  obtain ⟨r, _, hr⟩ := hK.inode
  exact hne (timeIs_unique hr.fits.created hr.fits.modified t1 t2)

/-! All files -/

/-- what is printed for identifiers, and which files they are of -/
theorem entriesFrom_good (hL : Libraries m) (hC : Clock clock read) (hT : FileTree m s xid rs image cipher) (count : Nat) : ∀ start : Nat, start + count ≤ 2 ^ 60 →
    (∀ i, start ≤ i → i < start + count → (∀ r ∈ rs, ¬ IsOf i 3 r) ∨ ∃ v, v.identifier = i ∧ KeepsFile m rs image (cipher.map (·.1)) v ∧ OneLine v) →
    ∃ vs texts, Info.entriesFrom m clock count start = (texts.flatMap block, ok ()) ∧ Each (fun v text => ShowsFile read (·.fixed.created) (·.fixed.modified) v v.name none text) vs texts ∧
      (vs.map (·.identifier)).Pairwise (· < ·) ∧ (∀ v ∈ vs, KeepsFile m rs image (cipher.map (·.1)) v) ∧ ∀ i, i ∈ vs.map (·.identifier) ↔ (start ≤ i ∧ i < start + count ∧ ∃ r ∈ rs, IsOf i 3 r) := by
  induction count with
  | zero => exact fun start _ _ => ⟨[], [], rfl, .nil, .nil, (fun _ h => nomatch h), fun i => by simp; omega⟩
  | succ count ih =>
    intro start hlt h
    obtain ⟨vs, texts, h1, h2, h3, h4, h5⟩ := ih (start + 1) (by omega) (fun i h1 h2 => h i (by omega) (by omega))
    rw [Info.entriesFrom]
    rcases h start (by omega) (by omega) with hno | ⟨v, rfl, hK, ho⟩
    · rw [kept_missing hT (by omega) hno, h1]
      refine ⟨vs, texts, rfl, h2, h3, h4, fun i => ?_⟩
      rw [h5 i]
      constructor
      · rintro ⟨a, b, c⟩
        exact ⟨by omega, by omega, c⟩
      · rintro ⟨a, b, r, hr, hi⟩
        refine ⟨?_, by omega, r, hr, hi⟩
        by_cases he : start = i
        · subst he; exact absurd hi (hno r hr)
        · omega
    · obtain ⟨text, t1, t2⟩ := c71_identifier_partial (clock := clock) hL hC hT hK ho
      obtain ⟨n, n1, _⟩ := kept_found hT hK
      refine ⟨v :: vs, text :: texts, ?_, .cons t2 h2, ?_, ?_, fun i => ?_⟩
      · unfold Info.byIdentifier at t1
        rw [n1] at t1 ⊢
        simp only [Out.need] at t1 ⊢
        rw [t1, h1]
        rfl
      · rw [List.map_cons, List.pairwise_cons]
        exact ⟨fun i hi => by have := (h5 i).1 hi; omega, h3⟩
      · intro x hx
        rcases List.mem_cons.1 hx with rfl | hx
        · exact hK
        · exact h4 x hx
      · rw [List.map_cons, List.mem_cons, h5 i]
        constructor
        · rintro (rfl | ⟨a, b, c⟩)
          · obtain ⟨r, r1, r2⟩ := hK.inode
            exact ⟨by omega, by omega, r, r1, isOf_record r2 hK.file.identifier⟩
          · exact ⟨by omega, by omega, c⟩
        · rintro ⟨a, b, c⟩
          by_cases he : i = v.identifier
          · exact .inl he
          · exact .inr ⟨by omega, by omega, c⟩

/-- **C71, all files.** With `-E all`, fsapfsinfo prints a text for each inode of the volume below the next free identifier, once and in the order of identifiers, and nothing else.

What is missing: as in `c71_identifier_partial`. -/
theorem c71_all_partial (hL : Libraries m) (hC : Clock clock read) (hT : FileTree m s xid rs image cipher) {next : Nat} (hnext : next ≤ 2 ^ 60)
    (h : ∀ i < next, (∀ r ∈ rs, ¬ IsOf i 3 r) ∨ ∃ v, v.identifier = i ∧ KeepsFile m rs image (cipher.map (·.1)) v ∧ OneLine v) :
    ∃ vs texts, Info.entriesFrom m clock next 0 = (texts.flatMap block, ok ()) ∧ Each (fun v text => ShowsFile read (·.fixed.created) (·.fixed.modified) v v.name none text) vs texts ∧
      (vs.map (·.identifier)).Pairwise (· < ·) ∧ (∀ v ∈ vs, KeepsFile m rs image (cipher.map (·.1)) v) ∧ ∀ i, i ∈ vs.map (·.identifier) ↔ (i < next ∧ ∃ r ∈ rs, IsOf i 3 r) := by
  obtain ⟨vs, texts, h1, h2, h3, h4, h5⟩ := entriesFrom_good hL hC hT next 0 (by omega) (fun i _ hi => h i (by omega))
  refine ⟨vs, texts, h1, h2, h3, h4, fun i => ?_⟩
  rw [h5 i]
  simp

end

/-- **C71, no silent omissions.** If fsapfsinfo does not report an error then each identifier below the next free one has no inode, or its text was printed. -/
theorem c71_no_omission {clock : Int → Res Bytes} : ∀ {count start : Nat}, (Info.entriesFrom m clock count start).2 = ok () → ∀ {i : Nat}, start ≤ i → i < start + count →
    FileRead.byIdentifier m.files i = ok none ∨
    ∃ n text a b, FileRead.byIdentifier m.files i = ok (some n) ∧ fileText m clock { inode := n, record := none } = ok text ∧ (Info.entriesFrom m clock count start).1 = a ++ block text ++ b
  | 0, start, _, i, h1, h2 => by omega
  | count + 1, start, h, i, h1, h2 => by
    rw [Info.entriesFrom] at h ⊢
    generalize hx : Out.need (FileRead.byIdentifier m.files start) (fun i => match i with | none => ([], ok ()) | some i => fileBlock m clock { inode := i, record := none }) = x at h ⊢
    obtain ⟨out, r⟩ := x
    cases r with
    | err => cases h
    | ub => cases h
    | ok u =>
      rw [show (out, ok u) = (out, ok ()) from rfl, andThen_ok] at h ⊢
      by_cases he : i = start
      · subst he
        cases hf : FileRead.byIdentifier m.files i with
        | err => rw [hf] at hx; cases hx
        | ub => rw [hf] at hx; cases hx
        | ok o =>
          cases o with
          | none => exact .inl rfl
          | some n =>
            rw [hf] at hx
            simp only [Out.need] at hx
            cases ht : fileText m clock { inode := n, record := none } with
            | err => unfold fileBlock at hx; rw [ht] at hx; cases hx
            | ub => unfold fileBlock at hx; rw [ht] at hx; cases hx
            | ok text =>
              rw [fileBlock_ok ht] at hx
              have := (Prod.mk.inj hx).1
              subst this
              exact .inr ⟨n, text, [], _, rfl, ht, rfl⟩
      · rcases c71_no_omission (count := count) (start := start + 1) h (i := i) (by omega) (by omega) with h | ⟨n, text, a, b, k1, k2, k3⟩
        · exact .inl h
        · exact .inr ⟨n, text, out ++ a, b, k1, k2, by dsimp only; rw [k3]; simp⟩

/-- **C71, files without name.** An inode without name ends `-E all` with an error, and the files behind it are not shown. -/
theorem c71_nameless {clock : Int → Res Bytes} {count i : Nat} (hi : i < count) {n : Records.Inode} (h : FileRead.byIdentifier m.files i = ok (some n)) (hn : n.name = none) :
    (Info.entriesFrom m clock count 0).2 ≠ ok () := by
  intro hok
  rcases c71_no_omission hok (i := i) (by omega) (by omega) with h' | ⟨n', text, _, _, k1, k2, _⟩
  · rw [h] at h'; cases h'
  · rw [h] at k1
    cases k1
    unfold fileText nodeName at k2
    dsimp only at k2
    rw [hn] at k2
    cases k2

/-! Extended attributes with a line feed -/

/-- the text of attributes whose names are one line or more -/
theorem attributeLines_names (hL : Libraries m) : ∀ (names : List (List Nat)) (k : Nat) (xs : List Records.Attribute), (∀ n ∈ names, PathString.Name n) → xs.map (·.name) = names.map storedName →
    attributeLines m.una k xs = ok ((names.zipIdx k).flatMap fun p => ascii "\t\tAttribute: " ++ PathString.decimal (p.2 + 1) ++ ascii "\t: " ++ Utf8.encode p.1 ++ [0x0a])
  | [], k, [], _, _ => rfl
  | [], _, _ :: _, _, h => nomatch h
  | _ :: _, _, [], _, h => nomatch h
  | n :: names, k, x :: xs, hn, h => by
    simp only [List.map_cons, List.cons.injEq] at h
    rw [attributeLines, h.1, hL.names n (hn n (by simp)), ok_bind, attributeLines_names hL names (k + 1) xs (fun n hm => hn n (by simp [hm])) h.2, ok_bind,
      PathString.cString_eq (encode_nonzero (hn n (by simp)))]
    rw [List.zipIdx_cons, List.flatMap_cons]

theorem encode_ascii : ∀ {l : List Nat}, (∀ c ∈ l, c < 0x80) → Utf8.encode l = l.map UInt8.ofNat
  | [], _ => rfl
  | c :: l, h => by
    rw [encode_cons, encode_ascii (fun x hx => h x (by simp [hx]))]
    unfold Utf8.encodeChar
    rw [if_pos (h c (by simp))]
    rfl

/-- the name of an extended attribute that looks like the second of two -/
def forged (a b : List Nat) : List Nat := a ++ "\n\t\tAttribute: 2\t: ".toList.map (·.toNat) ++ b

/-- **C71, refuted: extended attributes.** The text of a file with the extended attributes `a` and `b` is also that of a file with one extended attribute, whose name has a line feed. -/
theorem c71_forged (hL : Libraries m) {a b : List Nat} (ha : PathString.Name a) (hb : PathString.Name b) {x y z : Records.Attribute} (hx : x.name = storedName a) (hy : y.name = storedName b)
    (hz : z.name = storedName (forged a b)) :
    PathString.Name (forged a b) ∧ attributeLines m.una 0 [z] = attributeLines m.una 0 [x, y] ∧ attributeLines m.una 0 [z] ≠ err ∧ attributeLines m.una 0 [z] ≠ ub := by
  have hm : ∀ c ∈ "\n\t\tAttribute: 2\t: ".toList.map (·.toNat), c < 0x80 ∧ c ≠ 0 := by decide
  have hn : PathString.Name (forged a b) := by
    intro c hc
    unfold forged at hc
    rcases List.mem_append.1 hc with hc | hc
    · rcases List.mem_append.1 hc with hc | hc
      · exact ha c hc
      · have := hm c hc
        exact ⟨by unfold Scalar; omega, this.2⟩
    · exact hb c hc
  rw [attributeLines_names hL [forged a b] 0 [z] (by simpa using hn) (by simp [hz]), attributeLines_names hL [a, b] 0 [x, y] (by simpa using ⟨ha, hb⟩) (by simp [hx, hy])]
  refine ⟨hn, ?_, nofun, nofun⟩
  congr 1
  simp only [List.zipIdx_cons, List.zipIdx_nil, List.flatMap_cons, List.flatMap_nil, forged, encode_append]
  rw [encode_ascii fun c hc => (hm c hc).1,
    show ("\n\t\tAttribute: 2\t: ".toList.map (·.toNat)).map UInt8.ofNat = [0x0a] ++ ascii "\t\tAttribute: " ++ PathString.decimal (0 + 1 + 1) ++ ascii "\t: " from by decide +kernel]
  simp

/-! Paths -/

theorem hexDigit_byte (v : Nat) : 0x30 ≤ (PathString.hexDigit (v % 16)).toNat ∧ (PathString.hexDigit (v % 16)).toNat < 0x80 := by
  have : ∀ v : Fin 16, 0x30 ≤ (PathString.hexDigit v.1).toNat ∧ (PathString.hexDigit v.1).toNat < 0x80 := by decide +kernel
  exact this ⟨v % 16, Nat.mod_lt _ (by decide)⟩

theorem hex_byte (n : Nat) : ∀ v, ∀ b ∈ PathString.hex n v, 0x30 ≤ b.toNat ∧ b.toNat < 0x80 := by
  induction n with
  | zero => intro v b hb; cases hb
  | succ n ih =>
    intro v b hb
    rw [PathString.hex] at hb
    rcases List.mem_append.1 hb with h | h
    · exact ih _ b h
    · cases List.mem_singleton.1 h
      exact hexDigit_byte v

/-- an escaped text is a text -/
theorem escaped_text (t : List Nat) (ht : PathString.Name t) : ∃ u, PathString.Name u ∧ (t ≠ [] → u ≠ []) ∧ t.flatMap (escaped .info) = Utf8.encode u := by
  have bytes : ∀ l : Bytes, (∀ b ∈ l, 0 < b.toNat ∧ b.toNat < 0x80) → PathString.Name (l.map (·.toNat)) ∧ l = Utf8.encode (l.map (·.toNat)) := by
    intro l hl
    have h1 : ∀ c ∈ l.map (·.toNat), 0 < c ∧ c < 0x80 := by
      intro c hc
      obtain ⟨b, hb, rfl⟩ := List.mem_map.1 hc
      exact hl b hb
    refine ⟨fun c hc => ⟨by have := h1 c hc; unfold Scalar; omega, by have := h1 c hc; omega⟩, ?_⟩
    rw [encode_ascii (fun c hc => (h1 c hc).2), List.map_map]
    have : (UInt8.ofNat ∘ fun b : UInt8 => b.toNat) = id := by
      funext b
      simp
    rw [this, List.map_id]
  induction t with
  | nil => exact ⟨[], (fun _ h => nomatch h), (fun h => absurd rfl h), rfl⟩
  | cons c t ih =>
    obtain ⟨u, h1, _, h3⟩ := ih (fun x hx => ht x (by simp [hx]))
    have hc := ht c (by simp)
    obtain ⟨w, w1, w2, w3⟩ : ∃ w, PathString.Name w ∧ w ≠ [] ∧ escaped .info c = Utf8.encode w := by
      have of_bytes : ∀ l : Bytes, 1 ≤ l.length → (∀ b ∈ l, 0 < b.toNat ∧ b.toNat < 0x80) → ∃ w, PathString.Name w ∧ w ≠ [] ∧ l = Utf8.encode w := by
        intro l h1 hl
        refine ⟨l.map (·.toNat), (bytes l hl).1, ?_, (bytes l hl).2⟩
        intro h
        rw [List.map_eq_nil_iff.1 h] at h1
        simp at h1
      unfold escaped
      by_cases g1 : PathString.isControl .info c = true
      · rw [if_pos g1]
        refine of_bytes _ (by simp) fun b hb => ?_
        rcases List.mem_cons.1 hb with rfl | hb
        · decide
        · rcases List.mem_cons.1 hb with rfl | hb
          · decide
          · have := hex_byte _ _ b hb; omega
      · rw [if_neg g1]
        by_cases g2 : PathString.isUnprintable c = true
        · rw [if_pos g2]
          refine of_bytes _ (by simp) fun b hb => ?_
          rcases List.mem_cons.1 hb with rfl | hb
          · decide
          · rcases List.mem_cons.1 hb with rfl | hb
            · decide
            · have := hex_byte _ _ b hb; omega
        · rw [if_neg g2]
          by_cases g3 : c = 0x5c
          · rw [if_pos (Or.inl g3)]
            subst g3
            exact of_bytes _ (by decide) (by decide)
          · rw [if_neg (by rintro (h | h); exact g3 h; exact absurd h.1 (by decide))]
            refine ⟨[c], ?_, by simp, by rw [encode_cons]; simp [Utf8.encode]⟩
            intro x hx
            cases List.mem_singleton.1 hx
            exact hc
    refine ⟨w ++ u, ?_, fun _ h => w2 (List.append_eq_nil_iff.1 h).1, ?_⟩
    · intro x hx
      rcases List.mem_append.1 hx with h | h
      · exact w1 x h
      · exact h1 x h
    · rw [List.flatMap_cons, encode_append, w3, h3]

/-- a text leads to something with a name -/
theorem text_name {V : View} {x : Py.Seen} {t : List Nat} {y : Option Py.Seen} (h : Py.Text V x t y) : ∀ z, y = some z → ∀ e, z.entry = some e → e.name ≠ [] ∨ x.entry = some e := by
  have walk : ∀ {x : Py.Seen} {names : List (List Nat)} {y : Option Py.Seen}, Py.Walk V x names y → (∀ n ∈ names, n ≠ []) → ∀ z, y = some z → ∀ e, z.entry = some e → e.name ≠ [] ∨ x.entry = some e := by
    intro x names y h
    induction h with
    | here x => intro _ z hz e he; cases hz; exact .inr he
    | @step x e names t he rest ih =>
      intro hn z hz e' he'
      rcases ih (fun n hm => hn n (by simp [hm])) z hz e' he' with h | h
      · exact .inl h
      · cases h; exact .inl (hn _ (by simp))
    | missing h => intro _ z hz; cases hz
  cases h with
  | path leading trailing h0 hn h1 h2 hw => exact walk hw fun n hm => (hn n hm).nonempty
  | slash => intro z hz e he; cases hz; cases he
  | empty => intro z hz e he; cases hz; cases he

theorem text_characters {V : View} {x : Py.Seen} {t : List Nat} {y : Option Py.Seen} (h : Py.Text V x t y) : PathString.Name t := by
  cases h with
  | @path names _ leading trailing h0 hn h1 h2 hw =>
    have slash : ∀ c, c = 0x2f → Scalar c ∧ c ≠ 0 := by rintro c rfl; exact ⟨by unfold Scalar; omega, by decide⟩
    intro c hc
    unfold pathString at hc
    rcases List.mem_append.1 hc with h | h
    · split at h
      · exact slash c (List.mem_singleton.1 h)
      · cases h
    · rcases List.mem_append.1 h with h | h
      · exact joined_scalar hn c h
      · split at h
        · exact slash c (List.mem_singleton.1 h)
        · cases h
  | slash => intro c hc; cases List.mem_singleton.1 hc; exact ⟨by unfold Scalar; omega, by decide⟩
  | empty => intro c hc; cases hc

section
variable {s : Storage} {xid : Nat} {rs : List Record} {image : Nat → Option Bytes} {cipher : Option (Cipher × Cipher)} {V : View} {clock : Int → Res Bytes} {read : Bytes → Option Int}

/-- the name of a file that a path leads to -/
def seenName (V : View) (x : Py.Seen) : List Nat :=
  match x.entry with
  | some e => e.name
  | none => (V.file x.identifier).name

/-- what precedes the values of a file that a path leads to -/
def pathBlock (shown text : Bytes) : Bytes := Info.heading ++ ascii "File entry:\n" ++ ascii "\tPath\t\t\t: " ++ shown ++ [0x0a] ++ text ++ [0x0a]

/-- **C71, paths.** Asked for the path of a file, escaped as fsapfsinfo and fsapfsmount print names, fsapfsinfo prints the path and a text that shows this file. A path that leads to no file is an error.

What is missing: as in `c71_identifier_partial`, the empty path, and paths that are so long that their sizes do not fit in 63 bits. -/
theorem c71_path_partial (hL : Libraries m) (hC : Clock clock read) (hS : Mounts m s xid rs image cipher V) {t : List Nat} {y : Option Py.Seen} (ht : Py.Text V ⟨2, none⟩ t y) (h0 : t ≠ [])
    (hl : (Utf8.encode t).length ≤ (ssizeMax - 1) / 100) (ho : ∀ z, y = some z → OneLine (V.file z.identifier)) :
    match y with
    | none => Info.byPath m clock (t.flatMap (escaped .info)) = ([], err)
    | some z => ∃ shown text, Info.byPath m clock (t.flatMap (escaped .info)) = (pathBlock shown text, ok ()) ∧ Escape.unescape shown = some (t.flatMap (escaped .info)) ∧ (0x0a : UInt8) ∉ shown ∧
        ShowsFile read (·.fixed.created) (·.fixed.modified) (V.file z.identifier) (seenName V z) (z.entry.map (·.added)) text := by
  have hname := text_characters ht
  have hto : PathString.copyTo m.text 0x2f (t.flatMap (escaped .info)) = ok (Utf8.encode t) := PathString.copyTo_escaped hL.text t hname h0 (by unfold ssizeMax at *; omega)
  have hcs : cString (Utf8.encode t) = Utf8.encode t := PathString.cString_eq (encode_nonzero hname)
  have harg : PyVolume.argument t = some (Utf8.encode t) := by
    apply argument_accepted
    rintro ⟨c, hc, h | h⟩
    · exact h (hname c hc).1
    · exact (hname c hc).2 h
  have hlook := byPath_text hL hS (x := ⟨2, none⟩) .root ht
  have hby : PyVolume.byPath m 2 t = (FileRead.byPath m.text.decoder m.text.decoder 0x2f m.files (Utf8.encode t)).bind fun r => ok (r.map fun r => ({ inode := r.1, record := r.2 } : FileNode)) := by
    unfold PyVolume.byPath
    rw [harg]
    rfl
  dsimp only at hlook
  rw [hby] at hlook
  have hcases : ∀ n, (FileRead.byPath m.text.decoder m.text.decoder 0x2f m.files (Utf8.encode t)).bind (fun r => ok (r.map fun r => ({ inode := r.1, record := r.2 } : FileNode))) = ok n →
      FileRead.byPath m.text.decoder m.text.decoder 0x2f m.files (Utf8.encode t) = ok (n.map fun n => (n.inode, n.record)) := by
    intro n h
    cases hr : FileRead.byPath m.text.decoder m.text.decoder 0x2f m.files (Utf8.encode t) with
    | err => rw [hr] at h; cases h
    | ub => rw [hr] at h; cases h
    | ok r =>
      rw [hr] at h
      cases h
      cases r <;> rfl
  cases y with
  | none =>
    dsimp only
    unfold Info.byPath
    rw [hto]
    simp only [Out.need]
    rw [hcs, hcases _ hlook]
    rfl
  | some z =>
    obtain ⟨⟨inode, record, children⟩, h1, hg⟩ := hlook
    generalize hfn : ({ inode := inode, record := record } : FileNode) = n
    have hin : inode = n.inode := by rw [← hfn]
    have hrn : record = n.record := by rw [← hfn]
    have hshow : InodeShows n.inode (V.file z.identifier) := hin ▸ hg.shows
    have hrec : n.record = z.entry.map (NameLookup.recordOf V.format) := hrn ▸ hg.record
    have hnamed : Nameable (seenName V z) := by
      unfold seenName
      cases he : z.entry with
      | none => exact kept_nameable (hS.kept hg.reach)
      | some e =>
        have hv := hg.valid e he
        refine ⟨?_, hv.name, by have := hv.size; dsimp only; unfold ssizeMax; omega⟩
        rcases text_name ht z rfl e he with h | h
        · exact h
        · cases h
    have hnode : nodeName m.una n = ok (Utf8.encode (seenName V z)) := by
      unfold nodeName seenName
      rw [hrec]
      cases he : z.entry with
      | none =>
        dsimp only [Option.map]
        rw [hshow.mirrors.name]
        exact hL.names _ (hS.kept hg.reach).named.2.1
      | some e => exact hL.names _ (hg.valid e he).name
    obtain ⟨text, h3, h4⟩ := kept_text (clock := clock) hL hC hS.fileTree (hS.kept hg.reach) (ho z rfl) hshow hnamed hnode (by
      intro r hr
      rw [hrec] at hr
      cases he : z.entry with
      | none => rw [he] at hr; cases hr
      | some e => rw [he] at hr; cases hr; exact (hg.valid e he).added)
    obtain ⟨u, u1, u2, u3⟩ := escaped_text t hname
    have hlen : (Utf8.encode u).length ≤ (ssizeMax - 1) / 10 := by
      rw [← u3]
      have : ∀ cs : List Nat, (cs.flatMap (escaped .info)).length ≤ 10 * cs.length := by
        intro cs
        induction cs with
        | nil => simp
        | cons c cs ih => have := PathString.escaped_length .info c; simp only [List.flatMap_cons, List.length_append, List.length_cons]; omega
      have h := this t
      have h' := PathString.encode_length t
      unfold ssizeMax at *
      omega
    refine ⟨u.flatMap (escaped .info), text, ?_, ?_, ?_, ?_⟩
    · unfold Info.byPath
      rw [hto]
      simp only [Out.need]
      rw [hcs, hcases _ h1]
      simp only [Option.map]
      rw [hfn, h3, u3, printName_ok hL.text u1 (u2 h0) hlen]
      simp only [andThen_ok, pathBlock]
      simp
    · rw [u3]
      have := unescape_flatMap .info u u1 []
      rw [List.append_nil] at this
      rw [this]
      simp [Escape.unescape]
    · intro h
      exact absurd (mem_flatMap_escaped u1 h).1 (by decide)
    · rw [show z.entry.map (·.added) = n.record.map (·.added) from by rw [hrec]; cases z.entry <;> rfl]
      exact h4

end

end

end Verif.Props
