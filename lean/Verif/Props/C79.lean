import Verif.Lemmas.Transcode
import Verif.Props.C22
/-!
# C79: looking a file up by UTF-8 and by UTF-16
-/
namespace Verif.Props

open Verif Res BTree FsTree Name Records NameLookup Spec Transcode

/-- **Names.**  For every tree, also a damaged one, and every name the calls for UTF-8 and for UTF-16 do
the same: they find the same entry, find none, or fail. -/
theorem c79_name (dn : Decoder UInt8) (folding : Bool) (sub : Bytes → Res Node) (root : Node) (parent : Nat)
    (name : List Nat) (h : ∀ c ∈ name, Scalar c) :
    lookupName dn utf8 folding sub root parent (Utf8.encode name) =
      lookupName dn utf16 folding sub root parent (Utf16.encode name) :=
  lookupName_same utf8Enc utf16Enc dn folding sub root parent name h

/- `aé😀`, 7 bytes and 4 units -/
example : (∀ c ∈ [0x61, 0xe9, 0x1f600], Scalar c) ∧ (Utf8.encode [0x61, 0xe9, 0x1f600]).length = 7 ∧
    (Utf16.encode [0x61, 0xe9, 0x1f600]).length = 4 := by decide

/-- the paths for which the calls differ: one character with two or three bytes and one unit -/
def OneUnit (path : List Nat) : Prop := ∃ c, path = [c] ∧ 0x80 ≤ c ∧ c < 0x10000

theorem utf_lengths (path : List Nat) (h : ∀ c ∈ path, Scalar c) (hn : ¬ OneUnit path) :
    (Utf8.encode path).length < 2 ↔ (Utf16.encode path).length < 2 := by
  have l8 : ∀ c, 1 ≤ (Utf8.encodeChar c).length := by
    intro c; unfold Utf8.encodeChar; split
    · simp
    · split
      · simp
      · split <;> simp
  have l16 : ∀ c, 1 ≤ (Utf16.encodeChar c).length := by
    intro c; unfold Utf16.encodeChar; split <;> simp
  match path, hn with
  | [], _ => exact Iff.rfl
  | [c], hn =>
    have h1 : ¬ (0x80 ≤ c ∧ c < 0x10000) := fun hc => hn ⟨c, rfl, hc⟩
    simp only [Utf8.encode, Utf16.encode, List.flatMap_cons, List.flatMap_nil, List.append_nil]
    unfold Utf8.encodeChar Utf16.encodeChar
    by_cases h2 : c < 0x80
    · rw [if_pos h2, if_pos (by omega)]; simp
    · rw [if_neg h2, if_neg (by omega), if_neg (by omega), if_neg (by omega)]; simp
  | c :: d :: s, _ =>
    simp only [Utf8.encode, Utf16.encode, List.flatMap_cons, List.length_append]
    have := l8 c; have := l8 d; have := l16 c; have := l16 d
    omega

/-- **Paths (part).**  For every volume, also a damaged one, every directory to start from and every path
but those of one character that has more than one byte and one unit, the calls for UTF-8 and for UTF-16
do the same.  What is missing is false: `c79_one_unit`. -/
theorem c79_path_partial (dn : Decoder UInt8) (folding : Bool) (v : Volume) (xid parent : Nat) (path : List Nat)
    (h : ∀ c ∈ path, Scalar c) (hn : ¬ OneUnit path) (hmax : (Utf8.encode path).length < 2 ^ 63)
    (hmax' : (Utf16.encode path).length < 2 ^ 63) :
    lookupPath dn utf8 0x2f folding v xid parent (Utf8.encode path) =
      lookupPath dn utf16 0x2f folding v xid parent (Utf16.encode path) :=
  lookupPath_same utf8Enc utf16Enc dn 0x2f 0x2f rfl rfl folding v xid parent path h hmax hmax'
    (utf_lengths path h hn)

/-- the same for the calls for a volume -/
theorem c79_file_partial (dn : Decoder UInt8) (f : FileRead.Files) (path : List Nat)
    (h : ∀ c ∈ path, Scalar c) (hn : ¬ OneUnit path) (hmax : (Utf8.encode path).length < 2 ^ 63)
    (hmax' : (Utf16.encode path).length < 2 ^ 63) :
    FileRead.byPath dn utf8 0x2f f (Utf8.encode path) = FileRead.byPath dn utf16 0x2f f (Utf16.encode path) :=
  c79_path_partial dn f.folding f.tree f.xid 2 path h hn hmax hmax'

/- `/é` -/
example : (∀ c ∈ [0x2f, 0xe9], Scalar c) ∧ ¬ OneUnit [0x2f, 0xe9] ∧ (Utf8.encode [0x2f, 0xe9]).length < 2 ^ 63 ∧
    (Utf16.encode [0x2f, 0xe9]).length < 2 ^ 63 := by
  refine ⟨by decide, ?_, by decide, by decide⟩
  rintro ⟨c, hc, _⟩
  simp at hc

/-- **Other decoders.**  The same for every pair of encodings that libuna may read, if the path has less
than two units in both or in none. -/
theorem c79_encodings {α β : Type} [DecidableEq α] [DecidableEq β] {d1 : Decoder α} {d2 : Decoder β} (e1 : Enc d1) (e2 : Enc d2)
    (dn : Decoder UInt8) (sep1 : α) (sep2 : β) (h1 : e1.enc 0x2f = [sep1]) (h2 : e2.enc 0x2f = [sep2]) (folding : Bool)
    (v : Volume) (xid parent : Nat) (s : List Nat) (h : ∀ c ∈ s, Scalar c) (hm1 : (e1.str s).length < 2 ^ 63)
    (hm2 : (e2.str s).length < 2 ^ 63) (hl : (e1.str s).length < 2 ↔ (e2.str s).length < 2) :
    lookupPath dn d1 sep1 folding v xid parent (e1.str s) = lookupPath dn d2 sep2 folding v xid parent (e2.str s) :=
  lookupPath_same e1 e2 dn sep1 sep2 h1 h2 folding v xid parent s h hm1 hm2 hl

example : utf8Enc.enc 0x2f = [0x2f] ∧ utf16Enc.enc 0x2f = [0x2f] := ⟨rfl, rfl⟩

/-- **Paths of one unit (refuted).**  There is a volume without a file `é`: the call for UTF-8 says so,
the call for UTF-16 returns the directory where it starts. -/
theorem c79_one_unit :
    lookupPath utf8 utf8 0x2f false (volumeOf TreeExample.storage) 9 2 (Utf8.encode [0xe9]) = ok none ∧
    (do let r ← lookupPath utf8 utf16 0x2f false (volumeOf TreeExample.storage) 9 2 (Utf16.encode [0xe9])
        return r.map (fun p => p.1.identifier)) = ok (some 2) ∧ OneUnit [0xe9] := by
  refine ⟨by decide +kernel, by decide +kernel, ⟨0xe9, rfl, by decide, by decide⟩⟩

end Verif.Props
