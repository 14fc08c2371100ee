import Verif.Lemmas.PyAttribute
import Verif.Props.C82
/-!
# C88 Extended attributes in Python

Objects for an extended attribute read, seek and tell their offset and size as for the bytes of its value, each with a position of its own, while storage and memory may fail. Arguments that are out of range
raise an exception and leave the position.
-/
namespace Verif.Props
open Verif Res Spec BTree FsTree FileRead
open Verif.FileEntry (attr)
open _root_.Verif.AttributeRead (Env Faithful Working)

variable {F : Files} {s : Storage} {xid : Nat} {files : List Record} {image : Nat → Option Bytes} {cipher : Option (Cipher × Cipher)}

/-- Any history of objects for an extended attribute is one of objects for its value.

What is missing: values in data streams with gaps between extents, attributes that are neither in the record nor in a data stream, see `c88_no_stream`, and reading 2 GiB or more, see `c88_large`. -/
theorem c88_read_partial (hF : Serves F s xid image cipher) (h : FsHolds s xid files) (hroot : ∃ r ∈ files, IsOf 2 3 r) {f : StoredFile} {stream : Nat}
    (hf : FileIn files image (cipher.map (·.1)) f stream) {x : XAttr} (hx : x ∈ f.attributes) (l : List (PyAttribute.Action × Env)) (hl : ∀ y ∈ l, Faithful F (valueExtents F x) y.2) :
    (∀ r ∈ PyAttribute.run F (attr x) l {}, r ≠ ub) ∧ Spec.PyAttribute.Seen x.value [] (PyAttribute.seen F (valueExtents F x) l (PyAttribute.run F (attr x) l {})) := by
  refine PyAttribute.run_spec (hasValue hF h hroot hf hx) ?_ l hl {} [] trivial ⟨rfl, fun _ => trivial⟩
  have := (hf.valid.fits x hx).2
  cases hs : x.stream with
  | none =>
    rw [hs] at this
    exact Nat.lt_trans this (by decide)
  | some p =>
    rw [hs] at this
    exact this.2.1

/-- A value of 2 GiB or more is not read without a size, whatever works. -/
theorem c88_large (F : Files) {a : Records.Attribute} (hs : 2 ^ 31 ≤ a.size) (hm : a.size < 2 ^ 64) (env : Env) (s : AttributeRead.State) (k : Nat) :
    PyAttribute.call F a env s k (.read .missing) = (err, s) := by
  unfold PyAttribute.call
  cases hk : s.handles[k]?.join with
  | none => rfl
  | some h =>
    have hsz : PyAttribute.sizeOf F a env s k = ok a.size := by
      unfold PyAttribute.sizeOf
      simp only [AttributeRead.act, hk, AttributeRead.call, if_true]
    have hst : PyRead.stored a.size = if a.size < 2 ^ 63 then (a.size : Int) else (a.size : Int) - 2 ^ 64 := by
      unfold PyRead.stored
      rw [Nat.mod_eq_of_lt hm]
    have : PyAttribute.opOf (ok a.size) (.read .missing) = err := by
      unfold PyAttribute.opOf
      show (do
        let n ← (ok (PyRead.stored a.size) : Res Int)
        if n = 0 then return none
        require (¬ n < 0)
        require (¬ n > 2147483647)
        return some (ValueOp.read n.toNat)) = err
      rw [ok_bind, hst]
      by_cases h63 : a.size < 2 ^ 63
      · rw [if_pos h63, if_neg (by omega), PyAttribute.require_true (by omega), ok_bind, PyAttribute.require_false (by omega)]
        rfl
      · rw [if_neg h63, if_neg (by omega), PyAttribute.require_false (by omega)]
        rfl
    rw [hsz, this]

/-- A record of an extended attribute with neither flag. Seeking to an offset of -5 succeeds, to one of -1 raises an exception; no value behaves like that. -/
theorem c88_no_stream (F : Files) (btree : Res (List DataStream.Extent)) (env : Env) (hw : Working F btree env) :
    ∃ a, Records.readAttribute (xattrKey 7 [0x78, 0], xattrValue 0 [1, 2]) = ok a ∧
      PyAttribute.run F a [(.get, env), (.call 0 (.seek (-5) 0), env), (.call 0 (.seek (-1) 0), env), (.call 0 (.seek 7 9), env), (.call 0 .getOffset, env), (.call 0 (.read (.int 3)), env)] {} =
        [ok .none_, ok .none_, err, ok .none_, ok (.int 0), ok (.bytes [])] ∧
      ¬ ∃ v, Spec.PyAttribute.Seen v [] (PyAttribute.seen F btree [(.get, env), (.call 0 (.seek (-5) 0), env)] (PyAttribute.run F a [(.get, env), (.call 0 (.seek (-5) 0), env)] {})) := by
  have e : ∀ l, PyAttribute.run F ⟨[0x78, 0], 0, none, 0, 0⟩ ((.get, env) :: l) {} = ok .none_ :: PyAttribute.run F ⟨[0x78, 0], 0, none, 0, 0⟩ l { handles := [some none] } := by
    intro l
    simp [PyAttribute.run, PyAttribute.step, AttributeRead.act, hw.alloc]
  have e2 : PyAttribute.call F ⟨[0x78, 0], 0, none, 0, 0⟩ env { handles := [some none] } 0 (.seek (-5) 0) = (ok .none_, { handles := [some none] }) := by
    simp [PyAttribute.call, PyAttribute.opOf, require, PyAttribute.whenceOf, AttributeRead.act, AttributeRead.call, AttributeRead.getStream, AttributeRead.noStream, PyAttribute.answer]
  refine ⟨{ name := [0x78, 0], flags := 0, data := none, stream := 0, size := 0 }, by decide +kernel, ?_, ?_⟩
  · rw [e]
    simp [PyAttribute.run, PyAttribute.step, PyAttribute.call, PyAttribute.opOf, require, PyAttribute.whenceOf, PyRead.readSize, AttributeRead.act, AttributeRead.call, AttributeRead.getStream, AttributeRead.noStream, PyAttribute.answer]
  · rintro ⟨v, h⟩
    rw [e] at h
    simp only [PyAttribute.run, PyAttribute.step, e2, PyAttribute.seen, List.zipWith_cons_cons, List.zipWith_nil_left, PyAttribute.given, Spec.PyAttribute.Seen] at h
    rcases h with ⟨_, p, h, _⟩ | ⟨h, _⟩
    · generalize hr : some PyAttribute.Value.none_ = r at h
      generalize hc : PyAttribute.Call.seek (-5) 0 = c at h
      cases h <;> first | cases hc; done | (cases hr; done) | skip
      all_goals
        cases hc
        next ht => rcases PyAttribute.target_iff ht with ⟨h1, h2⟩ | ⟨h1, h2⟩ | ⟨h1, h2⟩ <;> omega
    · exact h hw

namespace PyAttributeExample
open ExtentsExample (volume serves)
open Verif.FileExample (plain_blocks hasRoot readme_in inner_in)
open Verif.VolumeExample (readmeFile innerFile)
open AttributeExample (working faithful working_ok)

/-- the attribute of "/Docs/readme", which is in its record -/
example {x : XAttr} (hx : x ∈ readmeFile.attributes) := c88_read_partial serves VolumeExample.holds hasRoot (readme_in plain_blocks) hx
  [(.get, working x), (.call 0 (.read .missing), { working x with alloc := err }), (.call 0 (.seek (-1) 2), working x), (.call 0 (.read .none_), working x)] (by
    intro y hy
    simp only [List.mem_cons, List.not_mem_nil, or_false] at hy
    rcases hy with rfl | rfl | rfl | rfl <;> exact faithful x _ (by simp))

/-- a resource fork, which is in a data stream: storage fails twice -/
example {x : XAttr} (hx : x ∈ innerFile.attributes) := c88_read_partial serves VolumeExample.holds hasRoot (inner_in plain_blocks) hx
  [(.get, working x), (.call 0 (.readAt (.int 10) 4), { working x with btree := err }), (.call 0 (.readAt (.int 10) 4), { working x with disk := fun _ _ => err }), (.call 0 (.read .missing), working x),
    (.delete 0, working x)] (by
    intro y hy
    simp only [List.mem_cons, List.not_mem_nil, or_false] at hy
    rcases hy with rfl | rfl | rfl | rfl | rfl <;> exact faithful x _ (by simp))

/-- two objects for a value in a record -/
example : PyAttribute.run volume { name := [0x78, 0], flags := 2, data := some [1, 2, 3], stream := 0, size := 3 }
    ([.get, .get, .call 0 (.read (.int 2)), .call 1 (.seek (-1) 2), .call 0 (.read .missing), .call 1 (.read .none_), .call 1 (.seek (-4) 1), .call 1 .getOffset, .call 1 (.readAt (.int 1) 1), .call 1 .getOffset,
      .call 1 (.readAt (.int 1) (-1)), .call 1 (.read (.int (2 ^ 31))), .call 1 (.seek 0 (-1)), .call 1 .getSize, .delete 0, .call 0 .getSize].map fun x => (x, ⟨ok (), err, volume.disk⟩)) {} =
    [ok .none_, ok .none_, ok (.bytes [1, 2]), ok .none_, ok (.bytes [3]), ok (.bytes [3]), err, ok (.int 3), ok (.bytes [2]), ok (.int 2), err, err, err, ok (.int 3), ok .none_, err] := by decide +kernel

/-- a record of an attribute with a data stream of 2 GiB -/
example (env : Env) (s : AttributeRead.State) (k : Nat) : ∃ a, Records.readAttribute (xattrKey 7 [0x78, 0], xattrValue 1 (xattrStream 9 (2 ^ 31) (List.replicate 32 0))) = ok a ∧
    PyAttribute.call volume a env s k (.read .missing) = (err, s) :=
  ⟨{ name := [0x78, 0], flags := 1, data := none, stream := 9, size := 2 ^ 31 }, by decide +kernel, c88_large volume (by decide) (by decide) env s k⟩

example (F : Files) (btree : Res (List DataStream.Extent)) := c88_no_stream F btree ⟨ok (), btree, F.disk⟩ ⟨rfl, rfl, rfl⟩

end PyAttributeExample
end Verif.Props
