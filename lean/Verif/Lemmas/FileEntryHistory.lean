import Verif.Lemmas.FileEntry
/-!
# Histories of calls on a file entry
-/
namespace Verif
open Res Spec
namespace FileEntry

/-- calls on a file entry; `content` stands for reading, seeking and asking for the offset -/
inductive Call where
  | size
  | content
  | target
  | count
  | byName (name : Bytes)

/-- the file entry after a call -/
def after (env : Env) : Call → Entry → Entry
  | .size, e => (getSize env e).2
  | .content, e => (openStream env e).2
  | .target, e => (symlinkTarget env e).2
  | .count, e => (numberOfAttributes env e).2
  | .byName name, e => (attributeByName env name e).2

/-- entries of a file after any calls, during each of which storage and memory allocation may fail -/
inductive Reached (f : StoredFile) : Entry → Prop
  | new (flags : Nat) : decide (flags / 0x200 % 2 ≠ 0) = f.sparse → Reached f { inodeSize := f.size, inodeFlags := flags }
  | call {e : Entry} (env : Env) (c : Call) : Reached f e → Faithful f env → Reached f (after env c e)

theorem Reached.inv {f : StoredFile} (hv : f.Valid) {e : Entry} (h : Reached f e) : Inv f e := by
  induction h with
  | new flags hs =>
    exact ⟨rfl, hs, Or.inl rfl, Or.inl rfl, Or.inl rfl, Or.inl rfl, fun _ h => (by cases h), fun _ h => absurd rfl h, fun _ h => (by cases h), fun _ h => (by cases h)⟩
  | call env c _ he ih =>
    cases c with
    | size => exact (getSize_spec hv ih he).2.1
    | content => exact (openStream_spec hv ih he).2.1
    | target => exact (symlinkTarget_spec hv ih he).2.1
    | count => exact (numberOfAttributes_spec hv ih he).2.1
    | byName name => exact (attributeByName_spec hv ih he name).2.1

end FileEntry
end Verif
