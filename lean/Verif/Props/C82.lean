import Verif.Lemmas.AttributeRead
import Verif.Lemmas.FileExample
import Verif.Props.C67Examples
/-!
# C82 The values of extended attributes

An extended attribute that is got by index or name gives, through any number of handles that read, seek and are freed in any order while storage and memory may fail, the bytes that its record or data
stream stores. Each handle has a position of its own, and a call that failed can be made again.
-/
namespace Verif.Props
open Verif Res Spec BTree FsTree FileRead AttributeRead
open Verif.FileEntry (attr)

variable {F : Files} {s : Storage} {xid : Nat} {files : List Record} {image : Nat → Option Bytes} {cipher : Option (Cipher × Cipher)}

/-- what the B-tree has of the data stream of an extended attribute -/
abbrev valueExtents (F : Files) (x : XAttr) : Res (List DataStream.Extent) := fileExtents F.tree F.xid (attr x).stream

theorem hasValue (hF : Serves F s xid image cipher) (h : FsHolds s xid files) (hroot : ∃ r ∈ files, IsOf 2 3 r) {f : StoredFile} {stream : Nat}
    (hf : FileIn files image (cipher.map (·.1)) f stream) {x : XAttr} (hx : x ∈ f.attributes) : HasValue F (attr x) (valueExtents F x) x.value := by
  have hfit := hf.valid.fits x hx
  cases hst : x.stream with
  | none =>
    have hl : x.value.length < 65536 := by
      have := hfit.2
      rw [hst] at this
      exact this
    refine .buffer (by simp [attr, hst]) (by simp [attr, hst]) rfl (by omega) ?_
    unfold bufferOf attr
    by_cases hn : x.value = []
    · simp [hst, hn, require]
    · simp only [hst, Option.isNone_none, hn, ne_eq, not_false_eq_true, and_self, ↓reduceIte]
      unfold require
      rw [if_pos (by show x.value.length ≤ 2 ^ 63 - 1; omega), ok_bind, if_pos (Nat.le_refl _), List.take_length]
      rfl
  | some st =>
    obtain ⟨h1, h2⟩ := hf.values x hx st (by rw [hst]; rfl)
    obtain ⟨hd, g1, g2⟩ := extentStream_reads hF h hroot h2
    unfold extentStream at g1
    obtain ⟨es, g3, g4⟩ := bind_eq_ok.1 g1
    refine .stream es hd (by simp [attr, hst]) rfl ?_ g4 (g2 h1)
    show fileExtents F.tree F.xid (attr x).stream = ok es
    rw [show (attr x).stream = st.1 by simp [attr, hst]]
    exact g3

/-- Any history of handles to an extended attribute is one of handles to its value.

What is missing: values in data streams with gaps between extents, see `c25_read_sparse_partial`, and attributes that are neither in the record nor in a data stream, see `c82_no_stream`. -/
theorem c82_value_partial (hF : Serves F s xid image cipher) (h : FsHolds s xid files) (hroot : ∃ r ∈ files, IsOf 2 3 r) {f : StoredFile} {stream : Nat}
    (hf : FileIn files image (cipher.map (·.1)) f stream) {x : XAttr} (hx : x ∈ f.attributes) (l : List (ValueAction × Env)) (hl : ∀ y ∈ l, AttributeRead.Faithful F (valueExtents F x) y.2) :
    (∀ r ∈ acts F (attr x) l {}, r ≠ ub) ∧ ValueSeen x.value [] (AttributeRead.seen F (valueExtents F x) l (acts F (attr x) l {})) :=
  acts_spec (hasValue hF h hroot hf hx) l hl {} [] trivial ⟨rfl, fun _ => trivial⟩

/-- An index gives the attribute whose record is at that place, after any calls on the file entry, and with it the value. -/
theorem c82_by_index_partial (hF : Serves F s xid image cipher) (h : FsHolds s xid files) (hroot : ∃ r ∈ files, IsOf 2 3 r) {f : StoredFile} {stream : Nat}
    (hf : FileIn files image (cipher.map (·.1)) f stream) {e : FileEntry.Entry} (he : FileEntry.Reached f e) {env : FileEntry.Env} (hv : FileEntry.Faithful f env) (index : Int) :
    (attributeByIndex env index e).1 ≠ ub ∧
      (FileEntry.Healthy f env → ((attributeByIndex env index e).1 ≠ err ↔ 0 ≤ index ∧ index < f.attributes.length)) ∧
      ∀ a, (attributeByIndex env index e).1 = ok a → ∃ x, f.attributes[index.toNat]? = some x ∧ a.name = x.name ++ [0] ∧ a.size = x.value.length ∧
        ∀ l : List (ValueAction × Env), (∀ y ∈ l, AttributeRead.Faithful F (fileExtents F.tree F.xid a.stream) y.2) →
          (∀ r ∈ acts F a l {}, r ≠ ub) ∧ ValueSeen x.value [] (AttributeRead.seen F (fileExtents F.tree F.xid a.stream) l (acts F a l {})) := by
  obtain ⟨h1, _, h3, h4⟩ := attributeByIndex_spec hf.valid (he.inv hf.valid) hv index
  refine ⟨h1, fun hh => ⟨fun hne => ?_, fun ⟨g1, g2⟩ => ?_⟩, fun a ha => ?_⟩
  · cases hr : (attributeByIndex env index e).1 with
    | ub => exact absurd hr h1
    | err => exact absurd hr hne
    | ok a =>
      obtain ⟨g1, x, g2, _⟩ := h3 a hr
      have := (List.getElem?_eq_some_iff.1 g2).1
      exact ⟨g1, by omega⟩
  · rw [h4 hh g1 (f.attributes[index.toNat]'(by omega)) (List.getElem?_eq_getElem _)]
    simp
  · obtain ⟨_, x, g2, rfl⟩ := h3 a ha
    exact ⟨x, g2, rfl, rfl, fun l hl => c82_value_partial hF h hroot hf (List.mem_of_getElem? g2) l hl⟩

/-- A name gives the attribute that has it, and with it the value. -/
theorem c82_by_name_partial (hF : Serves F s xid image cipher) (h : FsHolds s xid files) (hroot : ∃ r ∈ files, IsOf 2 3 r) {f : StoredFile} {stream : Nat}
    (hf : FileIn files image (cipher.map (·.1)) f stream) {e : FileEntry.Entry} (he : FileEntry.Reached f e) {env : FileEntry.Env} (hv : FileEntry.Healthy f env) {x : XAttr} (hx : x ∈ f.attributes) :
    ∃ a, (FileEntry.attributeByName env x.name e).1 = ok (some a) ∧ a.size = x.value.length ∧
      ∀ l : List (ValueAction × Env), (∀ y ∈ l, AttributeRead.Faithful F (fileExtents F.tree F.xid a.stream) y.2) →
        (∀ r ∈ acts F a l {}, r ≠ ub) ∧ ValueSeen x.value [] (AttributeRead.seen F (fileExtents F.tree F.xid a.stream) l (acts F a l {})) := by
  have hn : FileEntry.named f x.name = some x := by
    unfold FileEntry.named
    cases hfi : f.attributes.find? fun y => y.name = x.name with
    | none => exact absurd (decide_eq_true rfl) (List.find?_eq_none.1 hfi x hx)
    | some y =>
      have h1 : y.name = x.name := by simpa using List.find?_some hfi
      have h2 := List.mem_of_find?_eq_some hfi
      have : ∀ l : List XAttr, l.Pairwise (fun x y => x.name ≠ y.name) → x ∈ l → y ∈ l → y = x := by
        intro l
        induction l with
        | nil => intro _ h; cases h
        | cons z l ih =>
          intro hp hxl hyl
          rw [List.pairwise_cons] at hp
          rcases List.mem_cons.1 hxl with rfl | hx2 <;> rcases List.mem_cons.1 hyl with rfl | hy2
          · rfl
          · exact absurd h1.symm (hp.1 _ hy2)
          · exact absurd h1 (hp.1 _ hx2)
          · exact ih hp.2 hx2 hy2
      rw [this _ hf.valid.unique hx h2]
  have hr := (FileEntry.attributeByName_spec hf.valid (he.inv hf.valid) hv.faithful x.name).2.2.2 hv
  rw [hn] at hr
  exact ⟨attr x, hr, rfl, fun l hl => c82_value_partial hF h hroot hf hx l hl⟩

/-- A record of an extended attribute with neither flag. It is read, and its size is 0. But seeking to an offset of -5 succeeds with that offset, and asking for the offset succeeds without one: there is no
value that behaves like that. -/
theorem c82_no_stream (F : Files) (btree : Res (List DataStream.Extent)) (env : Env) (hw : Working F btree env) :
    ∃ a, Records.readAttribute (xattrKey 7 [0x78, 0], xattrValue 0 [1, 2]) = ok a ∧
      acts F a [(.another, env), (.ask 0 (.seek (-5) 0), env), (.ask 0 (.seek (-5) 9), env), (.ask 0 .offset, env), (.ask 0 (.read 10), env)] {} =
        [ok .done, ok (.position (-5)), ok (.position (-5)), ok .unset, ok (.bytes [])] ∧
      ¬ (∃ v, ValueSeen v [] (AttributeRead.seen F btree [(.another, env), (.ask 0 (.seek (-5) 0), env)] (acts F a [(.another, env), (.ask 0 (.seek (-5) 0), env)] {}))) ∧
      ¬ ∃ v, ValueSeen v [] (AttributeRead.seen F btree [(.another, env), (.ask 0 .offset, env)] (acts F a [(.another, env), (.ask 0 .offset, env)] {})) := by
  refine ⟨{ name := [0x78, 0], flags := 0, data := none, stream := 0, size := 0 }, by decide +kernel, ?_, ?_, ?_⟩
  · simp [acts, act, hw.alloc, call, getStream, noStream]
  · rintro ⟨v, h⟩
    simp [acts, act, hw.alloc, call, getStream, noStream, AttributeRead.seen, ValueSeen, given, valueStep, seekTo, hw] at h
  · rintro ⟨v, h⟩
    simp [acts, act, hw.alloc, call, getStream, noStream, AttributeRead.seen, ValueSeen, given, valueStep, hw] at h

namespace AttributeExample
open ExtentsExample (volume serves)
open Verif.FileExample (plain_blocks hasRoot readme_in inner_in)
open Verif.VolumeExample (readmeFile innerFile)

/-- an environment that works, and ones where memory, the B-tree and reading from the storage fail -/
def working (x : XAttr) : Env := ⟨ok (), valueExtents volume x, volume.disk⟩

theorem working_ok (x : XAttr) : Working volume (valueExtents volume x) (working x) := ⟨rfl, rfl, rfl⟩

theorem faithful (x : XAttr) : ∀ env ∈ [working x, { working x with alloc := err }, { working x with btree := err }, { working x with disk := fun _ _ => err }],
    AttributeRead.Faithful volume (valueExtents volume x) env := by
  intro env he
  simp only [List.mem_cons, List.not_mem_nil, or_false] at he
  rcases he with rfl | rfl | rfl | rfl
  · exact ⟨by simp [working], .refl, fun _ _ => .refl⟩
  · exact ⟨by simp, .refl, fun _ _ => .refl⟩
  · exact ⟨by simp [working], Or.inl rfl, fun _ _ => .refl⟩
  · exact ⟨by simp [working], .refl, fun _ _ => Or.inl rfl⟩

/-- the attribute of "/Docs/readme", which is in its record -/
example {x : XAttr} (hx : x ∈ readmeFile.attributes) := c82_value_partial serves VolumeExample.holds hasRoot (readme_in plain_blocks) hx
  [(.another, working x), (.ask 0 (.read 1), { working x with alloc := err }), (.ask 0 (.read 1), working x)] (by
    intro y hy
    simp only [List.mem_cons, List.not_mem_nil, or_false] at hy
    rcases hy with rfl | rfl | rfl <;> exact faithful x _ (by simp))

/-- a resource fork, which is in a data stream: storage fails twice -/
example {x : XAttr} (hx : x ∈ innerFile.attributes) := c82_value_partial serves VolumeExample.holds hasRoot (inner_in plain_blocks) hx
  [(.another, working x), (.ask 0 (.readAt 10 4), { working x with btree := err }), (.ask 0 (.readAt 10 4), { working x with disk := fun _ _ => err }), (.ask 0 (.read 10), working x), (.free 0, working x)] (by
    intro y hy
    simp only [List.mem_cons, List.not_mem_nil, or_false] at hy
    rcases hy with rfl | rfl | rfl | rfl | rfl <;> exact faithful x _ (by simp))

/-- there are such attributes -/
example : (∃ x ∈ readmeFile.attributes, x.stream = none ∧ x.value = [1, 2]) ∧ ∃ x ∈ innerFile.attributes, x.stream.isSome ∧ x.value.length > 10 := by decide +kernel

/-- two handles to a value in a record: after a failure, and after the end -/
example : acts volume { name := [0x78, 0], flags := 2, data := some [1, 2, 3], stream := 0, size := 3 }
    [(.another, ⟨ok (), err, volume.disk⟩), (.another, ⟨ok (), err, volume.disk⟩), (.ask 0 (.read 2), ⟨err, err, volume.disk⟩), (.ask 0 (.read 2), ⟨ok (), err, volume.disk⟩),
      (.ask 1 (.seek (-1) 2), ⟨ok (), err, volume.disk⟩), (.ask 0 (.read 2), ⟨ok (), err, volume.disk⟩), (.ask 1 (.read 9), ⟨ok (), err, volume.disk⟩), (.ask 1 (.seek (-4) 1), ⟨ok (), err, volume.disk⟩),
      (.free 0, ⟨ok (), err, volume.disk⟩), (.ask 0 .offset, ⟨ok (), err, volume.disk⟩), (.ask 1 (.readAt 1 1), ⟨ok (), err, volume.disk⟩)] {} =
    [ok .done, ok .done, err, ok (.bytes [1, 2]), ok (.position 2), ok (.bytes [3]), ok (.bytes [3]), err, ok .done, err, ok (.bytes [2])] := by decide +kernel

/-- calls on the file entry: a new one, whose attributes are not known yet -/
example {env : FileEntry.Env} (hv : FileEntry.Healthy readmeFile env) := c82_by_index_partial serves VolumeExample.holds hasRoot (readme_in plain_blocks) (.new 0x200 rfl) hv.faithful 0

example {env : FileEntry.Env} (hv : FileEntry.Healthy innerFile env) {x : XAttr} (hx : x ∈ innerFile.attributes) :=
  c82_by_name_partial serves VolumeExample.holds hasRoot (inner_in plain_blocks) (.new 0 rfl) hv hx

/-- the volume has such an environment -/
example (i : Records.Inode) (hi : ReadsAs i readmeFile 7) : FileEntry.Healthy readmeFile (FileRead.env volume FileExample.compare i) :=
  healthy_env serves VolumeExample.holds hasRoot (readme_in plain_blocks) (FileExample.compares _) hi

example (F : Files) (btree : Res (List DataStream.Extent)) := c82_no_stream F btree ⟨ok (), btree, F.disk⟩ ⟨rfl, rfl, rfl⟩

end AttributeExample
end Verif.Props
