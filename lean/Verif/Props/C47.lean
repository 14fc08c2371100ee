import Verif.Lemmas.FileEntryHistory
import Verif.Props.C40
/-!
# C47 Symbolic link targets and extended attributes by name are those of the file

Full statement: after any calls, whatever failed during them, a target that is returned is the value of com.apple.fs.symlink, an attribute that is returned
for a name is the one with that name, "not available" is returned only if there is none. Where storage and memory allocation do not fail, they are returned.

False for targets that are empty or larger than 128 MiB, which are refused (`c47_target_refused`).
-/
namespace Verif.Props
open Verif Res Spec FileEntry

/-- A target that is returned is the whole value of the attribute; not available means that there is no such attribute. -/
theorem c47_target (f : StoredFile) (hv : f.Valid) (e : Entry) (h : Reached f e) (env : Env) (he : Faithful f env) (t : Option Bytes) (ht : (symlinkTarget env e).1 = ok t) :
    t = f.attribute? symlink := by
  have := (symlinkTarget_spec hv (h.inv hv) he).2.2.1 t ht
  unfold target? at this
  cases ha : f.attribute? symlink with
  | none =>
    rw [ha] at this
    exact (Option.some.inj this).symm
  | some v =>
    rw [ha] at this
    simp only at this
    split at this
    · cases this
    · exact (Option.some.inj this).symm

/-- The target is returned if nothing fails now, whatever failed before.

Missing for the full statement: targets that are empty or larger than 128 MiB, see `c47_target_refused`. -/
theorem c47_target_available_partial (f : StoredFile) (hv : f.Valid) (e : Entry) (h : Reached f e) (env : Env) (he : Healthy f env)
    (hs : ∀ v, f.attribute? symlink = some v → 0 < v.length ∧ v.length ≤ 2 ^ 27) : (symlinkTarget env e).1 = ok (f.attribute? symlink) := by
  refine (symlinkTarget_spec hv (h.inv hv) he.faithful).2.2.2 he _ ?_
  unfold target?
  cases ha : f.attribute? symlink with
  | none => rfl
  | some v =>
    have := hs v ha
    simp only
    rw [if_neg (by omega)]

/-- Empty targets and those larger than 128 MiB are refused. -/
theorem c47_target_refused (f : StoredFile) (hv : f.Valid) (e : Entry) (h : Reached f e) (env : Env) (he : Faithful f env) (v : Bytes) (ha : f.attribute? symlink = some v)
    (hs : v.length = 0 ∨ 2 ^ 27 < v.length) : (symlinkTarget env e).1 = err := by
  obtain ⟨h1, _, h2, _⟩ := symlinkTarget_spec hv (h.inv hv) he
  cases hr : (symlinkTarget env e).1 with
  | ub => exact absurd hr h1
  | err => rfl
  | ok t =>
    have := h2 t hr
    unfold target? at this
    rw [ha] at this
    simp only at this
    rw [if_pos (by omega)] at this
    cases this

/-- The attribute that is returned for a name is the one of the file with that name, and reads as its value; not available means that there is none. -/
theorem c47_by_name (f : StoredFile) (hv : f.Valid) (e : Entry) (h : Reached f e) (env : Env) (he : Faithful f env) (name : Bytes) (r : Option Records.Attribute)
    (hr : (attributeByName env name e).1 = ok r) :
    (r = none ↔ f.attribute? name = none) ∧
    ∀ a, r = some a → ∃ x ∈ f.attributes, x.name = name ∧ f.attribute? name = some x.value ∧ a.name = name ++ [0] ∧ a.size = x.value.length ∧
      ∀ env', Faithful f env' → content env' a ≠ ub ∧ ∀ d, content env' a = ok d → d = some x.value := by
  have := (attributeByName_spec hv (h.inv hv) he name).2.2.1 r hr
  subst this
  rw [attribute?_eq]
  refine ⟨by simp, ?_⟩
  intro a ha
  obtain ⟨x, hx, rfl⟩ := Option.map_eq_some_iff.1 ha
  have hn : x.name = name := by simpa using List.find?_some hx
  refine ⟨x, named_mem hx, hn, by rw [hx]; rfl, by rw [← hn]; rfl, rfl, ?_⟩
  intro env' he'
  rcases (content_spec hv he' (named_mem hx)).1 with h | h
  · rw [h]
    exact ⟨by simp, fun d hd => by cases hd⟩
  · rw [h]
    exact ⟨by simp, fun d hd => (Res.ok.inj hd).symm⟩

/-- An attribute with the name, and that there is none, is returned if nothing fails now, whatever failed before. -/
theorem c47_by_name_available (f : StoredFile) (hv : f.Valid) (e : Entry) (h : Reached f e) (env : Env) (he : Healthy f env) (name : Bytes) :
    ∃ r, (attributeByName env name e).1 = ok r ∧ (r.isSome ↔ ∃ x ∈ f.attributes, x.name = name) := by
  refine ⟨_, (attributeByName_spec hv (h.inv hv) he.faithful name).2.2.2 he, ?_⟩
  unfold named
  simp

/-- The number of attributes that is returned is that of the file. -/
theorem c47_count (f : StoredFile) (hv : f.Valid) (e : Entry) (h : Reached f e) (env : Env) (he : Faithful f env) (n : Nat) (hn : (numberOfAttributes env e).1 = ok n) :
    n = f.attributes.length :=
  (numberOfAttributes_spec hv (h.inv hv) he).2.2.1 n hn

/-! Cases that meet the hypotheses. -/

def sampleLink : StoredFile where
  identifier := 20
  attributes := [{ name := [0x78], value := [] }, { name := Spec.symlink, value := [0x2f, 0x61, 0] }]
  size := 0
  sparse := false

theorem sampleLink_valid : sampleLink.Valid := by
  refine ⟨?_, ?_, by decide⟩
  · intro x hx
    simp only [sampleLink, List.mem_cons, List.not_mem_nil, or_false] at hx
    rcases hx with rfl | rfl
    · exact ⟨by decide +kernel, by show _ < _; decide⟩
    · exact ⟨by decide +kernel, by show _ < _; decide⟩
  · simp only [sampleLink, List.pairwise_cons, List.mem_cons, List.not_mem_nil, or_false, forall_eq, false_imp_iff, implies_true, List.Pairwise.nil, and_true]
    decide +kernel

example : (symlinkTarget (sampleEnv sampleLink fun _ => []) { inodeSize := 0, inodeFlags := 0 }).1 = ok (some [0x2f, 0x61, 0]) ∧
    sampleLink.attribute? Spec.symlink = some [0x2f, 0x61, 0] := by decide +kernel

example : (attributeByName (sampleEnv sampleLink fun _ => []) [0x78] { inodeSize := 0, inodeFlags := 0 }).1 =
    ok (some { name := [0x78, 0], flags := 2, data := none, stream := 0, size := 0 }) := by decide +kernel

example : (numberOfAttributes (sampleEnv sampleLink fun _ => []) { inodeSize := 0, inodeFlags := 0 }).1 = ok 2 := by decide +kernel

end Verif.Props
