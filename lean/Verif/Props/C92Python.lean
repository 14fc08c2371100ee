import Verif.Props.C92
/-!
# C92 Reading an extended attribute at an offset in Python
-/
namespace Verif.Props
open Verif Res Spec BTree FsTree FileRead
open Verif.FileEntry (attr)
open _root_.Verif.Spec.PyAttribute (Seen objectsGiven largest)

namespace RangeLemmas
variable {content : Bytes} {H : AttributeRead.Env → Prop}

/-- an object that was returned, and not deleted, is still there -/
theorem object_remains {k : Nat} : ∀ (l : List (PyAttribute.Action × AttributeRead.Env)) (rs : List (Res PyAttribute.Value)) (ps : List (Option Nat)) (rest : List (PyAttribute.Action × Prop × Option PyAttribute.Value)),
    rs.length = l.length → (∀ y ∈ l, y.1 ≠ .delete k) → (∀ j < ps.length, j = k → ∃ pos, ps[j]? = some (some pos)) → k < ps.length + objectsGiven (l.map (·.1)) rs →
    Seen content ps (ObjectLemmas.paired H l rs ++ rest) → ∃ (ps' : List (Option Nat)) (pos : Nat), ps'[k]? = some (some pos) ∧ Seen content ps' rest
  | [], [], ps, _, _, _, hk, hlt, h => by
    obtain ⟨pos, hp⟩ := hk k (by simpa [objectsGiven] using hlt) rfl
    exact ⟨ps, pos, hp, h⟩
  | [], _ :: _, _, _, hl, _, _, _, _ => by simp at hl
  | _ :: _, [], _, _, hl, _, _, _, _ => by simp at hl
  | (x, env) :: l, r :: rs, ps, rest, hl, hf, hk, hlt, h => by
    have hl' : rs.length = l.length := by simpa using hl
    have hf' : ∀ y ∈ l, y.1 ≠ .delete k := fun y hy => hf y (by simp [hy])
    cases x with
    | get =>
      rcases h with ⟨e, h⟩ | ⟨_, e, h⟩
      · obtain rfl := ObjectLemmas.given_some e
        refine object_remains l rs _ rest hl' hf' ?_ ?_ h
        · intro j hj e
          by_cases hj' : j < ps.length
          · rw [List.getElem?_append_left hj']
            exact hk j hj' e
          · have : j = ps.length := by
              simp at hj
              omega
            subst this
            exact ⟨0, by simp⟩
        · simp only [List.map_cons, objectsGiven] at hlt
          simp
          omega
      · refine object_remains l rs _ rest hl' hf' hk ?_ h
        cases r with
        | ok a => cases e
        | err => simpa only [List.map_cons, objectsGiven] using hlt
        | ub => simpa only [List.map_cons, objectsGiven] using hlt
    | delete j =>
      have hj : j ≠ k := fun e => hf (.delete j, env) (by simp) (by rw [e])
      refine object_remains l rs _ rest hl' hf' ?_ (by simpa only [List.map_cons, objectsGiven, List.length_set] using hlt) h.2
      intro i hi e
      rw [List.getElem?_set_ne (by omega)]
      exact hk i (by simpa using hi) e
    | call j c =>
      have h : Seen content ps ((.call j c, H env, PyAttribute.given r) :: (ObjectLemmas.paired H l rs ++ rest)) := h
      unfold Seen at h
      split at h
      · exact object_remains l rs _ rest hl' hf' hk (by simpa only [List.map_cons, objectsGiven] using hlt) h.2
      · obtain ⟨p, _, h⟩ := h
        refine object_remains l rs _ rest hl' hf' ?_ (by simpa only [List.map_cons, objectsGiven, List.length_set] using hlt) h
        intro i hi e
        have hi : i < ps.length := by simpa using hi
        by_cases hj : j = i
        · subst hj
          exact ⟨p, by rw [List.getElem?_set_self hi]⟩
        · rw [List.getElem?_set_ne hj]
          exact hk i hi e

end RangeLemmas

variable {F : Files} {s : Storage} {xid : Nat} {files : List Record} {image : Nat → Option Bytes} {cipher : Option (Cipher × Cipher)}

/-- After any use of objects for an extended attribute in Python, `read_buffer_at_offset` of one that was returned and not deleted gives the bytes of the value at the offset, or an exception, and that only if
storage or memory fail. Missing as for C88. -/
theorem c92_python_attribute_partial (hF : Serves F s xid image cipher) (h : FsHolds s xid files) (hroot : ∃ r ∈ files, IsOf 2 3 r) {f : StoredFile} {stream : Nat}
    (hf : FileIn files image (cipher.map (·.1)) f stream) {x : XAttr} (hx : x ∈ f.attributes) (l₁ l₂ : List (PyAttribute.Action × AttributeRead.Env)) {k n offset : Nat} (hn : n ≤ largest) (ho : offset < 2 ^ 63)
    (e : AttributeRead.Env) (r₁ r₂ : List (Res PyAttribute.Value)) (r : Res PyAttribute.Value)
    (hl : ∀ y ∈ l₁ ++ (.call k (.readAt (.int (n : Int)) (offset : Int)), e) :: l₂, AttributeRead.Faithful F (valueExtents F x) y.2)
    (ha : PyAttribute.run F (attr x) (l₁ ++ (.call k (.readAt (.int (n : Int)) (offset : Int)), e) :: l₂) {} = r₁ ++ r :: r₂) (hr : r₁.length = l₁.length) (hk : k < objectsGiven (l₁.map (·.1)) r₁)
    (hdel : ∀ y ∈ l₁, y.1 ≠ .delete k) :
    (∃ d, r = ok (.bytes d) ∧ InRange x.value offset n d) ∨ (r = err ∧ ¬ AttributeRead.Working F (valueExtents F x) e) := by
  obtain ⟨h1, h2⟩ := c88_read_partial hF h hroot hf hx _ hl
  rw [ha] at h1 h2
  have hz : PyAttribute.seen F (valueExtents F x) (l₁ ++ (.call k (.readAt (.int (n : Int)) (offset : Int)), e) :: l₂) (r₁ ++ r :: r₂) =
      ObjectLemmas.paired (fun env => ¬ AttributeRead.Working F (valueExtents F x) env) l₁ r₁ ++
        (.call k (.readAt (.int (n : Int)) (offset : Int)), ¬ AttributeRead.Working F (valueExtents F x) e, PyAttribute.given r) ::
          ObjectLemmas.paired (fun env => ¬ AttributeRead.Working F (valueExtents F x) env) l₂ r₂ := by
    unfold PyAttribute.seen ObjectLemmas.paired
    rw [List.zipWith_append hr.symm]
    rfl
  rw [hz] at h2
  obtain ⟨ps, pos, g1, g2⟩ := RangeLemmas.object_remains (k := k) l₁ r₁ [] _ hr hdel (by simp) (by simpa using hk) h2
  unfold Seen at g2
  simp only [g1, Option.join_some] at g2
  obtain ⟨p, g, _⟩ := g2
  exact RangeLemmas.python_step hn ho (h1 r (by simp)) g

namespace RangeExample
open AttributeExample (working faithful)
open HandleExample (tag)

/-- the first object is deleted, the second one is read from -/
example : ∃ d, (ok (.bytes [2]) : Res PyAttribute.Value) = ok (.bytes d) ∧ InRange tag.value 1 5 d := by
  rcases c92_python_attribute_partial ExtentsExample.serves VolumeExample.holds Verif.FileExample.hasRoot (Verif.FileExample.readme_in Verif.FileExample.plain_blocks) (x := tag) (by decide +kernel)
    [(.get, working tag), (.get, working tag), (.call 1 (.read .missing), working tag), (.delete 0, working tag)] [] (k := 1) (n := 5) (offset := 1) (by decide) (by decide) (working tag)
    [ok .none_, ok .none_, ok (.bytes [1, 2]), ok .none_] [] (ok (.bytes [2])) (by
      intro y hy
      simp only [List.cons_append, List.nil_append, List.mem_cons, List.not_mem_nil, or_false] at hy
      rcases hy with rfl | rfl | rfl | rfl | rfl <;> exact faithful tag _ (by simp))
    (by decide +kernel) rfl (by decide) (by simp) with h | ⟨h, _⟩
  · exact h
  · cases h

end RangeExample
end Verif.Props
