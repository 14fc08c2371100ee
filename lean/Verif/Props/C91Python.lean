import Verif.Spec.HandlePiecesPython
import Verif.Props.C88
import Verif.Props.C91
/-!
# C91 Objects for an extended attribute in Python do not disturb each other
-/
namespace Verif.Props
open Verif Res Spec BTree FsTree FileRead AttributeRead
open Verif.FileEntry (attr)
open _root_.Verif.Spec.PyAttribute (Seen objectsGiven readOf askedOf largest)

namespace ObjectLemmas
variable {v : Bytes} {G : AttributeRead.Env → Prop}

/-- actions and results as in `Seen` -/
def paired (G : AttributeRead.Env → Prop) (l : List (PyAttribute.Action × AttributeRead.Env)) (rs : List (Res PyAttribute.Value)) : List (PyAttribute.Action × Prop × Option PyAttribute.Value) :=
  List.zipWith (fun x r => (x.1, G x.2, PyAttribute.given r)) l rs

theorem given_some {r : Res PyAttribute.Value} {a : PyAttribute.Value} (h : PyAttribute.given r = some a) : r = ok a := by
  cases r with
  | ok b => rw [Option.some.inj h]
  | err => cases h
  | ub => cases h

theorem given_err {r : Res PyAttribute.Value} (h : PyAttribute.given r = none) (hu : r ≠ ub) : r = err := by
  cases r with
  | ok b => cases h
  | err => rfl
  | ub => exact (hu rfl).elim

/-- one action: the object that is not used stays where it is -/
theorem other_stays {ps : List (Option Nat)} {k pos : Nat} (hk : ps[k]? = some (some pos)) {x : PyAttribute.Action} {fault : Prop} {r : Option PyAttribute.Value}
    {rest : List (PyAttribute.Action × Prop × Option PyAttribute.Value)} (hf : x ≠ .delete k) (ha : ∀ c, x ≠ .call k c) (h : Seen v ps ((x, fault, r) :: rest)) :
    ∃ ps' : List (Option Nat), ps'[k]? = some (some pos) ∧ Seen v ps' rest := by
  have hlt : k < ps.length := (List.getElem?_eq_some_iff.1 hk).1
  cases x with
  | get =>
    rcases h with ⟨_, h⟩ | ⟨_, _, h⟩
    · exact ⟨_, by rw [List.getElem?_append_left hlt]; exact hk, h⟩
    · exact ⟨_, hk, h⟩
  | delete j => exact ⟨_, by rw [List.getElem?_set_ne (by intro e; exact hf (by rw [e]))]; exact hk, h.2⟩
  | call j c =>
    have hj : j ≠ k := by
      intro e
      exact ha c (by rw [e])
    unfold Seen at h
    split at h
    · exact ⟨_, hk, h.2⟩
    · obtain ⟨p, _, h⟩ := h
      exact ⟨_, by rw [List.getElem?_set_ne hj]; exact hk, h⟩

theorem read_step {ps : List (Option Nat)} {k pos n : Nat} (hk : ps[k]? = some (some pos)) (hn : n ≤ largest) {fault : Prop} {x : Res PyAttribute.Value} (hu : x ≠ ub)
    {rest : List (PyAttribute.Action × Prop × Option PyAttribute.Value)} (h : Seen v ps ((.call k (.read (.int (n : Int))), fault, PyAttribute.given x) :: rest)) :
    (x = ok (.bytes ((v.drop pos).take n)) ∧ ∃ ps' : List (Option Nat), ps'[k]? = some (some (pos + ((v.drop pos).take n).length)) ∧ Seen v ps' rest) ∨
      (fault ∧ x = err ∧ ∃ ps' : List (Option Nat), ps'[k]? = some (some pos) ∧ Seen v ps' rest) := by
  have hlt : k < ps.length := (List.getElem?_eq_some_iff.1 hk).1
  unfold Seen at h
  simp only [hk, Option.join_some] at h
  obtain ⟨p, h1, h2⟩ := h
  have key : (x = ok (.bytes ((v.drop pos).take n)) ∧ p = pos + ((v.drop pos).take n).length) ∨ (fault ∧ x = err ∧ p = pos) := by
    generalize hc : PyAttribute.Call.read (.int (n : Int)) = c at h1
    generalize hg : PyAttribute.given x = g at h1
    cases h1 with
    | readAll hs _ => rcases hs with rfl | rfl <;> cases hc
    | read m _ =>
      have e : n = m := by
        injection hc with hc
        injection hc with hc
        omega
      subst e
      exact Or.inl ⟨given_some hg, rfl⟩
    | readRefused hs _ =>
      injection hc with hc
      have := hs n hc.symm
      omega
    | failed hf _ => exact Or.inr ⟨hf, given_err hg hu, rfl⟩
    | readAt => cases hc
    | readNothing => cases hc
    | seek => cases hc
    | offset => cases hc
    | size => cases hc
    | readAtRefused => cases hc
    | seekRefused => cases hc
    | moved => cases hc
  rcases key with ⟨e, rfl⟩ | ⟨g, e, rfl⟩
  · exact Or.inl ⟨e, _, by rw [List.getElem?_set_self hlt], h2⟩
  · exact Or.inr ⟨g, e, _, by rw [List.getElem?_set_self hlt], h2⟩

/-- the two cases of an action -/
theorem cases_action (k : Nat) (x : PyAttribute.Action) (hx : Spec.PyAttribute.OnlyReads k x) : (∃ n : Nat, n ≤ largest ∧ x = .call k (.read (.int n))) ∨ (x ≠ .delete k ∧ ∀ c, x ≠ .call k c) := by
  cases x with
  | get => exact Or.inr ⟨by simp, by simp⟩
  | delete j => exact Or.inr ⟨by intro e; cases e; exact hx rfl, by simp⟩
  | call j c =>
    by_cases e : j = k
    · obtain ⟨n, hn, rfl⟩ := hx e
      exact Or.inl ⟨n, hn, by rw [e]⟩
    · exact Or.inr ⟨by simp, by intro c' h; cases h; exact e rfl⟩

theorem skip {k : Nat} {x : PyAttribute.Action} (ha : ∀ c, x ≠ .call k c) (r : Res PyAttribute.Value) (l : List PyAttribute.Action) (rs : List (Res PyAttribute.Value)) :
    readOf k (x :: l) (r :: rs) = readOf k l rs ∧ askedOf k (x :: l) (r :: rs) = askedOf k l rs := by
  cases x with
  | get => exact ⟨rfl, rfl⟩
  | delete j => exact ⟨rfl, rfl⟩
  | call j c =>
    have hj : j ≠ k := by
      intro e
      exact ha c (by rw [e])
    cases c with
    | read s =>
      cases s <;> cases r with
      | ok a => cases a <;> simp [readOf, askedOf, hj]
      | err => simp [readOf, askedOf]
      | ub => simp [readOf, askedOf]
    | readAt _ _ => exact ⟨rfl, rfl⟩
    | seek _ _ => exact ⟨rfl, rfl⟩
    | getOffset => exact ⟨rfl, rfl⟩
    | getSize => exact ⟨rfl, rfl⟩

theorem pieces {k : Nat} : ∀ (l : List (PyAttribute.Action × AttributeRead.Env)) (rs : List (Res PyAttribute.Value)) (ps : List (Option Nat)) (pos : Nat), ps[k]? = some (some pos) →
    (∀ y ∈ l, Spec.PyAttribute.OnlyReads k y.1) → (∀ r ∈ rs, r ≠ ub) → rs.length = l.length → Seen v ps (paired G l rs) →
    readOf k (l.map (·.1)) rs = (v.drop pos).take (askedOf k (l.map (·.1)) rs) ∧ ∀ y ∈ l.zip rs, (∃ c, y.1.1 = .call k c) → y.2 = err → G y.1.2
  | [], [], _, _, _, _, _, _, _ => by simp [readOf, askedOf]
  | [], _ :: _, _, _, _, _, _, hl, _ => by simp at hl
  | _ :: _, [], _, _, _, _, _, hl, _ => by simp at hl
  | (x, env) :: l, r :: rs, ps, pos, hk, ho, hr, hl, h => by
    have ho' : ∀ y ∈ l, Spec.PyAttribute.OnlyReads k y.1 := fun y hy => ho y (by simp [hy])
    have hr' : ∀ r ∈ rs, r ≠ ub := fun r hy => hr r (by simp [hy])
    have hl' : rs.length = l.length := by simpa using hl
    rcases cases_action k x (ho (x, env) (by simp)) with ⟨n, hn, rfl⟩ | ⟨hf, ha⟩
    · rcases read_step hk hn (hr r (by simp)) h with ⟨e, ps', hk', h'⟩ | ⟨g, e, ps', hk', h'⟩
      · obtain ⟨i1, i2⟩ := pieces l rs ps' _ hk' ho' hr' hl' h'
        subst e
        refine ⟨?_, ?_⟩
        · simp only [List.map_cons, readOf, askedOf, if_true, Int.toNat_natCast]
          rw [i1, PiecesLemmas.take_more]
        · intro y hy hq he
          rcases List.mem_cons.1 hy with rfl | hy
          · cases he
          · exact i2 y hy hq he
      · obtain ⟨i1, i2⟩ := pieces l rs ps' _ hk' ho' hr' hl' h'
        subst e
        refine ⟨?_, ?_⟩
        · simp only [List.map_cons, readOf, askedOf]
          exact i1
        · intro y hy hq he
          rcases List.mem_cons.1 hy with rfl | hy
          · exact g
          · exact i2 y hy hq he
    · obtain ⟨ps', hk', h'⟩ := other_stays hk hf ha h
      obtain ⟨i1, i2⟩ := pieces l rs ps' _ hk' ho' hr' hl' h'
      obtain ⟨s1, s2⟩ := skip ha r (l.map (·.1)) rs
      refine ⟨?_, ?_⟩
      · rw [List.map_cons, s1, s2]
        exact i1
      · intro y hy hq he
        rcases List.mem_cons.1 hy with rfl | hy
        · obtain ⟨c, hq⟩ := hq
          exact (ha c hq).elim
        · exact i2 y hy hq he

theorem until_end {k : Nat} : ∀ (l : List (PyAttribute.Action × AttributeRead.Env)) (rs : List (Res PyAttribute.Value)) (ps : List (Option Nat)) (pos : Nat) {n : Nat} {env : AttributeRead.Env}, 0 < n → n ≤ largest →
    ps[k]? = some (some pos) → (∀ y ∈ l, Spec.PyAttribute.OnlyReads k y.1) → (∀ r ∈ rs, r ≠ ub) → rs.length = l.length →
    Seen v ps (paired G (l ++ [(.call k (.read (.int (n : Int))), env)]) (rs ++ [ok (.bytes [])])) → readOf k (l.map (·.1)) rs = v.drop pos
  | [], [], ps, pos, n, env, h0, hn, hk, _, _, _, h => by
    rcases read_step (rest := []) hk hn (by simp) h with ⟨e, _⟩ | ⟨_, e, _⟩
    · have e : [] = (v.drop pos).take n := by
        injection e with e
        injection e
      have := congrArg List.length e
      rw [List.length_take, List.length_nil] at this
      exact (List.eq_nil_of_length_eq_zero (by omega)).symm
    · cases e
  | [], _ :: _, _, _, _, _, _, _, _, _, _, hl, _ => by simp at hl
  | _ :: _, [], _, _, _, _, _, _, _, _, _, hl, _ => by simp at hl
  | (x, env') :: l, r :: rs, ps, pos, n, env, h0, hn0, hk, ho, hr, hl, h => by
    have ho' : ∀ y ∈ l, Spec.PyAttribute.OnlyReads k y.1 := fun y hy => ho y (by simp [hy])
    have hr' : ∀ r ∈ rs, r ≠ ub := fun r hy => hr r (by simp [hy])
    have hl' : rs.length = l.length := by simpa using hl
    rcases cases_action k x (ho (x, env') (by simp)) with ⟨m, hm, rfl⟩ | ⟨hf, ha⟩
    · rcases read_step hk hm (hr r (by simp)) h with ⟨e, ps', hk', h'⟩ | ⟨g, e, ps', hk', h'⟩
      · have i := until_end l rs ps' _ h0 hn0 hk' ho' hr' hl' h'
        subst e
        simp only [List.map_cons, readOf, if_true]
        rw [i, PiecesLemmas.drop_more]
      · have i := until_end l rs ps' _ h0 hn0 hk' ho' hr' hl' h'
        subst e
        simp only [List.map_cons, readOf]
        exact i
    · obtain ⟨ps', hk', h'⟩ := other_stays hk hf ha h
      have i := until_end l rs ps' _ h0 hn0 hk' ho' hr' hl' h'
      rw [List.map_cons, (skip ha r (l.map (·.1)) rs).1]
      exact i

/-- actions before: as many objects as were returned -/
theorem before : ∀ (l : List (PyAttribute.Action × AttributeRead.Env)) (rs : List (Res PyAttribute.Value)) (ps : List (Option Nat)) (rest : List (PyAttribute.Action × Prop × Option PyAttribute.Value)),
    rs.length = l.length → Seen v ps (paired G l rs ++ rest) → ∃ ps' : List (Option Nat), ps'.length = ps.length + objectsGiven (l.map (·.1)) rs ∧ Seen v ps' rest
  | [], [], ps, _, _, h => ⟨ps, by simp [objectsGiven], h⟩
  | [], _ :: _, _, _, hl, _ => by simp at hl
  | _ :: _, [], _, _, hl, _ => by simp at hl
  | (x, env) :: l, r :: rs, ps, rest, hl, h => by
    have hl' : rs.length = l.length := by simpa using hl
    cases x with
    | get =>
      rcases h with ⟨e, h⟩ | ⟨_, e, h⟩
      · obtain ⟨ps', h1, h2⟩ := before l rs _ rest hl' h
        obtain rfl := given_some e
        refine ⟨ps', ?_, h2⟩
        simp only [List.map_cons, objectsGiven]
        rw [h1, List.length_append]
        simp
        omega
      · obtain ⟨ps', h1, h2⟩ := before l rs _ rest hl' h
        refine ⟨ps', ?_, h2⟩
        cases r with
        | ok a => cases e
        | err => simpa only [List.map_cons, objectsGiven] using h1
        | ub => simpa only [List.map_cons, objectsGiven] using h1
    | delete j =>
      obtain ⟨ps', h1, h2⟩ := before l rs _ rest hl' h.2
      exact ⟨ps', by simpa only [List.map_cons, objectsGiven, List.length_set] using h1, h2⟩
    | call j c =>
      have h : Seen v ps ((.call j c, G env, PyAttribute.given r) :: (paired G l rs ++ rest)) := h
      unfold Seen at h
      split at h
      · obtain ⟨ps', h1, h2⟩ := before l rs _ rest hl' h.2
        exact ⟨ps', by simpa only [List.map_cons, objectsGiven] using h1, h2⟩
      · obtain ⟨p, _, h⟩ := h
        obtain ⟨ps', h1, h2⟩ := before l rs _ rest hl' h
        exact ⟨ps', by simpa only [List.map_cons, objectsGiven, List.length_set] using h1, h2⟩

end ObjectLemmas
open ObjectLemmas

variable {F : Files} {s : Storage} {xid : Nat} {files : List Record} {image : Nat → Option Bytes} {cipher : Option (Cipher × Cipher)}

/-- A Python program gets an object for an extended attribute, after any use of other objects, and calls only its method `read`, with sizes of less than 2 GiB; meanwhile anything is done with other objects. What
`read` returns is the start of the value, as much as was asked for in the calls that raised no exception, or all; an exception is raised only if storage or memory fail; and if `read` of at least one byte returns
none, what it returned before is the value. Missing as for C88. -/
theorem c91_python_partial (hF : Serves F s xid image cipher) (h : FsHolds s xid files) (hroot : ∃ r ∈ files, IsOf 2 3 r) {f : StoredFile} {stream : Nat}
    (hf : FileIn files image (cipher.map (·.1)) f stream) {x : XAttr} (hx : x ∈ f.attributes) (l₁ l₂ : List (PyAttribute.Action × AttributeRead.Env)) (e : AttributeRead.Env) (r₁ r₂ : List (Res PyAttribute.Value))
    (hl : ∀ y ∈ l₁ ++ (.get, e) :: l₂, AttributeRead.Faithful F (valueExtents F x) y.2) {object : PyAttribute.Value} (ha : PyAttribute.run F (attr x) (l₁ ++ (.get, e) :: l₂) {} = r₁ ++ ok object :: r₂)
    (hr : r₁.length = l₁.length) {k : Nat} (hk : objectsGiven (l₁.map (·.1)) r₁ = k) (ho : ∀ y ∈ l₂, Spec.PyAttribute.OnlyReads k y.1) :
    r₂.length = l₂.length ∧ (∀ r ∈ r₂, r ≠ ub) ∧ readOf k (l₂.map (·.1)) r₂ = x.value.take (askedOf k (l₂.map (·.1)) r₂) ∧
      (∀ y ∈ l₂.zip r₂, (∃ c, y.1.1 = .call k c) → y.2 = err → ¬ Working F (valueExtents F x) y.1.2) ∧
      ∀ (l : List (PyAttribute.Action × AttributeRead.Env)) (n : Nat) (e' : AttributeRead.Env) (r : List (Res PyAttribute.Value)), l₂ = l ++ [(.call k (.read (.int (n : Int))), e')] → 0 < n →
        r₂ = r ++ [ok (.bytes [])] → readOf k (l.map (·.1)) r = x.value := by
  obtain ⟨h1, h2⟩ := c88_read_partial hF h hroot hf hx _ hl
  have hlen : ∀ (l : List (PyAttribute.Action × AttributeRead.Env)) (s : AttributeRead.State), (PyAttribute.run F (attr x) l s).length = l.length := by
    intro l
    induction l with
    | nil => intro s; rfl
    | cons o os ih => intro s; simp [PyAttribute.run, ih]
  have hlen := hlen (l₁ ++ (.get, e) :: l₂) {}
  rw [ha] at h1 h2 hlen
  have hr2 : r₂.length = l₂.length := by
    simp only [List.length_append, List.length_cons] at hlen
    omega
  have hz : PyAttribute.seen F (valueExtents F x) (l₁ ++ (.get, e) :: l₂) (r₁ ++ ok object :: r₂) =
      paired (fun env => ¬ Working F (valueExtents F x) env) l₁ r₁ ++ (.get, ¬ Working F (valueExtents F x) e, some object) :: paired (fun env => ¬ Working F (valueExtents F x) env) l₂ r₂ := by
    unfold PyAttribute.seen paired
    rw [List.zipWith_append hr.symm]
    rfl
  rw [hz] at h2
  obtain ⟨ps, g1, g2⟩ := before l₁ r₁ [] _ hr h2
  rw [hk] at g1
  have g1 : ps.length = k := by simpa using g1
  have g3 : Seen x.value (ps ++ [some 0]) (paired (fun env => ¬ Working F (valueExtents F x) env) l₂ r₂) := by
    rcases g2 with ⟨_, g⟩ | ⟨_, g, _⟩
    · exact g
    · cases g
  have hk0 : (ps ++ [some 0])[k]? = some (some 0) := by rw [← g1]; simp
  have hu : ∀ r ∈ r₂, r ≠ ub := fun r hr => h1 r (by simp [hr])
  obtain ⟨p1, p2⟩ := ObjectLemmas.pieces l₂ r₂ _ 0 hk0 ho hu hr2 g3
  refine ⟨hr2, hu, p1, p2, ?_⟩
  rintro l n e' r rfl h0 rfl
  obtain ⟨m, hm, e1⟩ := ho (.call k (.read (.int (n : Int))), e') (by simp) rfl
  have e1 : n = m := by
    injection e1 with e1
    injection e1 with e1
    omega
  subst e1
  exact ObjectLemmas.until_end l r _ 0 h0 hm hk0 (fun y hy => ho y (by simp [hy])) (fun z hz => hu z (by simp [hz])) (by simpa using hr2) g3

namespace HandleExample
open ExtentsExample (volume serves)
open Verif.FileExample (plain_blocks hasRoot readme_in)
open AttributeExample (working faithful)

/-- as for C91: memory fails, and a first object is moved; then a second one is read in pieces, while the first one is used and deleted and a third one is read -/
def pyFirst : List (PyAttribute.Action × AttributeRead.Env) := [(.get, { working tag with alloc := err }), (.get, working tag), (.call 0 (.seek 1 0), working tag)]
def pyMeanwhile : List (PyAttribute.Action × AttributeRead.Env) :=
  [(.call 1 (.read (.int (1 : Nat))), { working tag with alloc := err }), (.call 0 (.read .missing), working tag), (.call 1 (.read (.int (1 : Nat))), working tag), (.call 0 (.seek 0 0), working tag), (.delete 0, working tag),
    (.get, working tag), (.call 1 (.read (.int (1 : Nat))), working tag), (.call 2 (.readAt (.int 1) 0), working tag)]
def pyResults : List (Res PyAttribute.Value) := [err, ok (.bytes [2]), ok (.bytes [1]), ok .none_, ok .none_, ok .none_, ok (.bytes [2]), ok (.bytes [1])]

example : readOf 1 (pyMeanwhile.map (·.1)) pyResults = [1, 2] :=
  (c91_python_partial serves VolumeExample.holds hasRoot (readme_in plain_blocks) (x := tag) (by decide +kernel) pyFirst (pyMeanwhile ++ [(.call 1 (.read (.int (5 : Nat))), working tag)]) (working tag)
    [err, ok .none_, ok .none_] (pyResults ++ [ok (.bytes [])])
    (by
      intro y hy
      simp only [pyFirst, pyMeanwhile, List.cons_append, List.nil_append, List.mem_cons, List.not_mem_nil, or_false] at hy
      rcases hy with rfl | rfl | rfl | rfl | rfl | rfl | rfl | rfl | rfl | rfl | rfl | rfl | rfl <;> exact faithful tag _ (by simp))
    (object := .none_) (by decide +kernel) (by decide) (k := 1) (by decide) (by
      intro y hy
      simp only [pyMeanwhile, List.cons_append, List.nil_append, List.mem_cons, List.not_mem_nil, or_false] at hy
      rcases hy with rfl | rfl | rfl | rfl | rfl | rfl | rfl | rfl | rfl <;>
        first
          | exact fun _ => ⟨_, by decide, rfl⟩
          | simp [Spec.PyAttribute.OnlyReads])).2.2.2.2 pyMeanwhile 5 (working tag) pyResults rfl (by decide) rfl

end HandleExample
end Verif.Props
