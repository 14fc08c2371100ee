import Verif.Spec.HandlePieces
import Verif.Props.C82
import Verif.Props.C90
/-!
# C91 Handles for an extended attribute do not disturb each other

A handle with which a value is read in pieces gives all of it, whatever is done with other handles meanwhile.
-/
namespace Verif.Props
open Verif Res Spec BTree FsTree FileRead AttributeRead
open Verif.FileEntry (attr)

namespace HandleLemmas
variable {v : Bytes} {G : AttributeRead.Env → Prop}

/-- actions and answers as in `ValueSeen` -/
def paired (G : AttributeRead.Env → Prop) (l : List (ValueAction × AttributeRead.Env)) (rs : List (Res ValueAnswer)) : List (ValueAction × Prop × Option ValueAnswer) :=
  List.zipWith (fun x r => (x.1, G x.2, given r)) l rs

theorem given_some {r : Res ValueAnswer} {a : ValueAnswer} (h : given r = some a) : r = ok a := by
  cases r with
  | ok b => rw [Option.some.inj h]
  | err => cases h
  | ub => cases h

theorem given_err {r : Res ValueAnswer} (h : given r = none) (hu : r ≠ ub) : r = err := by
  cases r with
  | ok b => cases h
  | err => rfl
  | ub => exact (hu rfl).elim

/-- one action: the handle that is not used stays where it is -/
theorem other_stays {hs : List (Option Nat)} {k : Nat} {pos : Nat} (hk : hs[k]? = some (some pos)) {x : ValueAction} {fault : Prop} {r : Option ValueAnswer}
    {rest : List (ValueAction × Prop × Option ValueAnswer)} (hf : x ≠ .free k) (ha : ∀ o, x ≠ .ask k o) (h : ValueSeen v hs ((x, fault, r) :: rest)) :
    ∃ hs' : List (Option Nat), hs'[k]? = some (some pos) ∧ ValueSeen v hs' rest := by
  have hlt : k < hs.length := (List.getElem?_eq_some_iff.1 hk).1
  cases x with
  | another =>
    rcases h with ⟨_, h⟩ | ⟨_, _, h⟩
    · exact ⟨_, by rw [List.getElem?_append_left hlt]; exact hk, h⟩
    · exact ⟨_, hk, h⟩
  | free j => exact ⟨_, by rw [List.getElem?_set_ne (by intro e; exact hf (by rw [e]))]; exact hk, h.2⟩
  | other => exact ⟨_, hk, h⟩
  | ask j o =>
    have hj : j ≠ k := by
      intro e
      exact ha o (by rw [e])
    unfold ValueSeen at h
    split at h
    · exact ⟨_, hk, h.2⟩
    · rcases h with ⟨_, h⟩ | ⟨_, _, _, p, _, h⟩
      · exact ⟨_, by rw [List.getElem?_set_ne hj]; exact hk, h⟩
      · exact ⟨_, by rw [List.getElem?_set_ne hj]; exact hk, h⟩

theorem read_step {hs : List (Option Nat)} {k pos n : Nat} (hk : hs[k]? = some (some pos)) (hn : n < 2 ^ 63) {fault : Prop} {r : Res ValueAnswer} (hu : r ≠ ub)
    {rest : List (ValueAction × Prop × Option ValueAnswer)} (h : ValueSeen v hs ((.ask k (.read n), fault, given r) :: rest)) :
    (r = ok (.bytes ((v.drop pos).take n)) ∧ ∃ hs' : List (Option Nat), hs'[k]? = some (some (pos + ((v.drop pos).take n).length)) ∧ ValueSeen v hs' rest) ∨
      (fault ∧ r = err ∧ ∃ hs' : List (Option Nat), hs'[k]? = some (some pos) ∧ ValueSeen v hs' rest) := by
  have hlt : k < hs.length := (List.getElem?_eq_some_iff.1 hk).1
  unfold ValueSeen at h
  simp only [hk, Option.join_some, valueStep, if_pos hn] at h
  rcases h with ⟨h1, h2⟩ | ⟨h1, _, h3, p, h4, h5⟩
  · exact Or.inl ⟨given_some h1, _, by rw [List.getElem?_set_self hlt], h2⟩
  · cases h4
    exact Or.inr ⟨h1, given_err h3 hu, _, by rw [List.getElem?_set_self hlt], h5⟩

/-- the two cases of an action -/
theorem cases_action (k : Nat) (x : ValueAction) (hx : OnlyReads k x) : (∃ n < 2 ^ 63, x = .ask k (.read n)) ∨ (x ≠ .free k ∧ ∀ o, x ≠ .ask k o) := by
  cases x with
  | another => exact Or.inr ⟨by simp, by simp⟩
  | other => exact Or.inr ⟨by simp, by simp⟩
  | free j => exact Or.inr ⟨by intro e; cases e; exact hx rfl, by simp⟩
  | ask j o =>
    by_cases e : j = k
    · obtain ⟨n, hn, rfl⟩ := hx e
      exact Or.inl ⟨n, hn, by rw [e]⟩
    · exact Or.inr ⟨by simp, by intro o' h; cases h; exact e rfl⟩

theorem skip {k : Nat} {x : ValueAction} (ha : ∀ o, x ≠ .ask k o) (r : Res ValueAnswer) (l : List ValueAction) (rs : List (Res ValueAnswer)) :
    readWith k (x :: l) (r :: rs) = readWith k l rs ∧ askedWith k (x :: l) (r :: rs) = askedWith k l rs := by
  cases x with
  | another => exact ⟨rfl, rfl⟩
  | free j => exact ⟨rfl, rfl⟩
  | other => exact ⟨rfl, rfl⟩
  | ask j o =>
    have hj : j ≠ k := by
      intro e
      exact ha o (by rw [e])
    cases o <;> cases r with
    | ok a => cases a <;> simp [readWith, askedWith, hj]
    | err => simp [readWith, askedWith]
    | ub => simp [readWith, askedWith]

theorem pieces {k : Nat} : ∀ (l : List (ValueAction × AttributeRead.Env)) (rs : List (Res ValueAnswer)) (hs : List (Option Nat)) (pos : Nat), hs[k]? = some (some pos) → (∀ y ∈ l, OnlyReads k y.1) →
    (∀ r ∈ rs, r ≠ ub) → rs.length = l.length → ValueSeen v hs (paired G l rs) →
    readWith k (l.map (·.1)) rs = (v.drop pos).take (askedWith k (l.map (·.1)) rs) ∧ ∀ y ∈ l.zip rs, (∃ o, y.1.1 = .ask k o) → y.2 = err → G y.1.2
  | [], [], _, _, _, _, _, _, _ => by simp [readWith, askedWith]
  | [], _ :: _, _, _, _, _, _, hl, _ => by simp at hl
  | _ :: _, [], _, _, _, _, _, hl, _ => by simp at hl
  | (x, env) :: l, r :: rs, hs, pos, hk, ho, hr, hl, h => by
    have ho' : ∀ y ∈ l, OnlyReads k y.1 := fun y hy => ho y (by simp [hy])
    have hr' : ∀ r ∈ rs, r ≠ ub := fun r hy => hr r (by simp [hy])
    have hl' : rs.length = l.length := by simpa using hl
    rcases cases_action k x (ho (x, env) (by simp)) with ⟨n, hn, rfl⟩ | ⟨hf, ha⟩
    · rcases read_step hk hn (hr r (by simp)) h with ⟨e, hs', hk', h'⟩ | ⟨g, e, hs', hk', h'⟩
      · obtain ⟨i1, i2⟩ := pieces l rs hs' _ hk' ho' hr' hl' h'
        subst e
        refine ⟨?_, ?_⟩
        · simp only [List.map_cons, readWith, askedWith, if_true]
          rw [i1, PiecesLemmas.take_more]
        · intro y hy hq he
          rcases List.mem_cons.1 hy with rfl | hy
          · cases he
          · exact i2 y hy hq he
      · obtain ⟨i1, i2⟩ := pieces l rs hs' _ hk' ho' hr' hl' h'
        subst e
        refine ⟨?_, ?_⟩
        · simp only [List.map_cons, readWith, askedWith]
          exact i1
        · intro y hy hq he
          rcases List.mem_cons.1 hy with rfl | hy
          · exact g
          · exact i2 y hy hq he
    · obtain ⟨hs', hk', h'⟩ := other_stays hk hf ha h
      obtain ⟨i1, i2⟩ := pieces l rs hs' _ hk' ho' hr' hl' h'
      obtain ⟨s1, s2⟩ := skip ha r (l.map (·.1)) rs
      refine ⟨?_, ?_⟩
      · rw [List.map_cons, s1, s2]
        exact i1
      · intro y hy hq he
        rcases List.mem_cons.1 hy with rfl | hy
        · obtain ⟨o, hq⟩ := hq
          exact (ha o hq).elim
        · exact i2 y hy hq he

theorem until_end {k : Nat} : ∀ (l : List (ValueAction × AttributeRead.Env)) (rs : List (Res ValueAnswer)) (hs : List (Option Nat)) (pos : Nat) {n : Nat} {env : AttributeRead.Env}, 0 < n → n < 2 ^ 63 →
    hs[k]? = some (some pos) → (∀ y ∈ l, OnlyReads k y.1) → (∀ r ∈ rs, r ≠ ub) → rs.length = l.length →
    ValueSeen v hs (paired G (l ++ [(.ask k (.read n), env)]) (rs ++ [ok (.bytes [])])) → readWith k (l.map (·.1)) rs = v.drop pos
  | [], [], hs, pos, n, env, h0, hn, hk, _, _, _, h => by
    rcases read_step (rest := []) hk hn (by simp) h with ⟨e, _⟩ | ⟨_, e, _⟩
    · have e : [] = (v.drop pos).take n := by
        injection e with e
        injection e
      have := congrArg List.length e
      rw [List.length_take, List.length_nil] at this
      exact (List.eq_nil_of_length_eq_zero (by omega)).symm
    · cases e
  | [], _ :: _, _, _, _, _, _, _, _, _, _, hl, _ => by simp at hl
  | _ :: _, [], _, _, _, _, _, _, _, _, _, hl, _ => by simp at hl
  | (x, env') :: l, r :: rs, hs, pos, n, env, h0, hn0, hk, ho, hr, hl, h => by
    have ho' : ∀ y ∈ l, OnlyReads k y.1 := fun y hy => ho y (by simp [hy])
    have hr' : ∀ r ∈ rs, r ≠ ub := fun r hy => hr r (by simp [hy])
    have hl' : rs.length = l.length := by simpa using hl
    rcases cases_action k x (ho (x, env') (by simp)) with ⟨m, hm, rfl⟩ | ⟨hf, ha⟩
    · rcases read_step hk hm (hr r (by simp)) h with ⟨e, hs', hk', h'⟩ | ⟨g, e, hs', hk', h'⟩
      · have i := until_end l rs hs' _ h0 hn0 hk' ho' hr' hl' h'
        subst e
        simp only [List.map_cons, readWith, if_true]
        rw [i, PiecesLemmas.drop_more]
      · have i := until_end l rs hs' _ h0 hn0 hk' ho' hr' hl' h'
        subst e
        simp only [List.map_cons, readWith]
        exact i
    · obtain ⟨hs', hk', h'⟩ := other_stays hk hf ha h
      have i := until_end l rs hs' _ h0 hn0 hk' ho' hr' hl' h'
      rw [List.map_cons, (skip ha r (l.map (·.1)) rs).1]
      exact i

/-- actions before: as many handles as were given out -/
theorem before : ∀ (l : List (ValueAction × AttributeRead.Env)) (rs : List (Res ValueAnswer)) (hs : List (Option Nat)) (rest : List (ValueAction × Prop × Option ValueAnswer)), rs.length = l.length →
    ValueSeen v hs (paired G l rs ++ rest) → ∃ hs' : List (Option Nat), hs'.length = hs.length + handlesGiven (l.map (·.1)) rs ∧ ValueSeen v hs' rest
  | [], [], hs, _, _, h => ⟨hs, by simp [handlesGiven], h⟩
  | [], _ :: _, _, _, hl, _ => by simp at hl
  | _ :: _, [], _, _, hl, _ => by simp at hl
  | (x, env) :: l, r :: rs, hs, rest, hl, h => by
    have hl' : rs.length = l.length := by simpa using hl
    cases x with
    | another =>
      rcases h with ⟨e, h⟩ | ⟨_, e, h⟩
      · obtain ⟨hs', h1, h2⟩ := before l rs _ rest hl' h
        obtain rfl := given_some e
        refine ⟨hs', ?_, h2⟩
        simp only [List.map_cons, handlesGiven]
        rw [h1, List.length_append]
        simp
        omega
      · obtain ⟨hs', h1, h2⟩ := before l rs _ rest hl' h
        refine ⟨hs', ?_, h2⟩
        cases r with
        | ok a => cases e
        | err => simpa only [List.map_cons, handlesGiven] using h1
        | ub => simpa only [List.map_cons, handlesGiven] using h1
    | free j =>
      obtain ⟨hs', h1, h2⟩ := before l rs _ rest hl' h.2
      exact ⟨hs', by simpa only [List.map_cons, handlesGiven, List.length_set] using h1, h2⟩
    | other =>
      obtain ⟨hs', h1, h2⟩ := before l rs _ rest hl' h
      exact ⟨hs', by simpa only [List.map_cons, handlesGiven] using h1, h2⟩
    | ask j o =>
      have h : ValueSeen v hs ((.ask j o, G env, given r) :: (paired G l rs ++ rest)) := h
      unfold ValueSeen at h
      split at h
      · obtain ⟨hs', h1, h2⟩ := before l rs _ rest hl' h.2
        exact ⟨hs', by simpa only [List.map_cons, handlesGiven] using h1, h2⟩
      · rcases h with ⟨_, h⟩ | ⟨_, _, _, p, _, h⟩
        · obtain ⟨hs', h1, h2⟩ := before l rs _ rest hl' h
          exact ⟨hs', by simpa only [List.map_cons, handlesGiven, List.length_set] using h1, h2⟩
        · obtain ⟨hs', h1, h2⟩ := before l rs _ rest hl' h
          exact ⟨hs', by simpa only [List.map_cons, handlesGiven, List.length_set] using h1, h2⟩

end HandleLemmas
open HandleLemmas

variable {F : Files} {s : Storage} {xid : Nat} {files : List Record} {image : Nat → Option Bytes} {cipher : Option (Cipher × Cipher)}

/-- A handle is obtained for an extended attribute, after any use of any other handles, and only read from; other handles are obtained, used and freed meanwhile in any way, and storage and memory may fail. What
is read with the handle is the start of the value, as much as was asked for in the calls that did not fail, or all; they fail only if storage or memory do; and if one gives nothing, what was read before is the
value.

What is missing is as for C82: attributes with neither of the flags for a value in the record or in a data stream, see `c82_no_stream`. -/
theorem c91_handle_partial (hF : Serves F s xid image cipher) (h : FsHolds s xid files) (hroot : ∃ r ∈ files, IsOf 2 3 r) {f : StoredFile} {stream : Nat}
    (hf : FileIn files image (cipher.map (·.1)) f stream) {x : XAttr} (hx : x ∈ f.attributes) (l₁ l₂ : List (ValueAction × AttributeRead.Env)) (e : AttributeRead.Env) (r₁ r₂ : List (Res ValueAnswer))
    (hl : ∀ y ∈ l₁ ++ (.another, e) :: l₂, AttributeRead.Faithful F (valueExtents F x) y.2) (ha : acts F (attr x) (l₁ ++ (.another, e) :: l₂) {} = r₁ ++ ok .done :: r₂) (hr : r₁.length = l₁.length)
    {k : Nat} (hk : handlesGiven (l₁.map (·.1)) r₁ = k) (ho : ∀ y ∈ l₂, OnlyReads k y.1) :
    r₂.length = l₂.length ∧ (∀ r ∈ r₂, r ≠ ub) ∧ readWith k (l₂.map (·.1)) r₂ = x.value.take (askedWith k (l₂.map (·.1)) r₂) ∧
      (∀ y ∈ l₂.zip r₂, (∃ o, y.1.1 = .ask k o) → y.2 = err → ¬ Working F (valueExtents F x) y.1.2) ∧
      ∀ l n e' r, l₂ = l ++ [(.ask k (.read n), e')] → 0 < n → r₂ = r ++ [ok (.bytes [])] → readWith k (l.map (·.1)) r = x.value := by
  obtain ⟨h1, h2⟩ := c82_value_partial hF h hroot hf hx _ hl
  have hlen : ∀ (l : List (ValueAction × AttributeRead.Env)) (s : AttributeRead.State), (acts F (attr x) l s).length = l.length := by
    intro l
    induction l with
    | nil => intro s; rfl
    | cons o os ih => intro s; simp [acts, ih]
  have hlen := hlen (l₁ ++ (.another, e) :: l₂) {}
  rw [ha] at h1 h2 hlen
  have hr2 : r₂.length = l₂.length := by
    simp only [List.length_append, List.length_cons] at hlen
    omega
  have hz : AttributeRead.seen F (valueExtents F x) (l₁ ++ (.another, e) :: l₂) (r₁ ++ ok .done :: r₂) =
      paired (fun env => ¬ Working F (valueExtents F x) env) l₁ r₁ ++ (.another, ¬ Working F (valueExtents F x) e, some .done) :: paired (fun env => ¬ Working F (valueExtents F x) env) l₂ r₂ := by
    unfold AttributeRead.seen paired
    rw [List.zipWith_append hr.symm]
    rfl
  rw [hz] at h2
  obtain ⟨hs, g1, g2⟩ := before l₁ r₁ [] _ hr h2
  rw [hk] at g1
  have g1 : hs.length = k := by simpa using g1
  have g3 : ValueSeen x.value (hs ++ [some 0]) (paired (fun env => ¬ Working F (valueExtents F x) env) l₂ r₂) := by
    rcases g2 with ⟨_, g⟩ | ⟨_, g, _⟩
    · exact g
    · cases g
  have hk0 : (hs ++ [some 0])[k]? = some (some 0) := by rw [← g1]; simp
  have hu : ∀ r ∈ r₂, r ≠ ub := fun r hr => h1 r (by simp [hr])
  obtain ⟨p1, p2⟩ := HandleLemmas.pieces l₂ r₂ _ 0 hk0 ho hu hr2 g3
  refine ⟨hr2, hu, p1, p2, ?_⟩
  rintro l n e' r rfl h0 rfl
  obtain ⟨m, hm, e1⟩ := ho (.ask k (.read n), e') (by simp) rfl
  cases e1
  exact HandleLemmas.until_end l r _ 0 h0 hm hk0 (fun y hy => ho y (by simp [hy])) (fun z hz => hu z (by simp [hz])) (by simpa using hr2) g3

namespace HandleExample
open ExtentsExample (volume serves)
open Verif.FileExample (plain_blocks hasRoot readme_in)
open Verif.VolumeExample (readmeFile)
open AttributeExample (working faithful)

def tag : XAttr := { name := [0x74, 0x61, 0x67], value := [1, 2] }

/-- Before: memory fails, and a first handle is moved. Then a second one is read in pieces; memory fails once. Meanwhile the first one is read to the end, moved and freed, and a third one is obtained and read. -/
def first : List (ValueAction × AttributeRead.Env) := [(.another, { working tag with alloc := err }), (.another, working tag), (.ask 0 (.seek 1 0), working tag)]
def meanwhile : List (ValueAction × AttributeRead.Env) :=
  [(.ask 1 (.read 1), { working tag with alloc := err }), (.ask 0 (.read 9), working tag), (.ask 1 (.read 1), working tag), (.ask 0 (.seek 0 0), working tag), (.free 0, working tag),
    (.another, working tag), (.ask 1 (.read 1), working tag), (.ask 2 (.read 1), working tag)]
def answers : List (Res ValueAnswer) := [err, ok (.bytes [2]), ok (.bytes [1]), ok (.position 0), ok .done, ok .done, ok (.bytes [2]), ok (.bytes [1])]

/-- until it gives nothing -/
example : readWith 1 (meanwhile.map (·.1)) answers = [1, 2] :=
  (c91_handle_partial serves VolumeExample.holds hasRoot (readme_in plain_blocks) (x := tag) (by decide +kernel) first (meanwhile ++ [(.ask 1 (.read 5), working tag)]) (working tag)
    [err, ok .done, ok (.position 1)] (answers ++ [ok (.bytes [])])
    (by
      intro y hy
      simp only [first, meanwhile, List.cons_append, List.nil_append, List.mem_cons, List.not_mem_nil, or_false] at hy
      rcases hy with rfl | rfl | rfl | rfl | rfl | rfl | rfl | rfl | rfl | rfl | rfl | rfl | rfl <;> exact faithful tag _ (by simp))
    (by decide +kernel) (by decide) (k := 1) (by decide) (by
      intro y hy
      simp only [meanwhile, List.cons_append, List.nil_append, List.mem_cons, List.not_mem_nil, or_false] at hy
      rcases hy with rfl | rfl | rfl | rfl | rfl | rfl | rfl | rfl | rfl <;> simp [OnlyReads])).2.2.2.2 meanwhile 5 (working tag) answers rfl (by decide) rfl

/-- if handles had one position in common, what is read with one of them would not be the start of the value -/
example : readWith 1 [.ask 0 (.read 1), .ask 1 (.read 1)] [ok (.bytes [1]), ok (.bytes [2])] ≠ tag.value.take (askedWith 1 [.ask 0 (.read 1), .ask 1 (.read 1)] [ok (.bytes [1]), ok (.bytes [2])]) := by
  decide +kernel

end HandleExample
end Verif.Props
