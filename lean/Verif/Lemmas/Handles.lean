import Verif.Model.Handles
/-!
# Handles whose providers live
-/
namespace Verif.Handles

/-- a handle, or an object without a handle, with what it depends on -/
structure Node where
  id : Nat
  handle : Option Handle
  parent : Option Nat

def Node.owned (x : Node) : List Addr :=
  match x.handle with
  | none => []
  | some h => h.owned

/-- `h` points to memory that belongs to `p`, or that `p` points to -/
def Fits (p h : Handle) : Prop :=
  match p, h with
  | .container _ io (some s), .volume _ io' file bag => io = io' ∧ s.file = file ∧ s.bag = bag
  | .volume v _ _ _, .snapshot _ v' => v = v'
  | .volume v io file _, .entry _ io' file' v' => v = v' ∧ io = io' ∧ file = file'
  | .entry e io file v, .attribute _ io' file' v' e' => e = e' ∧ v = v' ∧ io = io' ∧ file = file'
  | _, _ => False

def IsContainer : Handle → Prop
  | .container .. => True
  | _ => False

theorem not_fits_container {p : Handle} {self io : Addr} {s : Option Session} : ¬ Fits p (.container self io s) := by
  intro h
  cases p with
  | container _ _ t => cases t <;> exact h
  | _ => exact h

structure Good (files : List Addr) (ns : List Node) (m : Memory) : Prop where
  nodup : (ns.map (·.id)).Nodup
  parents : ∀ x ∈ ns, ∀ q, x.parent = some q → ∃ y ∈ ns, y.id = q
  fits : ∀ x ∈ ns, ∀ h, x.handle = some h → (IsContainer h ∧ x.parent = none) ∨ ∃ y ∈ ns, x.parent = some y.id ∧ ∃ p, y.handle = some p ∧ Fits p h
  session : ∀ x ∈ ns, ∀ self io s, x.handle = some (.container self io (some s)) → s.created = false → s.file ∈ files
  live : ∀ a, a ∈ m.live ↔ a ∈ files ∨ ∃ x ∈ ns, a ∈ x.owned
  apart : ∀ x ∈ ns, ∀ a ∈ x.owned, a ∉ files
  disjoint : ∀ x ∈ ns, ∀ y ∈ ns, x.id ≠ y.id → ∀ a ∈ x.owned, a ∉ y.owned
  below : ∀ a ∈ m.live, a < m.next
  once : ∀ x ∈ ns, x.owned.Nodup

theorem access_some {m : Memory} {l : List Addr} : m.access l = some () ↔ ∀ a ∈ l, a ∈ m.live := by
  unfold Memory.access
  by_cases h : ∀ a ∈ l, a ∈ m.live
  · simp only [if_pos h, true_iff]; exact h
  · simp only [if_neg h, reduceCtorEq, false_iff]; exact h

theorem access_none {m : Memory} {l : List Addr} {a : Addr} (h : a ∈ l) (hl : a ∉ m.live) : m.access l = none := by
  unfold Memory.access
  rw [if_neg fun h' => hl (h' a h)]

theorem eq_of_id {ns : List Node} (h : (ns.map (·.id)).Nodup) {x y : Node} (hx : x ∈ ns) (hy : y ∈ ns) (hid : x.id = y.id) : x = y := by
  induction ns with
  | nil => cases hx
  | cons z ns ih =>
    rw [List.map_cons, List.nodup_cons] at h
    rcases List.mem_cons.1 hx with rfl | hx' <;> rcases List.mem_cons.1 hy with rfl | hy'
    · rfl
    · exact absurd (hid ▸ List.mem_map_of_mem hy') h.1
    · exact absurd (hid ▸ List.mem_map_of_mem hx') h.1
    · exact ih h.2 hx' hy'

variable {files : List Addr} {ns : List Node} {m : Memory}

theorem Good.self_live (g : Good files ns m) {x : Node} (hx : x ∈ ns) {a : Addr} (ha : a ∈ x.owned) : a ∈ m.live := (g.live a).2 (.inr ⟨x, hx, ha⟩)

/-- what a container points to -/
theorem Good.container (g : Good files ns m) {x : Node} (hx : x ∈ ns) {self io : Addr} {s : Session} (hh : x.handle = some (.container self io (some s))) :
    self ∈ m.live ∧ io ∈ m.live ∧ s.file ∈ m.live ∧ ∀ a ∈ s.bag, a ∈ m.live := by
  have ho : x.owned = self :: io :: s.owned := by unfold Node.owned; rw [hh]; rfl
  refine ⟨g.self_live hx (by rw [ho]; simp), g.self_live hx (by rw [ho]; simp), ?_, ?_⟩
  · cases hc : s.created with
    | false => exact (g.live _).2 (.inl (g.session x hx self io s hh hc))
    | true => exact g.self_live hx (by rw [ho]; simp [Session.owned, hc])
  · intro a ha
    refine g.self_live hx ?_
    rw [ho]
    simp only [Session.owned, List.mem_cons, List.mem_append, Option.mem_toList]
    exact .inr (.inr (.inr ha))

theorem Good.volume (g : Good files ns m) {x : Node} (hx : x ∈ ns) {self io file : Addr} {bag : Option Addr} (hh : x.handle = some (.volume self io file bag)) :
    self ∈ m.live ∧ io ∈ m.live ∧ file ∈ m.live ∧ ∀ a ∈ bag, a ∈ m.live := by
  have ho : x.owned = [self] := by unfold Node.owned; rw [hh]; rfl
  rcases g.fits x hx _ hh with ⟨h, _⟩ | ⟨y, hy, _, p, hp, hf⟩
  · exact h.elim
  · unfold Fits at hf
    split at hf
    · next self' io' s _ io'' file' bag' heq =>
      cases heq
      obtain ⟨rfl, rfl, rfl⟩ := hf
      obtain ⟨_, h2, h3, h4⟩ := g.container hy hp
      exact ⟨g.self_live hx (by rw [ho]; simp), h2, h3, h4⟩
    all_goals first | (next heq => cases heq) | exact hf.elim

theorem Good.snapshot (g : Good files ns m) {x : Node} (hx : x ∈ ns) {self v : Addr} (hh : x.handle = some (.snapshot self v)) : self ∈ m.live ∧ v ∈ m.live := by
  have ho : x.owned = [self] := by unfold Node.owned; rw [hh]; rfl
  rcases g.fits x hx _ hh with ⟨h, _⟩ | ⟨y, hy, _, p, hp, hf⟩
  · exact h.elim
  · unfold Fits at hf
    split at hf
    · next heq => cases heq
    · next heq =>
      cases heq
      subst hf
      exact ⟨g.self_live hx (by rw [ho]; simp), (g.volume hy hp).1⟩
    all_goals first | (next heq => cases heq) | exact hf.elim

theorem Good.entry (g : Good files ns m) {x : Node} (hx : x ∈ ns) {self io file v : Addr} (hh : x.handle = some (.entry self io file v)) : self ∈ m.live ∧ io ∈ m.live ∧ file ∈ m.live ∧ v ∈ m.live := by
  have ho : x.owned = [self] := by unfold Node.owned; rw [hh]; rfl
  rcases g.fits x hx _ hh with ⟨h, _⟩ | ⟨y, hy, _, p, hp, hf⟩
  · exact h.elim
  · unfold Fits at hf
    split at hf
    · next heq => cases heq
    · next heq => cases heq
    · next heq =>
      cases heq
      obtain ⟨rfl, rfl, rfl⟩ := hf
      obtain ⟨h1, h2, h3, _⟩ := g.volume hy hp
      exact ⟨g.self_live hx (by rw [ho]; simp), h2, h3, h1⟩
    all_goals first | (next heq => cases heq) | exact hf.elim

theorem Good.attribute (g : Good files ns m) {x : Node} (hx : x ∈ ns) {self io file v e : Addr} (hh : x.handle = some (.attribute self io file v e)) :
    self ∈ m.live ∧ io ∈ m.live ∧ file ∈ m.live ∧ v ∈ m.live ∧ e ∈ m.live := by
  have ho : x.owned = [self] := by unfold Node.owned; rw [hh]; rfl
  rcases g.fits x hx _ hh with ⟨h, _⟩ | ⟨y, hy, _, p, hp, hf⟩
  · exact h.elim
  · unfold Fits at hf
    split at hf
    · next heq => cases heq
    · next heq => cases heq
    · next heq => cases heq
    · next heq =>
      cases heq
      obtain ⟨rfl, rfl, rfl, rfl⟩ := hf
      obtain ⟨h1, h2, h3, h4⟩ := g.entry hy hp
      exact ⟨g.self_live hx (by rw [ho]; simp), h2, h3, h4, h1⟩
    · exact hf.elim

/-- a function only accesses memory that lives -/
theorem Good.access (g : Good files ns m) {x : Node} (hx : x ∈ ns) {h : Handle} (hh : x.handle = some h) (f : Fn) : m.access (h.uses f) = some () := by
  rw [access_some]
  intro a ha
  cases h with
  | container self io s =>
    cases s with
    | none =>
      have ho : x.owned = [self, io] := by unfold Node.owned; rw [hh]; rfl
      have ha : a ∈ [self, io] := by cases f <;> exact ha
      exact g.self_live hx (by rw [ho]; exact ha)
    | some s =>
      have ha : a ∈ self :: io :: s.file :: s.bag.toList := by cases f <;> exact ha
      obtain ⟨h1, h2, h3, h4⟩ := g.container hx hh
      simp only [List.mem_cons, Option.mem_toList] at ha
      rcases ha with rfl | rfl | rfl | ha
      · exact h1
      · exact h2
      · exact h3
      · exact h4 a ha
  | volume self io file bag =>
    obtain ⟨h1, h2, h3, h4⟩ := g.volume hx hh
    cases f with
    | values => cases List.mem_singleton.1 ha; exact h1
    | unlock =>
      have ha : a ∈ self :: bag.toList := ha
      simp only [List.mem_cons, Option.mem_toList] at ha
      rcases ha with rfl | ha
      · exact h1
      · exact h4 a ha
    | files =>
      have ha : a ∈ [self, io, file] := ha
      simp only [List.mem_cons, List.not_mem_nil, or_false] at ha
      rcases ha with rfl | rfl | rfl <;> assumption
  | snapshot self v =>
    obtain ⟨h1, h2⟩ := g.snapshot hx hh
    have ha : a ∈ [self, v] := by cases f <;> exact ha
    simp only [List.mem_cons, List.not_mem_nil, or_false] at ha
    rcases ha with rfl | rfl <;> assumption
  | entry self io file v =>
    obtain ⟨h1, h2, h3, h4⟩ := g.entry hx hh
    have ha : a ∈ [self, io, file, v] := by
      cases f with
      | values => cases List.mem_singleton.1 ha; simp
      | unlock => exact ha
      | files => exact ha
    simp only [List.mem_cons, List.not_mem_nil, or_false] at ha
    rcases ha with rfl | rfl | rfl | rfl <;> assumption
  | «attribute» self io file v e =>
    obtain ⟨h1, h2, h3, h4, h5⟩ := g.attribute hx hh
    have ha : a ∈ [self, io, file, v, e] := by
      cases f with
      | values =>
        have ha : a ∈ [self, e] := ha
        simp only [List.mem_cons, List.not_mem_nil, or_false] at ha ⊢
        rcases ha with rfl | rfl <;> simp
      | unlock => exact ha
      | files => exact ha
    simp only [List.mem_cons, List.not_mem_nil, or_false] at ha
    rcases ha with rfl | rfl | rfl | rfl | rfl <;> assumption

/-- the memory that a container which is closed or freed accesses -/
theorem Good.free_access (g : Good files ns m) {x : Node} (hx : x ∈ ns) {h : Handle} (hh : x.handle = some h) : free h m = some { m with live := m.live.filter (· ∉ h.owned) } := by
  have ho : x.owned = h.owned := by unfold Node.owned; rw [hh]
  have hr : m.release h.owned = some { m with live := m.live.filter (· ∉ h.owned) } := by
    unfold Memory.release
    rw [(access_some (l := h.owned)).2 fun a ha => g.self_live hx (by rw [ho]; exact ha)]
    rfl
  unfold free
  cases h with
  | container self io s =>
    cases s with
    | none => exact hr
    | some s =>
      dsimp only
      rw [(access_some (l := [s.file])).2 (by
        intro a ha
        cases List.mem_singleton.1 ha
        exact (g.container hx hh).2.2.1)]
      exact hr
  | _ => exact hr

/-- freeing what nothing depends on -/
theorem Good.remove (g : Good files ns m) {x : Node} (hx : x ∈ ns) (hc : ∀ y ∈ ns, y.parent ≠ some x.id) :
    Good files (ns.filter (fun y => y.id ≠ x.id)) { m with live := m.live.filter (· ∉ x.owned) } where
  nodup := (List.filter_sublist.map _).nodup g.nodup
  parents y hy q hq := by
    obtain ⟨hy, _⟩ := List.mem_filter.1 hy
    obtain ⟨z, hz, rfl⟩ := g.parents y hy q hq
    refine ⟨z, List.mem_filter.2 ⟨hz, ?_⟩, rfl⟩
    rw [decide_eq_true_eq]
    intro h
    exact hc y hy (h ▸ hq)
  fits y hy h hh := by
    obtain ⟨hy, _⟩ := List.mem_filter.1 hy
    rcases g.fits y hy h hh with h1 | ⟨z, hz, h1, p, h2, h3⟩
    · exact .inl h1
    · refine .inr ⟨z, List.mem_filter.2 ⟨hz, ?_⟩, h1, p, h2, h3⟩
      rw [decide_eq_true_eq]
      intro h
      exact hc y hy (h ▸ h1)
  session y hy := g.session y (List.mem_filter.1 hy).1
  live a := by
    dsimp only
    rw [List.mem_filter, g.live]
    simp only [decide_eq_true_eq, List.mem_filter]
    constructor
    · rintro ⟨h1 | ⟨y, hy, ha⟩, h2⟩
      · exact .inl h1
      · refine .inr ⟨y, ⟨hy, fun h => h2 ?_⟩, ha⟩
        rw [← eq_of_id g.nodup hy hx h]
        exact ha
    · rintro (h1 | ⟨y, ⟨hy, hne⟩, ha⟩)
      · exact ⟨.inl h1, fun h => g.apart x hx a h h1⟩
      · exact ⟨.inr ⟨y, hy, ha⟩, g.disjoint y hy x hx hne a ha⟩
  apart y hy := g.apart y (List.mem_filter.1 hy).1
  disjoint y hy z hz := g.disjoint y (List.mem_filter.1 hy).1 z (List.mem_filter.1 hz).1
  below a ha := g.below a (List.mem_filter.1 ha).1
  once y hy := g.once y (List.mem_filter.1 hy).1

theorem next_not_live (g : Good files ns m) {a : Addr} (ha : m.next ≤ a) : a ∉ m.live := fun h => by
  exact absurd (g.below a h) (Nat.not_lt.2 ha)

/-- a new node; what it owns is new memory -/
theorem Good.add (g : Good files ns m) {x : Node} {m' : Memory} (hid : ∀ y ∈ ns, y.id ≠ x.id) (hp : ∀ q, x.parent = some q → ∃ y ∈ ns, y.id = q)
    (hf : ∀ h, x.handle = some h → (IsContainer h ∧ x.parent = none) ∨ ∃ y ∈ ns, x.parent = some y.id ∧ ∃ p, y.handle = some p ∧ Fits p h)
    (hs : ∀ self io s, x.handle ≠ some (.container self io (some s))) (hl : ∀ a, a ∈ m'.live ↔ a ∈ m.live ∨ a ∈ x.owned) (hn : ∀ a ∈ x.owned, m.next ≤ a ∧ a < m'.next) (hm : m.next ≤ m'.next) (ho : x.owned.Nodup) :
    Good files (x :: ns) m' where
  nodup := by
    rw [List.map_cons, List.nodup_cons]
    refine ⟨fun h => ?_, g.nodup⟩
    obtain ⟨y, hy, h⟩ := List.mem_map.1 h
    exact hid y hy h
  parents y hy q hq := by
    rcases List.mem_cons.1 hy with rfl | hy
    · obtain ⟨z, hz, h⟩ := hp q hq
      exact ⟨z, List.mem_cons_of_mem _ hz, h⟩
    · obtain ⟨z, hz, h⟩ := g.parents y hy q hq
      exact ⟨z, List.mem_cons_of_mem _ hz, h⟩
  fits y hy h hh := by
    have : (IsContainer h ∧ y.parent = none) ∨ ∃ z ∈ ns, y.parent = some z.id ∧ ∃ p, z.handle = some p ∧ Fits p h := by
      rcases List.mem_cons.1 hy with rfl | hy
      · exact hf h hh
      · exact g.fits y hy h hh
    rcases this with h1 | ⟨z, hz, h1⟩
    · exact .inl h1
    · exact .inr ⟨z, List.mem_cons_of_mem _ hz, h1⟩
  session y hy self io s hh := by
    rcases List.mem_cons.1 hy with rfl | hy
    · exact absurd hh (hs self io s)
    · exact g.session y hy self io s hh
  live a := by
    rw [hl, g.live]
    simp only [List.mem_cons]
    constructor
    · rintro ((h | ⟨y, hy, h⟩) | h)
      · exact .inl h
      · exact .inr ⟨y, .inr hy, h⟩
      · exact .inr ⟨x, .inl rfl, h⟩
    · rintro (h | ⟨y, rfl | hy, h⟩)
      · exact .inl (.inl h)
      · exact .inr h
      · exact .inl (.inr ⟨y, hy, h⟩)
  apart y hy a ha h := by
    rcases List.mem_cons.1 hy with rfl | hy
    · exact next_not_live g (hn a ha).1 ((g.live a).2 (.inl h))
    · exact g.apart y hy a ha h
  disjoint y hy z hz hne a ha hb := by
    rcases List.mem_cons.1 hy with rfl | hy' <;> rcases List.mem_cons.1 hz with rfl | hz'
    · exact hne rfl
    · exact next_not_live g (hn a ha).1 (g.self_live hz' hb)
    · exact next_not_live g (hn a hb).1 (g.self_live hy' ha)
    · exact g.disjoint y hy' z hz' hne a ha hb
  below a ha := by
    rcases (hl a).1 ha with h | h
    · have := g.below a h
      exact Nat.lt_of_lt_of_le this hm
    · exact (hn a h).2
  once y hy := by
    rcases List.mem_cons.1 hy with rfl | hy
    · exact ho
    · exact g.once y hy

/-- another handle for a node -/
def replace (ns : List Node) (n : Nat) (h : Handle) : List Node := ns.map (fun x => if x.id = n then { x with handle := some h } else x)

theorem mem_replace {n : Nat} {h : Handle} {x : Node} : x ∈ replace ns n h ↔ (x ∈ ns ∧ x.id ≠ n) ∨ ∃ y ∈ ns, y.id = n ∧ x = { y with handle := some h } := by
  unfold replace
  rw [List.mem_map]
  constructor
  · rintro ⟨y, hy, rfl⟩
    by_cases hn : y.id = n
    · rw [if_pos hn]
      exact .inr ⟨y, hy, hn, rfl⟩
    · rw [if_neg hn]
      exact .inl ⟨hy, hn⟩
  · rintro (⟨hx, hn⟩ | ⟨y, hy, hn, rfl⟩)
    · exact ⟨x, hx, if_neg hn⟩
    · exact ⟨y, hy, if_pos hn⟩

theorem replace_id (n : Nat) (h : Handle) : (replace ns n h).map (·.id) = ns.map (·.id) := by
  unfold replace
  rw [List.map_map]
  refine List.map_congr_left fun x _ => ?_
  dsimp only [Function.comp_def]
  split <;> rfl

/-- a handle of a container changes: what depends on it fits, what it owns was owned or is new -/
theorem Good.update (g : Good files ns m) {x : Node} (hx : x ∈ ns) {self io : Addr} {s s' : Option Session} (hh : x.handle = some (.container self io s)) {m' : Memory}
    (hc : ∀ y ∈ ns, y.parent = some x.id → ∀ d, y.handle = some d → Fits (.container self io s) d → Fits (.container self io s') d) (hs : ∀ t, s' = some t → t.created = false → t.file ∈ files)
    (hl : ∀ a, a ∈ m'.live ↔ (a ∈ m.live ∧ a ∉ (Handle.container self io s).owned) ∨ a ∈ (Handle.container self io s').owned)
    (hn : ∀ a ∈ (Handle.container self io s').owned, (m.next ≤ a ∧ a < m'.next) ∨ a ∈ (Handle.container self io s).owned) (hm : m.next ≤ m'.next) (hd : (Handle.container self io s').owned.Nodup) :
    Good files (replace ns x.id (.container self io s')) m' := by
  have ho : x.owned = (Handle.container self io s).owned := by unfold Node.owned; rw [hh]
  have hx' : ∀ y ∈ ns, y.id = x.id → y = x := fun y hy h => eq_of_id g.nodup hy hx h
  have hfiles : ∀ a ∈ (Handle.container self io s').owned, a ∉ files := fun a ha hf => by
    rcases hn a ha with h | h
    · exact next_not_live g h.1 ((g.live a).2 (.inl hf))
    · exact g.apart x hx a (by rw [ho]; exact h) hf
  have hother : ∀ y ∈ ns, y.id ≠ x.id → ∀ a ∈ (Handle.container self io s').owned, a ∉ y.owned := fun y hy hne a ha hf => by
    rcases hn a ha with h | h
    · exact next_not_live g h.1 (g.self_live hy hf)
    · exact g.disjoint y hy x hx hne a hf (by rw [ho]; exact h)
  refine { nodup := ?_, parents := ?_, fits := ?_, session := ?_, live := ?_, apart := ?_, disjoint := ?_, below := ?_, once := ?_ }
  · rw [replace_id]
    exact g.nodup
  · have hex : ∀ q, (∃ z ∈ ns, z.id = q) → ∃ z ∈ replace ns x.id (.container self io s'), z.id = q := by
      rintro q ⟨z, hz, rfl⟩
      by_cases h : z.id = x.id
      · exact ⟨{ z with handle := _ }, mem_replace.2 (.inr ⟨z, hz, h, rfl⟩), rfl⟩
      · exact ⟨z, mem_replace.2 (.inl ⟨hz, h⟩), rfl⟩
    intro y hy q hq
    rcases mem_replace.1 hy with ⟨hy, _⟩ | ⟨z, hz, _, rfl⟩
    · exact hex q (g.parents y hy q hq)
    · exact hex q (g.parents z hz q hq)
  · intro y hy d hd
    rcases mem_replace.1 hy with ⟨hy', hne⟩ | ⟨z, hz, hid, rfl⟩
    · rcases g.fits y hy' d hd with h | ⟨z, hz, h1, p, h2, h3⟩
      · exact .inl h
      · by_cases hzx : z.id = x.id
        · have := hx' z hz hzx
          subst this
          rw [hh] at h2
          cases h2
          exact .inr ⟨{ z with handle := some (.container self io s') }, mem_replace.2 (.inr ⟨z, hz, rfl, rfl⟩), h1, _, rfl, hc y hy' h1 d hd h3⟩
        · exact .inr ⟨z, mem_replace.2 (.inl ⟨hz, hzx⟩), h1, p, h2, h3⟩
    · have := hx' z hz hid
      subst this
      cases hd
      rcases g.fits z hz _ hh with ⟨_, h⟩ | ⟨w, _, _, p, _, h3⟩
      · exact .inl ⟨trivial, h⟩
      · exact (not_fits_container h3).elim
  · intro y hy self' io' t ht hcr
    rcases mem_replace.1 hy with ⟨hy, _⟩ | ⟨z, hz, _, rfl⟩
    · exact g.session y hy self' io' t ht hcr
    · cases ht
      exact hs t rfl hcr
  · intro a
    rw [hl, g.live]
    constructor
    · rintro (⟨h1 | ⟨y, hy, ha⟩, h2⟩ | h)
      · exact .inl h1
      · refine .inr ⟨y, mem_replace.2 (.inl ⟨hy, fun h => h2 ?_⟩), ha⟩
        rw [← ho, ← hx' y hy h]
        exact ha
      · exact .inr ⟨{ x with handle := some (.container self io s') }, mem_replace.2 (.inr ⟨x, hx, rfl, rfl⟩), h⟩
    · rintro (h | ⟨y, hy, ha⟩)
      · exact .inl ⟨.inl h, fun h' => g.apart x hx a (by rw [ho]; exact h') h⟩
      · rcases mem_replace.1 hy with ⟨hy, hne⟩ | ⟨z, hz, _, rfl⟩
        · exact .inl ⟨.inr ⟨y, hy, ha⟩, fun h' => g.disjoint y hy x hx hne a ha (by rw [ho]; exact h')⟩
        · exact .inr ha
  · intro y hy a ha
    rcases mem_replace.1 hy with ⟨hy, _⟩ | ⟨z, hz, _, rfl⟩
    · exact g.apart y hy a ha
    · exact hfiles a ha
  · intro y hy z hz hne a ha hb
    rcases mem_replace.1 hy with ⟨hy, h1⟩ | ⟨y', hy', h1, rfl⟩ <;> rcases mem_replace.1 hz with ⟨hz, h2⟩ | ⟨z', hz', h2, rfl⟩
    · exact g.disjoint y hy z hz hne a ha hb
    · exact hother y hy h1 a hb ha
    · exact hother z hz h2 a ha hb
    · exact hne (h1.trans h2.symm)
  · intro a ha
    rcases (hl a).1 ha with ⟨h, _⟩ | h
    · have := g.below a h
      exact Nat.lt_of_lt_of_le this hm
    · rcases hn a h with h | h
      · exact h.2
      · exact Nat.lt_of_lt_of_le (g.below a (g.self_live hx (by rw [ho]; exact h))) hm
  · intro y hy
    rcases mem_replace.1 hy with ⟨hy, _⟩ | ⟨z, hz, _, rfl⟩
    · exact g.once y hy
    · exact hd

/-! functions -/

/-- the kind of a handle; `none` is a container -/
def Handle.kind : Handle → Option Want
  | .container .. => none
  | .volume .. => some .volume
  | .snapshot .. => some .snapshot
  | .entry .. => some .entry
  | .attribute .. => some .attribute

theorem replace_same (g : Good files ns m) {x : Node} (hx : x ∈ ns) {h : Handle} (hh : x.handle = some h) : replace ns x.id h = ns := by
  unfold replace
  refine (List.map_congr_left fun y hy => ?_).trans (List.map_id ns)
  split
  · next hid =>
    rw [eq_of_id g.nodup hy hx hid, ← hh]
    rfl
  · rfl

theorem mem_alloc {a : Addr} : a ∈ m.alloc.live ↔ a = m.next ∨ a ∈ m.live := List.mem_cons
theorem next_alloc : m.alloc.next = m.next + 1 := rfl

theorem Good.open_ (g : Good files ns m) {x : Node} (hx : x ∈ ns) {h : Handle} (hh : x.handle = some h) {given : Option Addr} (hg : ∀ f ∈ given, f ∈ files) (encrypted : Bool) :
    ∃ h' m', open_ h given encrypted m = some (h', m') ∧ h'.kind = h.kind ∧ Good files (replace ns x.id h') m' := by
  have hu := g.access hx hh .values
  unfold Handles.open_
  split
  · next self io =>
    have ho : x.owned = [self, io] := by unfold Node.owned; rw [hh]; rfl
    have ha : m.access (self :: io :: given.toList) = some () := by
      rw [access_some]
      intro a ha
      simp only [List.mem_cons, Option.mem_toList] at ha
      rcases ha with rfl | rfl | ha
      · exact g.self_live hx (by rw [ho]; simp)
      · exact g.self_live hx (by rw [ho]; simp)
      · exact (g.live a).2 (.inl (hg a ha))
    rw [ha]
    have hself : self ∈ m.live := g.self_live hx (by rw [ho]; simp)
    have hio : io ∈ m.live := g.self_live hx (by rw [ho]; simp)
    have key : ∀ (t : Session) (m' : Memory), (t.created = false → t.file ∈ files) → (∀ a, a ∈ m'.live ↔ a ∈ m.live ∨ a ∈ t.owned) → (∀ a ∈ t.owned, m.next ≤ a ∧ a < m'.next) → m.next ≤ m'.next → t.owned.Nodup →
        Good files (replace ns x.id (.container self io (some t))) m' := by
      intro t m' h1 h2 h3 h4 h5
      refine g.update hx hh ?_ ?_ ?_ ?_ h4 ?_
      · intro y _ _ d _ hf
        exact hf.elim
      · rintro t' h5 h6
        cases h5
        exact h1 h6
      · intro a
        rw [h2]
        show _ ↔ (a ∈ m.live ∧ a ∉ [self, io]) ∨ a ∈ self :: io :: t.owned
        simp only [List.mem_cons, List.not_mem_nil, or_false, not_or]
        constructor
        · rintro (h | h)
          · by_cases e1 : a = self
            · exact .inr (.inl e1)
            · by_cases e2 : a = io
              · exact .inr (.inr (.inl e2))
              · exact .inl ⟨h, e1, e2⟩
          · exact .inr (.inr (.inr h))
        · rintro (⟨h, _⟩ | rfl | rfl | h)
          · exact .inl h
          · exact .inl hself
          · exact .inl hio
          · exact .inr h
      · intro a h
        have h : a ∈ self :: io :: t.owned := h
        simp only [List.mem_cons] at h
        rcases h with rfl | rfl | h
        · exact .inr (by show _ ∈ [_, _]; simp)
        · exact .inr (by show _ ∈ [_, _]; simp)
        · exact .inl (h3 a h)
      · have hsi := g.once x hx
        rw [ho] at hsi
        show (self :: io :: t.owned).Nodup
        have hn : ∀ a ∈ m.live, a ∉ t.owned := fun a ha h => next_not_live g (h3 a h).1 ha
        simp only [List.nodup_cons, List.mem_cons, List.not_mem_nil, not_false_eq_true, or_false, not_or, List.nodup_nil, and_true] at hsi ⊢
        exact ⟨⟨hsi, hn _ hself⟩, hn _ hio, h5⟩
    cases given with
    | some f =>
      cases encrypted with
      | false => exact ⟨_, _, rfl, rfl, key _ m (fun _ => hg f rfl) (by intro a; simp [Session.owned]) (by intro a h; simp [Session.owned] at h) (Nat.le_refl _) (by simp [Session.owned])⟩
      | true =>
        refine ⟨_, _, rfl, rfl, key _ m.alloc (fun _ => hg f rfl) (by intro a; simp only [mem_alloc, Session.owned]; simp [or_comm]) ?_ (Nat.le_succ _) (by simp [Session.owned])⟩
        intro a h
        simp [Session.owned] at h
        subst h
        exact ⟨Nat.le_refl _, Nat.lt_succ_self _⟩
    | none =>
      cases encrypted with
      | false =>
        refine ⟨_, _, rfl, rfl, key _ m.alloc (fun h => by cases h) (by intro a; simp only [mem_alloc, Session.owned]; simp [or_comm]) ?_ (Nat.le_succ _) (by simp [Session.owned])⟩
        intro a h
        simp [Session.owned] at h
        subst h
        exact ⟨Nat.le_refl _, Nat.lt_succ_self _⟩
      | true =>
        refine ⟨_, _, rfl, rfl, key _ m.alloc.alloc (fun h => by cases h) ?_ ?_ (Nat.le_trans (Nat.le_succ _) (Nat.le_succ _)) (by simp [Session.owned, next_alloc])⟩
        · intro a
          simp only [mem_alloc, Session.owned, next_alloc]
          simp
          constructor
          · rintro (h | h | h) <;> simp [h]
          · rintro (h | h | h) <;> simp [h]
        · intro a h
          simp [Session.owned, next_alloc] at h
          rcases h with rfl | rfl
          · exact ⟨Nat.le_refl _, Nat.lt_succ_of_lt (Nat.lt_succ_self _)⟩
          · exact ⟨Nat.le_succ _, Nat.lt_succ_self _⟩
  · rw [hu]
    exact ⟨h, m, rfl, rfl, by rw [replace_same g hx hh]; exact g⟩

theorem Good.close (g : Good files ns m) {x : Node} (hx : x ∈ ns) {h : Handle} (hh : x.handle = some h) (hc : ∀ y ∈ ns, y.parent ≠ some x.id) :
    ∃ h' m', close h m = some (h', m') ∧ h'.kind = h.kind ∧ Good files (replace ns x.id h') m' := by
  have hu := g.access hx hh .values
  unfold Handles.close
  split
  · next self io t =>
    have ho : x.owned = self :: io :: t.owned := by unfold Node.owned; rw [hh]; rfl
    obtain ⟨h1, h2, h3, h4⟩ := g.container hx hh
    have hs := g.once x hx
    rw [ho, List.nodup_cons, List.nodup_cons] at hs
    have hs' : [self, io].Nodup := by
      simp only [List.nodup_cons, List.mem_singleton, List.not_mem_nil, not_false_eq_true, List.nodup_nil, and_true]
      exact fun h => hs.1 (List.mem_cons.2 (.inl h))
    rw [(access_some (l := [self, io, t.file])).2 (by
      intro a ha
      simp only [List.mem_cons, List.not_mem_nil, or_false] at ha
      rcases ha with rfl | rfl | rfl <;> assumption)]
    have hr : m.release t.owned = some { m with live := m.live.filter (· ∉ t.owned) } := by
      unfold Memory.release
      rw [(access_some (l := t.owned)).2 fun a ha => g.self_live hx (by rw [ho]; exact List.mem_cons_of_mem _ (List.mem_cons_of_mem _ ha))]
      rfl
    refine ⟨.container self io none, { m with live := m.live.filter (· ∉ t.owned) }, ?_, rfl, ?_⟩
    · show (m.release t.owned).bind (fun m => some (Handle.container self io none, m)) = _
      rw [hr]
      rfl
    · refine g.update hx hh (fun y hy hp => absurd hp (hc y hy)) (fun _ h => by cases h) ?_ ?_ (Nat.le_refl _) hs'
      · intro a
        show _ ↔ (a ∈ m.live ∧ a ∉ self :: io :: t.owned) ∨ a ∈ [self, io]
        simp only [List.mem_filter, decide_eq_true_eq, List.mem_cons, List.not_mem_nil, or_false, not_or]
        constructor
        · rintro ⟨h, h'⟩
          by_cases e1 : a = self
          · exact .inr (.inl e1)
          · by_cases e2 : a = io
            · exact .inr (.inr e2)
            · exact .inl ⟨h, e1, e2, h'⟩
        · rintro (⟨h, _, _, h'⟩ | rfl | rfl)
          · exact ⟨h, h'⟩
          · exact ⟨h1, fun h => hs.1 (List.mem_cons_of_mem _ h)⟩
          · exact ⟨h2, hs.2.1⟩
      · intro a h
        have h : a ∈ [self, io] := h
        refine .inr ?_
        show a ∈ self :: io :: t.owned
        simp only [List.mem_cons, List.not_mem_nil, or_false] at h ⊢
        rcases h with h | h
        · exact .inl h
        · exact .inr (.inl h)
  · rw [hu]
    exact ⟨h, m, rfl, rfl, by rw [replace_same g hx hh]; exact g⟩

theorem Good.initialize_ (g : Good files ns m) {n : Nat} (hn : ∀ y ∈ ns, y.id ≠ n) : Good files (⟨n, some (initialize_ m).1, none⟩ :: ns) (initialize_ m).2 := by
  refine g.add hn (fun q h => by cases h) (fun h hh => .inl ?_) (fun _ _ _ h => by cases h) ?_ ?_ (Nat.le_trans (Nat.le_succ _) (Nat.le_succ _)) ?_
  · cases hh
    exact ⟨trivial, rfl⟩
  · intro a
    show a ∈ m.alloc.alloc.live ↔ a ∈ m.live ∨ a ∈ [m.next, m.next + 1]
    simp only [mem_alloc, next_alloc, List.mem_cons, List.not_mem_nil, or_false]
    constructor
    · rintro (h | h | h) <;> simp [h]
    · rintro (h | h | h) <;> simp [h]
  · intro a ha
    have ha : a ∈ [m.next, m.next + 1] := ha
    simp only [List.mem_cons, List.not_mem_nil, or_false] at ha
    rcases ha with rfl | rfl
    · exact ⟨Nat.le_refl _, Nat.lt_succ_of_lt (Nat.lt_succ_self _)⟩
    · exact ⟨Nat.le_succ _, Nat.lt_succ_self _⟩
  · show [m.next, m.next + 1].Nodup
    simp

theorem Good.superblock (g : Good files ns m) (w : Want) : Good files ns (openSnapshot w m) := by
  cases w with
  | snapshot => exact { nodup := g.nodup, parents := g.parents, fits := g.fits, session := g.session, live := g.live, apart := g.apart, disjoint := g.disjoint, below := g.below, once := g.once }
  | _ => exact g

theorem Good.get (g : Good files ns m) {x : Node} (hx : x ∈ ns) {h : Handle} (hh : x.handle = some h) (w : Want) (succeeds : Bool) :
    (∃ w', (w ≠ .snapshot → openSnapshot w' m = m) ∧ get h w succeeds m = some (none, openSnapshot w' m)) ∨ ∃ d, h.derive m.next w = some d ∧ get h w succeeds m = some (some d, openSnapshot w m.alloc) := by
  unfold Handles.get
  rw [g.access hx hh .files]
  cases hd : h.derive m.next w with
  | none => exact .inl ⟨.volume, fun _ => rfl, by simp [openSnapshot]⟩
  | some d =>
    cases succeeds with
    | false => exact .inl ⟨w, fun h => by cases w <;> first | rfl | exact absurd rfl h, by simp⟩
    | true => exact .inr ⟨d, rfl, by simp⟩

/-- what a handle that was obtained from `x` depends on -/
def Node.parentOf (x : Node) (h : Handle) (w : Want) : Option Nat := if w = .entry ∧ h.kind = some .entry then x.parent else some x.id

theorem Good.derive (g : Good files ns m) {x : Node} (hx : x ∈ ns) {h : Handle} (hh : x.handle = some h) {w : Want} {d : Handle} (hd : h.derive m.next w = some d) {n : Nat} (hn : ∀ y ∈ ns, y.id ≠ n) :
    Good files (⟨n, some d, x.parentOf h w⟩ :: ns) m.alloc ∧ d.kind = some w := by
  have ho : d.owned = [m.next] ∧ d.kind = some w ∧ ¬ IsContainer d ∧ ((w = .entry ∧ h.kind = some .entry ∧ ∀ p, Fits p h → Fits p d) ∨ (¬ (w = .entry ∧ h.kind = some .entry) ∧ Fits h d)) := by
    unfold Handle.derive at hd
    split at hd
    · cases hd; exact ⟨rfl, rfl, id, .inr ⟨(fun h => by cases h.1), rfl, rfl, rfl⟩⟩
    · cases hd; exact ⟨rfl, rfl, id, .inr ⟨(fun h => by cases h.1), rfl⟩⟩
    · cases hd; exact ⟨rfl, rfl, id, .inr ⟨(fun h => by cases h.2), rfl, rfl, rfl⟩⟩
    · cases hd
      refine ⟨rfl, rfl, id, .inl ⟨rfl, rfl, fun p hp => ?_⟩⟩
      cases p with
      | container _ _ s => cases s <;> exact hp
      | volume => exact hp
      | snapshot => exact hp
      | entry => exact hp
      | «attribute» => exact hp
    · cases hd; exact ⟨rfl, rfl, id, .inr ⟨(fun h => by cases h.1), rfl, rfl, rfl, rfl⟩⟩
    · cases hd
  obtain ⟨h1, h2, h3, h4⟩ := ho
  refine ⟨?_, h2⟩
  have hp : ∃ y ∈ ns, x.parentOf h w = some y.id ∧ ∃ p, y.handle = some p ∧ Fits p d := by
    unfold Node.parentOf
    rcases h4 with ⟨e1, e2, h4⟩ | ⟨e, h4⟩
    · rw [if_pos ⟨e1, e2⟩]
      rcases g.fits x hx h hh with ⟨hi, _⟩ | ⟨y, hy, hy', p, hp, hf⟩
      · cases h with
        | container => cases e2
        | _ => exact hi.elim
      · exact ⟨y, hy, hy', p, hp, h4 p hf⟩
    · rw [if_neg e]
      exact ⟨x, hx, rfl, h, hh, h4⟩
  have hown : (Node.mk n (some d) (x.parentOf h w)).owned = [m.next] := h1
  refine g.add hn ?_ ?_ ?_ ?_ ?_ (Nat.le_succ _) ?_
  · intro q hq
    obtain ⟨y, hy, hy', _⟩ := hp
    exact ⟨y, hy, Option.some.inj (hy'.symm.trans hq)⟩
  · intro d' hd'
    cases hd'
    exact .inr hp
  · intro self io s hs
    cases hs
    exact h3 trivial
  · intro a
    rw [hown, mem_alloc, List.mem_singleton, or_comm]
  · intro a ha
    rw [hown] at ha
    cases List.mem_singleton.1 ha
    exact ⟨Nat.le_refl _, Nat.lt_succ_self _⟩
  · rw [hown]
    simp

end Verif.Handles
