import Verif.Props.C55Examples
import Verif.Spec.Sequence
/-!
# C65: Sequences in Python

An iterator over a sequence gives every item once and in order. A sequence has only one iterator, which is the sequence.
-/
namespace Verif.Props
open Verif Res Spec BTree FsTree NameLookup
open Verif.FileRead (FileNode Files Lookups NodeCall NodeResult call lookups)
open Verif.PySequence (Use Answer Sequence use run got subEntry subEntries)
open Verif.Spec.Sequence (OneIterator Positions)

section
variable {α σ : Type}

/-- a function that gets items, with a state: what it gives for each index is the item, or an exception -/
def Honest (inv : σ → Prop) (items : List (Option α)) (fault : Prop) (get : Nat → σ → Res α × σ) : Prop :=
  ∀ t, inv t → ∀ k x, items[k]? = some x → inv (get k t).2 ∧ ((∃ a, x = some a ∧ (get k t).1 = ok a) ∨ (x = none ∧ (get k t).1 = err) ∨ (fault ∧ (get k t).1 = err))

/-- the position of the iterator and the index in the object -/
def Positioned (items : List (Option α)) (it : Nat) (started : Bool) (p : Positions) (s : Sequence) : Prop :=
  s.number = items.length ∧ (started = false → s.current = 0) ∧ (started = true → p it = some s.current ∧ s.current ≤ items.length)

theorem item_step {inv : σ → Prop} {items : List (Option α)} {fault : Prop} {get : Nat → σ → Res α × σ} (hg : Honest inv items fault get) {t : σ} (ht : inv t) {s : Sequence}
    (hs : s.number = items.length) (hlen : items.length < 2 ^ 31) (i : Int) (p : Positions) :
    ∃ r t', use get (.item i) s t = (r, s, t') ∧ r ≠ ub ∧ inv t' ∧ Spec.Sequence.Step items p (.item i) fault (match r with | .ok a => some a | _ => none) p := by
  unfold use
  dsimp only
  by_cases h64 : i < -2 ^ 63 ∨ 2 ^ 63 ≤ i
  · rw [if_pos h64]
    exact ⟨err, t, rfl, by simp, ht, .itemOutside (by omega)⟩
  · rw [if_neg h64, hs]
    generalize hj : (if i < 0 then i + (items.length : Int) else i) = j
    by_cases hout : j < 0 ∨ (items.length : Int) ≤ j
    · rw [if_pos hout]
      refine ⟨err, t, rfl, by simp, ht, .itemOutside ?_⟩
      split at hj <;> omega
    · rw [if_neg hout]
      obtain ⟨k, rfl⟩ := Int.eq_ofNat_of_zero_le (show 0 ≤ j by omega)
      have hk : k < items.length := by omega
      obtain ⟨h1, h2⟩ := hg t ht k items[k] (List.getElem?_eq_getElem hk)
      rw [Int.toNat_natCast]
      have hback : i < 0 → ∃ m : Nat, i = -(m : Int) ∧ 0 < m ∧ m ≤ items.length ∧ items.length - m = k := by
        intro hi
        rw [if_pos hi] at hj
        exact ⟨(-i).toNat, by omega, by omega, by omega, by omega⟩
      have hfwd : ¬ i < 0 → i = (k : Int) := by
        intro hi
        rw [if_neg hi] at hj
        exact hj
      have hx := List.getElem?_eq_getElem hk
      cases hgk : get k t with
      | mk r t' =>
        rw [hgk] at h1 h2
        dsimp only at h1 h2
        rcases h2 with ⟨a, ha, hr⟩ | ⟨ha, hr⟩ | ⟨hf, hr⟩
        · subst hr
          refine ⟨ok (.value a), t', rfl, by simp, h1, ?_⟩
          by_cases hi : i < 0
          · obtain ⟨m, rfl, m1, m2, m3⟩ := hback hi
            exact .itemBack m1 m2 (by rw [m3, hx, ha])
          · rw [hfwd hi]
            exact .item (by rw [hx, ha])
        · subst hr
          refine ⟨err, t', rfl, by simp, h1, ?_⟩
          by_cases hi : i < 0
          · obtain ⟨m, rfl, m1, m2, m3⟩ := hback hi
            exact .itemBackMissing m1 m2 (by rw [m3, hx, ha])
          · rw [hfwd hi]
            exact .itemMissing (by rw [hx, ha])
        · subst hr
          exact ⟨err, t', rfl, by simp, h1, .itemFault hf⟩

theorem next_step {inv : σ → Prop} {items : List (Option α)} {fault : Prop} {get : Nat → σ → Res α × σ} (hg : Honest inv items fault get) {t : σ} (ht : inv t) {s : Sequence}
    (hs : s.number = items.length) {it : Nat} {p : Positions} (hp : p it = some s.current) (hle : s.current ≤ items.length) :
    ∃ r s' t' p', use get (.next it) s t = (r, s', t') ∧ r ≠ ub ∧ inv t' ∧ s'.number = items.length ∧ p' it = some s'.current ∧ s'.current ≤ items.length ∧
      Spec.Sequence.Step items p (.next it) fault (match r with | .ok a => some a | _ => none) p' := by
  unfold use
  dsimp only
  by_cases hend : s.current ≥ s.number
  · rw [if_pos hend]
    refine ⟨ok .stop, s, t, p, rfl, by simp, ht, hs, hp, hle, .stop ?_⟩
    rw [hp]
    congr 1
    omega
  · rw [if_neg hend]
    have hk : s.current < items.length := by omega
    have hx := List.getElem?_eq_getElem hk
    obtain ⟨h1, h2⟩ := hg t ht s.current _ hx
    cases hgk : get s.current t with
    | mk r t' =>
      rw [hgk] at h1 h2
      dsimp only at h1 h2
      rcases h2 with ⟨a, ha, hr⟩ | ⟨ha, hr⟩ | ⟨hf, hr⟩
      · subst hr
        refine ⟨ok (.value a), { s with current := s.current + 1 }, t', p.set it (s.current + 1), rfl, by simp, h1, hs, ?_, hk, .next hp (by rw [hx, ha])⟩
        unfold Positions.set
        exact if_pos rfl
      · subst hr
        exact ⟨err, s, t', p, rfl, by simp, h1, hs, hp, hle, .nextMissing hp (by rw [hx, ha])⟩
      · subst hr
        exact ⟨err, s, t', p, rfl, by simp, h1, hs, hp, hle, .nextFault hp hk hf⟩

theorem uses_trace {inv : σ → Prop} {items : List (Option α)} (hlen : items.length < 2 ^ 31) {it : Nat} : ∀ (us : List (Use × Prop × (Nat → σ → Res α × σ))) (started : Bool) (p : Positions) (s : Sequence) (t : σ),
    OneIterator it started (us.map (·.1)) → (∀ u ∈ us, Honest inv items u.2.1 u.2.2) → inv t → Positioned items it started p s →
    (∀ r ∈ run (us.map fun u => (u.1, u.2.2)) s t, r ≠ ub) ∧ Spec.Sequence.Trace items p (Spec.Sequence.seen (us.map fun u => (u.1, u.2.1)) (run (us.map fun u => (u.1, u.2.2)) s t))
  | [], _, _, _, _, _, _, _, _ => ⟨by simp [run], .nil⟩
  | (u, fault, get) :: us, started, p, s, t, ho, hg, ht, hpos => by
    have hg1 : Honest inv items fault get := hg _ (List.mem_cons_self ..)
    have ih : ∀ started' p' s' t', OneIterator it started' (us.map (·.1)) → inv t' → Positioned items it started' p' s' → _ :=
      fun started' p' s' t' h1 h2 h3 => uses_trace hlen us started' p' s' t' h1 (fun u hu => hg u (List.mem_cons_of_mem _ hu)) h2 h3
    have hfin : ∀ r s' t' started' p', use get u s t = (r, s', t') → r ≠ ub → OneIterator it started' (us.map (·.1)) → inv t' → Positioned items it started' p' s' →
        Spec.Sequence.Step items p u fault (match r with | .ok a => some a | _ => none) p' →
        (∀ r ∈ run (((u, fault, get) :: us).map fun u => (u.1, u.2.2)) s t, r ≠ ub) ∧
          Spec.Sequence.Trace items p (Spec.Sequence.seen (((u, fault, get) :: us).map fun u => (u.1, u.2.1)) (run (((u, fault, get) :: us).map fun u => (u.1, u.2.2)) s t)) := by
      intro r s' t' started' p' h1 h2 h3 h4 h5 h6
      obtain ⟨i1, i2⟩ := ih started' p' s' t' h3 h4 h5
      have hrun : run (((u, fault, get) :: us).map fun u => (u.1, u.2.2)) s t = r :: run (us.map fun u => (u.1, u.2.2)) s' t' := by
        rw [List.map_cons, run, h1]
      rw [hrun]
      refine ⟨fun x hx => ?_, .cons h6 i2⟩
      rcases List.mem_cons.1 hx with rfl | hx
      · exact h2
      · exact i1 x hx
    cases u with
    | len =>
      refine hfin (ok (.number s.number)) s t started p rfl (by simp) ho ht hpos ?_
      rw [hpos.1]
      exact .len
    | item i =>
      obtain ⟨r, t', h1, h2, h3, h4⟩ := item_step hg1 ht hpos.1 hlen i p
      exact hfin r s t' started p h1 h2 ho h3 hpos h4
    | iter j =>
      obtain ⟨o1, o2, o3⟩ := ho
      subst o2
      refine hfin (ok .iterator) s t true (p.set j 0) rfl (by simp) o3 ht ⟨hpos.1, (fun h => by cases h), fun _ => ?_⟩ .iter
      rw [hpos.2.1 o1]
      refine ⟨?_, Nat.zero_le _⟩
      unfold Positions.set
      exact if_pos rfl
    | next j =>
      obtain ⟨o1, o2, o3⟩ := ho
      subst o2
      obtain ⟨q1, q2⟩ := hpos.2.2 o1
      obtain ⟨r, s', t', p', h1, h2, h3, h4, h5, h6, h7⟩ := next_step hg1 ht hpos.1 q1 q2
      exact hfin r s' t' started p' h1 h2 o3 h3 ⟨h4, (fun h => by rw [o1] at h; cases h), fun _ => ⟨h5, h6⟩⟩ h7

/-- **C65.** A sequence of items gives what Python describes, for all uses in any order with one iterator, whichever of them fail.

The full statement is for any number of iterators; it is false, see `c65_second_iterator`. -/
theorem c65_uses_partial {inv : σ → Prop} {items : List (Option α)} (hlen : items.length < 2 ^ 31) (it : Nat) (us : List (Use × Prop × (Nat → σ → Res α × σ)))
    (ho : OneIterator it false (us.map (·.1))) (hg : ∀ u ∈ us, Honest inv items u.2.1 u.2.2) {t : σ} (ht : inv t) :
    (∀ r ∈ run (us.map fun u => (u.1, u.2.2)) { number := items.length } t, r ≠ ub) ∧
    Spec.Sequence.Trace items (fun _ => none) (Spec.Sequence.seen (us.map fun u => (u.1, u.2.1)) (run (us.map fun u => (u.1, u.2.2)) { number := items.length } t)) :=
  uses_trace hlen us false _ _ t ho hg ht ⟨rfl, fun _ => rfl, fun h => by cases h⟩

/-- `next`, `n` times -/
theorem nexts {inv : σ → Prop} {items : List (Option α)} {get : Nat → σ → Res α × σ} (hg : Honest inv items False get) (its : Nat → Nat) : ∀ (l : List α) (k : Nat) (t : σ) (rest : List (Use × (Nat → σ → Res α × σ))),
    inv t → items.drop k = l.map some → k ≤ items.length →
    ∃ t', inv t' ∧ run (((List.range' k l.length).map fun j => (Use.next (its j), get)) ++ rest) { current := k, number := items.length } t = l.map (fun a => ok (.value a)) ++ run rest { current := items.length, number := items.length } t'
  | [], k, t, rest, ht, hd, hk => by
    have : items.length - k = 0 := by
      have := congrArg List.length hd
      rwa [List.length_drop, List.length_map] at this
    rw [show k = items.length by omega]
    exact ⟨t, ht, rfl⟩
  | a :: l, k, t, rest, ht, hd, hk => by
    have hx : items[k]? = some (some a) := by
      have := congrArg (·[0]?) hd
      simpa using this
    have hlt : k < items.length := (List.getElem?_eq_some_iff.1 hx).1
    have hd' : items.drop (k + 1) = l.map some := by
      have := congrArg (List.drop 1) hd
      rw [List.drop_drop] at this
      simpa using this
    obtain ⟨h1, h2⟩ := hg t ht k _ hx
    cases hgk : get k t with
    | mk r t1 =>
      rw [hgk] at h1 h2
      dsimp only at h1 h2
      rcases h2 with ⟨b, hb, hr⟩ | ⟨hb, _⟩ | ⟨hf, _⟩
      · subst hr
        cases hb
        obtain ⟨t', i1, i2⟩ := nexts hg its l (k + 1) t1 rest h1 hd' hlt
        refine ⟨t', i1, ?_⟩
        rw [List.length_cons, List.range'_succ, List.map_cons, List.cons_append, run]
        have hu : use get (.next (its k)) { current := k, number := items.length } t = (ok (.value a), { current := k + 1, number := items.length }, t1) := by
          unfold use
          dsimp only
          rw [if_neg (by omega), hgk]
        rw [hu]
        dsimp only
        rw [i2]
        rfl
      · cases hb
      · exact hf.elim

/-- **C65, refuted**: after a loop over all the items, a second loop over the same object gets nothing. -/
theorem c65_second_iterator {inv : σ → Prop} {items : List α} {get : Nat → σ → Res α × σ} (hg : Honest inv (items.map some) False get) {t : σ} (ht : inv t) :
    run ((Use.iter 0, get) :: ((List.range items.length).map fun _ => (Use.next 0, get)) ++ [(Use.next 0, get), (Use.iter 1, get), (Use.next 1, get)]) { number := items.length } t =
      ok .iterator :: items.map (fun a => ok (.value a)) ++ [ok .stop, ok .iterator, ok .stop] := by
  obtain ⟨t', h1, h2⟩ := nexts hg (fun _ => 0) items 0 t [(Use.next 0, get), (Use.iter 1, get), (Use.next 1, get)] ht rfl (Nat.zero_le _)
  rw [List.length_map, ← List.range_eq_range'] at h2
  rw [List.cons_append, run]
  show ok .iterator :: run _ { number := items.length } t = _
  rw [h2]
  have : run [(Use.next 0, get), (Use.iter 1, get), (Use.next 1, get)] { current := items.length, number := items.length } t' = [ok .stop, ok .iterator, ok .stop] := by
    simp only [run, use]
    rw [if_pos (Nat.le_refl _)]
    dsimp only
    rw [if_pos (Nat.le_refl _)]
  rw [this]
  rfl

/-- **C65, refuted**: of two loops over the same object, one inside the other, the inner one gets the items after the first, and the outer one ends with it. -/
theorem c65_nested {inv : σ → Prop} {a : α} {items : List α} {get : Nat → σ → Res α × σ} (hg : Honest inv ((a :: items).map some) False get) {t : σ} (ht : inv t) :
    run ([(Use.iter 0, get), (Use.next 0, get), (Use.iter 1, get)] ++ ((List.range' 1 items.length).map fun _ => (Use.next 1, get)) ++ [(Use.next 1, get), (Use.next 0, get)]) { number := items.length + 1 } t =
      [ok .iterator, ok (.value a), ok .iterator] ++ items.map (fun a => ok (.value a)) ++ [ok .stop, ok .stop] := by
  obtain ⟨h1, h2⟩ := hg t ht 0 (some a) rfl
  have hlen : ((a :: items).map some).length = items.length + 1 := by simp
  cases hgk : get 0 t with
  | mk r t1 =>
    rw [hgk] at h1 h2
    dsimp only at h1 h2
    rcases h2 with ⟨b, hb, hr⟩ | ⟨hb, _⟩ | ⟨hf, _⟩
    · cases hb
      subst hr
      obtain ⟨t', i1, i2⟩ := nexts hg (fun _ => 1) items 1 t1 [(Use.next 1, get), (Use.next 0, get)] h1 rfl (by rw [hlen]; omega)
      rw [hlen] at i2
      have hu : use get (.next 0) { number := items.length + 1 } t = (ok (.value a), { current := 1, number := items.length + 1 }, t1) := by
        unfold use
        dsimp only
        rw [if_neg (by omega), hgk]
      have he : run [(Use.next 1, get), (Use.next 0, get)] { current := items.length + 1, number := items.length + 1 } t' = [ok .stop, ok .stop] := by
        simp only [run, use]
        rw [if_pos (Nat.le_refl _)]
        dsimp only
        rw [if_pos (Nat.le_refl _)]
      rw [he] at i2
      show ok .iterator :: (use get (.next 0) { number := items.length + 1 } t).1 :: ok .iterator ::
        run (((List.range' 1 items.length).map fun _ => (Use.next 1, get)) ++ [(Use.next 1, get), (Use.next 0, get)]) (use get (.next 0) { number := items.length + 1 } t).2.1 (use get (.next 0) { number := items.length + 1 } t).2.2 = _
      rw [hu]
      dsimp only
      rw [i2]
      rfl
    · cases hb
    · exact hf.elim

/-- **C65, refuted**: an item that cannot be obtained hides those after it, however often the program tries to go on. -/
theorem c65_stuck {inv : σ → Prop} {items : List (Option α)} {get : Nat → σ → Res α × σ} (hg : Honest inv items False get) {k : Nat} (hk : items[k]? = some none) :
    ∀ (n : Nat) (t : σ), inv t → run (List.replicate n (Use.next 0, get)) { current := k, number := items.length } t = List.replicate n err
  | 0, _, _ => rfl
  | n + 1, t, ht => by
    obtain ⟨h1, h2⟩ := hg t ht k _ hk
    have hlt : k < items.length := (List.getElem?_eq_some_iff.1 hk).1
    cases hgk : get k t with
    | mk r t1 =>
      rw [hgk] at h1 h2
      dsimp only at h1 h2
      rcases h2 with ⟨b, hb, hr⟩ | ⟨_, hr⟩ | ⟨hf, _⟩
      · cases hb
      · subst hr
        have hu : use get (.next 0) { current := k, number := items.length } t = (err, { current := k, number := items.length }, t1) := by
          unfold use
          dsimp only
          rw [if_neg (by omega), hgk]
          rfl
        rw [List.replicate_succ, List.replicate_succ, run, hu, c65_stuck hg hk n t1 h1]
      · exact hf.elim

end

/-! ## sub file entries -/

section
variable {F : Files} {s : Storage} {xid : Nat} {rs : List Record} {fmt : NameFormat}

/-- a sub file entry of a directory: the entry with its inode -/
def IsSub (rs : List Record) (fmt : NameFormat) (e : DirEntry) (m : FileNode) : Prop :=
  InodeIn rs e.identifier m.inode ∧ m.inode.identifier = e.identifier ∧ m.record = some (recordOf fmt e) ∧ m.children = none

/-- the items of a directory: its entries with their inodes, `none` for an entry whose inode does not exist -/
def ItemsOf (rs : List Record) (fmt : NameFormat) (entries : List DirEntry) (items : List (Option FileNode)) : Prop :=
  items.length = entries.length ∧ ∀ k (hk : k < entries.length), (∃ m, items[k]? = some (some m) ∧ IsSub rs fmt entries[k] m) ∨ (items[k]? = some none ∧ ∀ r ∈ rs, ¬ IsOf entries[k].identifier 3 r)

theorem list_of {β : Type} {P : Nat → β → Prop} : ∀ (n : Nat), (∀ k, k < n → ∃ x, P k x) → ∃ l : List β, l.length = n ∧ ∀ k, k < n → ∃ x, l[k]? = some x ∧ P k x
  | 0, _ => ⟨[], rfl, fun k hk => by omega⟩
  | n + 1, h => by
    obtain ⟨l, h1, h2⟩ := list_of n (fun k hk => h k (by omega))
    obtain ⟨x, hx⟩ := h n (by omega)
    refine ⟨l ++ [x], by simp [h1], fun k hk => ?_⟩
    by_cases hkn : k < n
    · obtain ⟨y, h3, h4⟩ := h2 k hkn
      exact ⟨y, by rw [List.getElem?_append_left (by omega)]; exact h3, h4⟩
    · have : k = n := by omega
      subst this
      exact ⟨x, by rw [List.getElem?_append_right (by omega), h1]; simp, hx⟩

/-- the items that a file entry gives -/
theorem directory_items (hF : OfTree F s xid) (h : FsHolds s xid rs) (hI : Inodes rs ReadableInode) {identifier : Nat} {entries : List DirEntry} (hdir : Directory rs fmt identifier entries)
    (hfit : ∀ e ∈ entries, e.identifier < 2 ^ 60) (n : FileNode) (hn : n.children = none) (hid : n.inode.identifier = identifier) :
    ∃ items, ItemsOf rs fmt entries items ∧ (call (lookups F) .number n).1 = ok (.number items.length) ∧
      ∀ (k : Nat) x, items[k]? = some x → (call (lookups F) (.sub k) n).1 = match x with | some m => ok (.node m) | none => err := by
  have hgives := c54_sub_entries hF h hI hdir n hn hid
  obtain ⟨items, l1, l2⟩ := list_of (β := Option FileNode) (P := fun k x => (call (lookups F) (.sub k) n).1 = (match x with | some m => ok (.node m) | none => err) ∧
      ∀ hk : k < entries.length, (∃ m, x = some m ∧ IsSub rs fmt entries[k] m) ∨ (x = none ∧ ∀ r ∈ rs, ¬ IsOf entries[k].identifier 3 r)) entries.length (by
    intro k hk
    by_cases hex : ∃ r ∈ rs, IsOf entries[k].identifier 3 r
    · obtain ⟨i, h1, h2, h3⟩ := hgives.sub k hk hex
      exact ⟨some { inode := i, record := some (recordOf fmt entries[k]) }, h3, fun _ => .inl ⟨_, rfl, h1, h2, rfl, rfl⟩⟩
    · have hno : ∀ r ∈ rs, ¬ IsOf entries[k].identifier 3 r := fun r hr ho => hex ⟨r, hr, ho⟩
      exact ⟨none, hgives.missing k hk hno (hfit _ (List.getElem_mem hk)), fun _ => .inr ⟨rfl, hno⟩⟩)
  refine ⟨items, ⟨l1, fun k hk => ?_⟩, by rw [l1]; exact hgives.number, fun k x hx => ?_⟩
  · obtain ⟨x, h1, _, h3⟩ := l2 k hk
    rcases h3 hk with ⟨m, rfl, h4⟩ | ⟨rfl, h4⟩
    · exact .inl ⟨m, h1, h4⟩
    · exact .inr ⟨h1, h4⟩
  · obtain ⟨y, h1, h2, _⟩ := l2 k (by rw [← l1]; exact (List.getElem?_eq_some_iff.1 hx).1)
    rw [h1] at hx
    cases hx
    exact h2

theorem subEntry_honest {l g : Lookups} (hl : Faulty l g) {n : FileNode} (hn : n.children = none) {items : List (Option FileNode)}
    (hi : ∀ (k : Nat) x, items[k]? = some x → (call g (.sub k) n).1 = match x with | some m => ok (.node m) | none => err) :
    Honest (KeptEntries g n.inode) items (l ≠ g) (subEntry l) := by
  intro m hm k x hx
  obtain ⟨h1, h2⟩ := call_kept hl hm (m := n) ⟨rfl, .inl hn⟩ (.sub k)
  have h3 := hi k x hx
  have heq : (call l (.sub k) m).1 = (call g (.sub k) n).1 ∨ (l ≠ g ∧ (call l (.sub k) m).1 = err) := by
    by_cases hlg : l = g
    · subst hlg
      rcases h2 with h2 | h2
      · exact .inl h2
      · rcases (call_kept hl (n := n) (m := m) ⟨rfl, .inl hn⟩ hm (.sub k)).2 with h' | h'
        · exact .inl h'.symm
        · exact .inl (h2.trans h'.symm)
    · rcases h2 with h2 | h2
      · exact .inl h2
      · exact .inr ⟨hlg, h2⟩
  unfold subEntry
  cases hc : call l (.sub k) m with
  | mk r m' =>
    rw [hc] at h1 heq
    dsimp only at h1 heq
    rcases heq with heq | ⟨hne, heq⟩
    · rw [h3] at heq
      cases x with
      | some y =>
        dsimp only at heq
        subst heq
        exact ⟨h1, .inl ⟨y, rfl, rfl⟩⟩
      | none =>
        dsimp only at heq
        subst heq
        exact ⟨h1, .inr (.inl ⟨rfl, rfl⟩)⟩
    · subst heq
      exact ⟨h1, .inr (.inr ⟨hne, rfl⟩)⟩

/-- **C65, directories.** The property `sub_file_entries` of a directory is a sequence of its entries with their inodes, in the order of the directory, for all uses of it with one iterator, whichever
lookups fail. An entry whose inode does not exist raises an exception. -/
theorem c65_directory_partial (hF : OfTree F s xid) (h : FsHolds s xid rs) (hI : Inodes rs ReadableInode) {identifier : Nat} {entries : List DirEntry} (hdir : Directory rs fmt identifier entries)
    (hfit : ∀ e ∈ entries, e.identifier < 2 ^ 60) (hlen : entries.length < 2 ^ 31) (n : FileNode) (hn : n.children = none) (hid : n.inode.identifier = identifier) :
    ∃ items, ItemsOf rs fmt entries items ∧ (∃ m, subEntries (lookups F) n = (ok { number := entries.length }, m)) ∧
      ∀ l, Faulty l (lookups F) → ∀ q m, subEntries l n = (ok q, m) → ∀ (it : Nat) (us : List (Use × Lookups)), OneIterator it false (us.map (·.1)) → (∀ u ∈ us, Faulty u.2 (lookups F)) →
        (∀ r ∈ run (us.map fun u => (u.1, subEntry u.2)) q m, r ≠ ub) ∧
        Spec.Sequence.Trace items (fun _ => none) (Spec.Sequence.seen (us.map fun u => (u.1, u.2 ≠ lookups F)) (run (us.map fun u => (u.1, subEntry u.2)) q m)) := by
  obtain ⟨items, h1, h2, h3⟩ := directory_items hF h hI hdir hfit n hn hid
  have hkept : KeptEntries (lookups F) n.inode n := ⟨rfl, .inl hn⟩
  refine ⟨items, h1, ?_, fun l hl q m hq it us ho hus => ?_⟩
  · unfold subEntries
    cases hc : call (lookups F) .number n with
    | mk r m =>
      rw [hc] at h2
      dsimp only at h2
      subst h2
      rw [h1.1]
      exact ⟨m, rfl⟩
  · obtain ⟨k1, k2⟩ := call_kept hl hkept hkept .number
    unfold subEntries at hq
    cases hc : call l .number n with
    | mk r m' =>
      rw [hc] at hq k1 k2
      dsimp only at k1 k2
      rcases k2 with k2 | k2
      · rw [h2] at k2
        subst k2
        obtain ⟨hq1, rfl⟩ := Prod.mk.inj hq
        cases Res.ok.inj hq1
        have := c65_uses_partial (inv := KeptEntries (lookups F) n.inode) (items := items) (by rw [h1.1]; exact hlen) it (us.map fun u => (u.1, u.2 ≠ lookups F, subEntry u.2))
          (by rw [List.map_map]; exact ho) (fun u hu => by
            obtain ⟨v, hv, rfl⟩ := List.mem_map.1 hu
            exact subEntry_honest (hus v hv) hn h3) k1
        rw [List.map_map, List.map_map] at this
        exact this
      · subst k2
        obtain ⟨hq1, _⟩ := Prod.mk.inj hq
        cases hq1

end

/-! ## examples -/

/-- a list of numbers -/
def ofList (items : List Nat) (k : Nat) (t : Unit) : Res Nat × Unit := (match items[k]? with | some a => ok a | none => err, t)

theorem honest_list (items : List Nat) : Honest (fun _ : Unit => True) (items.map some) False (ofList items) := by
  intro t _ k x hx
  rw [List.getElem?_map] at hx
  obtain ⟨a, h1, h2⟩ := Option.map_eq_some_iff.1 hx
  exact ⟨trivial, .inl ⟨a, h2.symm, by unfold ofList; rw [h1]⟩⟩

example := c65_nested (honest_list [10, 20, 30]) (t := ()) trivial
example : run [(Use.iter 0, ofList [10, 20]), (Use.next 0, ofList [10, 20]), (Use.next 0, ofList [10, 20]), (Use.next 0, ofList [10, 20]), (Use.iter 1, ofList [10, 20]), (Use.next 1, ofList [10, 20])] { number := 2 } () =
    [ok .iterator, ok (.value 10), ok (.value 20), ok .stop, ok .iterator, ok .stop] := c65_second_iterator (honest_list [10, 20]) (t := ()) trivial

example : OneIterator 0 false [.len, .iter 0, .next 0, .item (-1), .next 0, .next 0] := by simp [OneIterator]

/-- a second item that cannot be obtained -/
example : run (List.replicate 3 (Use.next 0, fun k t => (if k = 1 then err else ok k, t))) { current := 1, number := 3 } () = List.replicate 3 (err : Res (Answer Nat)) :=
  c65_stuck (inv := fun _ : Unit => True) (items := [some 0, none, some 2]) (fun t _ k x hx => ⟨trivial, by
    match k, hx with
    | 0, hx => cases hx; exact .inl ⟨0, rfl, rfl⟩
    | 1, hx => cases hx; exact .inr (.inl ⟨rfl, rfl⟩)
    | 2, hx => cases hx; exact .inl ⟨2, rfl, rfl⟩
    | k + 3, hx => cases hx⟩) rfl 3 () trivial

/-- the root directory of a volume, with two entries -/
example (n : FileNode) (hn : n.children = none) (hid : n.inode.identifier = 2) :=
  c65_directory_partial (F := HierarchyExample.leafFiles HierarchyExample.slashRecords) ⟨rfl, rfl⟩ HierarchyExample.slash_holds HierarchyExample.slash_inodes (HierarchyExample.slash_hierarchy.1 2 .root)
    (by decide +kernel) (by decide) n hn hid

end Verif.Props
