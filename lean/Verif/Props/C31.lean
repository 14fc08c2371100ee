import Verif.Lemmas.Locks
/-!
# C31 Every API call releases the locks it takes
-/
namespace Verif.Props
open Verif Locks Spec

/-- In all functions but one: whatever branches are taken and whatever fails, the lock is not grabbed twice, is released the way it was grabbed, and is free on return.
Missing is `libfsapfs_volume_get_snapshot_by_index`, see `c31_snapshot_keeps_lock`. -/
theorem c31_balanced_partial (f : Fn) (hf : f ∈ functions) (hn : f.name ≠ "libfsapfs_volume_get_snapshot_by_index") {t : List Op} (ht : f.Uses t) : Balanced t := by
  have key : ∀ f ∈ functions, f.name ≠ "libfsapfs_volume_get_snapshot_by_index" → Fn.check f = true := by decide +kernel
  exact check_sound (key f hf hn) ht

/-- there are executions that use the lock -/
example : volume_unlock ∈ functions ∧ volume_unlock.Uses [.grab true, .release true] ∧ container_open.Uses [.grab true, .release true, .grab true, .release true] := by
  refine ⟨by simp [functions], ?_, ?_⟩
  · exact (exec_iff _ _ _).2 (by decide +kernel)
  · exact (exec_iff _ _ _).2 (by decide +kernel)

/-- If the entry cannot be read `libfsapfs_volume_get_snapshot_by_index` returns while it holds the lock for reading. -/
theorem c31_snapshot_keeps_lock : volume_get_snapshot_by_index ∈ functions ∧ volume_get_snapshot_by_index.Uses [.grab false] := by
  refine ⟨by simp [functions], (exec_iff _ _ _).2 (by decide +kernel)⟩

/-! ## threads -/

/-- the functions that keep to the discipline -/
def others : List Fn := functions.filter (fun f => f.name ≠ "libfsapfs_volume_get_snapshot_by_index")

/-- No deadlock: any number of threads, each making any calls in any order with any outcome, interleaved in any way: as long as a thread is not done some thread can go on.
(All functions but one, see `c31_snapshot_blocks`.) -/
theorem c31_no_deadlock_partial {ts : List (List Op)} (hts : ∀ t ∈ ts, Calls others t) {s : Sys} (hs : Steps ⟨0, false, ts⟩ s) (hne : ∃ t ∈ s.threads, t ≠ []) : ∃ u, Step s u := by
  have hb : ∀ t ∈ ts, Balanced t := fun t ht => calls_balanced (fun f hf u hu => by
    have := List.mem_filter.1 hf
    exact c31_balanced_partial f this.1 (by simpa using this.2) hu) (hts t ht)
  have h := inv_steps (inv_start hb) hs
  obtain ⟨r, w, ths⟩ := s
  obtain ⟨h1, h2, h3⟩ := h
  dsimp only at h1 h2 h3 hne
  have find : ∀ v, 0 < ths.countP (holds v) → ∃ t, (Op.release v :: t) ∈ ths := by
    intro v hv
    obtain ⟨t, ht, hh⟩ := List.countP_pos_iff.1 hv
    cases t with
    | nil => cases hh
    | cons op t =>
      cases op with
      | grab _ => cases hh
      | release x =>
        simp [holds] at hh
        exact ⟨t, hh ▸ ht⟩
  by_cases hr : r = 0
  · cases w with
    | true =>
      obtain ⟨t, ht⟩ := find true (by rw [← h3, if_pos rfl]; exact Nat.one_pos)
      exact step_of ht .releaseWrite
    | false =>
      subst hr
      obtain ⟨t, ht, hne⟩ := hne
      have zero : ∀ v, ths.countP (holds v) = 0 := by
        intro v
        cases v
        · exact h2.symm
        · exact h3.symm
      cases h1 t ht with
      | idle hb =>
        cases hb with
        | nil => exact absurd rfl hne
        | pair w hb =>
          cases w
          · exact step_of ht .grabRead
          · exact step_of ht .grabWrite
      | holding v hb =>
        have := List.countP_eq_zero.1 (zero v) _ ht
        simp [holds] at this
  · obtain ⟨t, ht⟩ := find false (by omega)
    obtain ⟨n, rfl⟩ : ∃ n, r = n + 1 := ⟨r - 1, by omega⟩
    exact step_of ht .releaseRead

/-- Writers are exclusive: while a thread holds the lock for writing no thread holds it for reading and none other for writing. -/
theorem c31_exclusive_partial {ts : List (List Op)} (hts : ∀ t ∈ ts, Calls others t) {s : Sys} (hs : Steps ⟨0, false, ts⟩ s) :
    s.threads.countP (holds true) ≤ 1 ∧ (0 < s.threads.countP (holds true) → s.threads.countP (holds false) = 0) := by
  have hb : ∀ t ∈ ts, Balanced t := fun t ht => calls_balanced (fun f hf u hu => by
    have := List.mem_filter.1 hf
    exact c31_balanced_partial f this.1 (by simpa using this.2) hu) (hts t ht)
  have h := inv_steps (inv_start hb) hs
  have key : s.writer = true → s.readers = 0 := by
    clear h
    induction hs with
    | refl => intro h; cases h
    | tail _ hst ih =>
      intro hw
      cases hst with
      | step ha =>
        cases ha with
        | grabRead => cases hw
        | grabWrite => rfl
        | releaseRead => have := ih hw; simp at this
        | releaseWrite => cases hw
  rw [← h.writer, ← h.readers]
  cases e : s.writer with
  | true => simp [key e]
  | false => simp

/-- When all threads are done the lock is free. -/
theorem c31_free_at_end_partial {ts : List (List Op)} (hts : ∀ t ∈ ts, Calls others t) {s : Sys} (hs : Steps ⟨0, false, ts⟩ s) (he : ∀ t ∈ s.threads, t = []) :
    s.readers = 0 ∧ s.writer = false := by
  have hb : ∀ t ∈ ts, Balanced t := fun t ht => calls_balanced (fun f hf u hu => by
    have := List.mem_filter.1 hf
    exact c31_balanced_partial f this.1 (by simpa using this.2) hu) (hts t ht)
  have h := inv_steps (inv_start hb) hs
  have zero : ∀ w, s.threads.countP (holds w) = 0 := by
    intro w
    rw [List.countP_eq_zero]
    intro t ht
    rw [he t ht]
    simp [holds]
  refine ⟨by rw [h.readers, zero], ?_⟩
  have := h.writer
  rw [zero] at this
  cases hw : s.writer with
  | true => rw [hw] at this; cases this
  | false => rfl

/-- the hypotheses are met: one thread reads the size of a volume, another unlocks it -/
example : Calls others [.grab false, .release false] ∧ Calls others [.grab true, .release true] := by
  refine ⟨calls_one (f := volume_get_size) ?_ ((exec_iff _ _ _).2 (by decide +kernel)), calls_one (f := volume_unlock) ?_ ((exec_iff _ _ _).2 (by decide +kernel))⟩
  · exact List.mem_filter.2 ⟨by simp [functions], by decide⟩
  · exact List.mem_filter.2 ⟨by simp [functions], by decide⟩

/-- After a failed `libfsapfs_volume_get_snapshot_by_index` a thread that calls `libfsapfs_volume_unlock` waits forever: nothing can go on although it is not done. -/
theorem c31_snapshot_blocks : ∃ a b s, Calls functions a ∧ Calls functions b ∧ Steps ⟨0, false, [a, b]⟩ s ∧ (∃ t ∈ s.threads, t ≠ []) ∧ ¬ ∃ u, Step s u := by
  refine ⟨[.grab false], [.grab true, .release true], ⟨1, false, [[], [.grab true, .release true]]⟩, calls_one c31_snapshot_keeps_lock.1 c31_snapshot_keeps_lock.2,
    calls_one (f := volume_unlock) (by simp [functions]) ((exec_iff _ _ _).2 (by decide +kernel)), ?_, ⟨[.grab true, .release true], by simp, by simp⟩, ?_⟩
  · exact .tail .refl (.step (pre := []) (op := .grab false) (t := []) (post := [[.grab true, .release true]]) .grabRead)
  · rintro ⟨u, h⟩
    generalize hs : (Sys.mk 1 false [[], [.grab true, .release true]]) = s at h
    cases h with
    | @step r w r' w' pre op t post ha =>
      injection hs with h1 h2 h3
      subst h1 h2
      cases pre with
      | nil => simp at h3
      | cons p pre =>
        simp at h3
        cases pre with
        | nil =>
          simp at h3
          rw [← h3.2.1.1] at ha
          cases ha
        | cons q pre => simp at h3

end Verif.Props
