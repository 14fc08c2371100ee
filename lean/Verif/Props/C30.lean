import Verif.Spec.Lifecycle
import Verif.Lemmas.LifecycleOpen
/-!
# C30 Open and close form a well-behaved state machine
-/
namespace Verif.Props
open Verif Life Spec

/-- what is known of an open container -/
def infoOf (h : Heap) : Info where
  size := h.size
  volumes := match h.ptr .superblock with | none => 0 | some p => (h.content p).volumes
  identifier := match h.ptr .superblock with | none => 0 | some p => (h.content p).identifier
  locked := match h.ptr .keyBag with | none => false | some p => (h.content p).locked

/-- the file IO handle and memory of a container in a phase, `n` is the number of file IO handles that existed before -/
inductive At (n : Nat) (s : St) : Phase → Prop where
  | closed : s.fileIo = none → Set s.heap [] → s.createdInLibrary = false → s.openedInLibrary = false → At n s .closed
  | opened (k : Nat) (b : Bool) : s.fileIo = some k → k < s.nextIo → s.io k ≠ .freed → Set s.heap (openSlots b) → (s.createdInLibrary = true ↔ n ≤ k) → At n s (.opened (infoOf s.heap))

structure LifeInv (n : Nat) (s : St) (p : Phase) : Prop where
  owned : Owned s.heap
  isAt : At n s p
  /-- handles created by the library are freed or in use -/
  created : ∀ k, n ≤ k → k < s.nextIo → s.io k = .freed ∨ s.fileIo = some k
  le : n ≤ s.nextIo

theorem isSome_of {h : Heap} {b : Bool} (hs : Set h (openSlots b)) {x : Slot} (hx : x ∈ openSlots false) : ∃ p, h.ptr x = some p := by
  apply Option.ne_none_iff_exists'.1
  apply (hs x).1
  cases b with
  | true => revert hx; revert x; intro x hx; cases x <;> simp_all [openSlots]
  | false => exact hx

theorem openHandle_inv {f : Faults} (hl : f.locks = false) {k : Nat} {s u : St} {r : Outcome Unit} (h : OpenHandle f k s u r) (ho : Owned s.heap) (hk : s.io k ≠ .freed)
    (hf : s.fileIo = none) (hs : Set s.heap []) :
    Owned u.heap ∧ u.nextIo = s.nextIo ∧ u.createdInLibrary = s.createdInLibrary ∧ (∀ j, j ≠ k → u.io j = s.io j) ∧ u.io k ≠ .freed ∧
    ((r = .ok () ∧ u.fileIo = some k ∧ ∃ b, Set u.heap (openSlots b)) ∨ (r = .fail ∧ u.fileIo = none ∧ Set u.heap [] ∧ u.openedInLibrary = s.openedInLibrary)) := by
  cases h with
  | refused h => exact absurd hf h
  | ubFreed _ h => exact absurd h hk
  | notOpened => exact ⟨ho, rfl, rfl, fun _ _ => rfl, hk, .inr ⟨rfl, hf, hs, rfl⟩⟩
  | ub _ _ hr =>
    rcases (openRead_nil hr ho hs).2 with ⟨h, _⟩ | ⟨h, _⟩ <;> cases h
  | readFailed _ _ hr =>
    obtain ⟨ho', ⟨h, _⟩ | ⟨_, hs'⟩⟩ := openRead_nil hr ho hs
    · cases h
    · exact ⟨ho', rfl, rfl, fun _ _ => rfl, hk, .inr ⟨rfl, hf, hs', rfl⟩⟩
  | readFailedClose _ _ hr hc =>
    obtain ⟨ho', ⟨h, _⟩ | ⟨_, hs'⟩⟩ := openRead_nil hr ho hs
    · cases h
    · cases hc with
      | ok => exact ⟨ho', rfl, rfl, fun j hj => by simp [St.setIo, hj], by simp [St.setIo], .inr ⟨rfl, hf, hs', rfl⟩⟩
      | failed => exact ⟨ho', rfl, rfl, fun j hj => by simp [St.setIo, hj], by simp [St.setIo], .inr ⟨rfl, hf, hs', rfl⟩⟩
  | lockFailed h => rw [hl] at h; cases h
  | lockFailedClose h => rw [hl] at h; cases h
  | ok _ _ hr =>
    obtain ⟨ho', ⟨_, hb⟩ | ⟨h, _⟩⟩ := openRead_nil hr ho hs
    · exact ⟨ho', rfl, rfl, fun j hj => by simp [St.setIo, hj], by simp [St.setIo], .inl ⟨rfl, rfl, hb⟩⟩
    · cases h

theorem openHandle_again {f : Faults} {k : Nat} {s u : St} {r : Outcome Unit} (h : OpenHandle f k s u r) (hf : s.fileIo ≠ none) : u = s ∧ r = .fail := by
  cases h with
  | refused => exact ⟨rfl, rfl⟩
  | _ => simp_all

theorem closeFile_inv {f : Faults} {k : Nat} {s u : St} {r : Outcome Unit} (h : CloseFile f k s u r) (hk : s.io k ≠ .freed) :
    r ≠ .ub ∧ u.heap = s.heap ∧ u.fileIo = none ∧ u.createdInLibrary = false ∧ u.openedInLibrary = false ∧ u.nextIo = s.nextIo ∧ (∀ j, j ≠ k → u.io j = s.io j) ∧ (s.createdInLibrary = true → u.io k = .freed) := by
  cases h with
  | ub h => exact absurd h hk
  | keep h1 h2 => exact ⟨by simp, rfl, rfl, h2, h1, rfl, fun _ _ => rfl, by simp [h2]⟩
  | @closed _ b _ _ h2 hc =>
    refine ⟨by cases b <;> simp, ?_⟩
    cases hc with
    | ok => exact ⟨rfl, rfl, h2, rfl, rfl, fun j hj => by simp [St.setIo, hj], by simp [h2]⟩
    | failed => exact ⟨rfl, rfl, h2, rfl, rfl, fun _ _ => rfl, by simp [h2]⟩
  | @closedFreed _ b _ _ _ hc =>
    refine ⟨by cases b <;> simp, ?_⟩
    cases hc with
    | ok => exact ⟨rfl, rfl, rfl, rfl, rfl, fun j hj => by simp [St.setIo, hj], by simp [St.setIo]⟩
    | failed => exact ⟨rfl, rfl, rfl, rfl, rfl, fun j hj => by simp [St.setIo, hj], by simp [St.setIo]⟩
  | freed _ h1 _ => exact ⟨by simp, rfl, rfl, rfl, h1, rfl, fun j hj => by simp [St.setIo, hj], by simp [St.setIo]⟩

theorem initial_inv (io : Nat → Io) (n size : Nat) (c : Nat → Info) : LifeInv n (initial io n size c) .closed := by
  refine ⟨⟨List.nodup_nil, ?_, ?_, ?_⟩, .closed rfl ?_ rfl rfl, ?_, Nat.le_refl _⟩
  · intro a; simp [initial]
  · intro x y a hx; cases hx
  · intro a ha; cases ha
  · rw [set_nil]; intro x; rfl
  · intro k h1 h2
    exact absurd h2 (Nat.not_lt.2 h1)

/-- the answers of the queries are those of the phase -/
theorem query_answer {n : Nat} {s : St} {p : Phase} (h : LifeInv n s p) :
    getSize s = answer Info.size p ∧ getNumberOfVolumes s = answer Info.volumes p ∧ getIdentifier s = answer Info.identifier p ∧
    (p ≠ .closed → isLocked s = answer Info.locked p) := by
  cases h.isAt with
  | closed _ hs _ _ =>
    have := set_nil.1 hs
    simp [getSize, getNumberOfVolumes, getIdentifier, fromSuperblock, this, answer]
  | opened k b _ _ _ hs _ =>
    obtain ⟨p, hp⟩ := isSome_of hs (x := .superblock) (by decide)
    have hl := owned_live h.owned hp
    refine ⟨by simp [getSize, hp, answer, infoOf], by simp [getNumberOfVolumes, fromSuperblock, hp, hl, answer, infoOf], by simp [getIdentifier, fromSuperblock, hp, hl, answer, infoOf], ?_⟩
    intro _
    cases e : s.heap.ptr .keyBag with
    | none => simp [isLocked, e, answer, infoOf]
    | some q => simp [isLocked, e, owned_live h.owned e, answer, infoOf]

theorem volume_usable {n : Nat} {s : St} {i : Info} (h : LifeInv n s (.opened i)) : volumeUsable s = true := by
  cases h.isAt with
  | opened k b hf _ hk hs _ =>
    obtain ⟨p, hp⟩ := isSome_of hs (x := .btree) (by decide)
    obtain ⟨q, hq⟩ := isSome_of hs (x := .vector) (by decide)
    obtain ⟨r, hr⟩ := isSome_of hs (x := .vectorData) (by decide)
    simp [volumeUsable, hp, hq, hr, hf, hk, owned_live h.owned hp, owned_live h.owned hq, owned_live h.owned hr]

/-- one call keeps the invariant and is accepted, unless it asks a closed container whether it is locked -/
theorem call_inv {f : Faults} (hl : f.locks = false) {n : Nat} {s u : St} {e : Event} {p : Phase} (hc : Call f s e u) (hi : LifeInv n s p) :
    ∃ q, LifeInv n u q ∧ (Accepts p e q ∨ (p = .closed ∧ q = .closed ∧ e = .isLocked (.ok false))) := by
  cases hc with
  | @openHandle k _ r hk hkf h =>
    cases hi.isAt with
    | opened j b hf _ _ _ _ =>
      obtain ⟨rfl, rfl⟩ := openHandle_again h (by simp [hf])
      exact ⟨_, hi, .inl .openHandleAgain⟩
    | closed hf hs hcr hop =>
      have hkn : ¬ n ≤ k := by
        intro hn
        rcases hi.created k hn hk with g | g
        · exact hkf g
        · rw [hf] at g; cases g
      obtain ⟨ho', hn, hcr', hio, hku, ⟨rfl, hf', b, hs'⟩ | ⟨rfl, hf', hs', hop'⟩⟩ := openHandle_inv hl h hi.owned hkf hf hs
      · refine ⟨_, ⟨ho', .opened k b hf' (hn ▸ hk) hku hs' (by rw [hcr', hcr]; simp; omega), ?_, hn ▸ hi.le⟩, .inl .openHandle⟩
        intro j h1 h2
        have hjk : j ≠ k := by intro e; exact hkn (e ▸ h1)
        rw [hio j hjk]
        rcases hi.created j h1 (hn ▸ h2) with g | g
        · exact .inl g
        · rw [hf] at g; cases g
      · refine ⟨.closed, ⟨ho', .closed hf' hs' (by rw [hcr', hcr]) (by rw [hop', hop]), ?_, hn ▸ hi.le⟩, .inl .openHandleFailed⟩
        intro j h1 h2
        have hjk : j ≠ k := by intro e; exact hkn (e ▸ h1)
        rw [hio j hjk]
        rcases hi.created j h1 (hn ▸ h2) with g | g
        · exact .inl g
        · rw [hf] at g; cases g
  | @openPath _ r h =>
    have hle := hi.le
    cases hi.isAt with
    | opened j b hf hj hjf hs hcr =>
      have old : ∀ (t : St) (v : Io), v = .freed → t.heap = s.heap → t.fileIo = s.fileIo → t.createdInLibrary = s.createdInLibrary → t.nextIo = s.nextIo + 1 → (∀ i, i ≠ s.nextIo → t.io i = s.io i) → t.io s.nextIo = v →
          LifeInv n t (.opened (infoOf s.heap)) := by
        intro t v hv h1 h2 h3 h4 h5 h6
        refine ⟨h1 ▸ hi.owned, ?_, ?_, by rw [h4]; omega⟩
        · rw [← h1]
          exact .opened j b (by rw [h2, hf]) (by rw [h4]; omega) (by rw [h5 j (by omega)]; exact hjf) (h1 ▸ hs) (by rw [h3]; exact hcr)
        · intro i g1 g2
          by_cases e : i = s.nextIo
          · rw [e, h6, hv]; exact .inl rfl
          · rw [h5 i e, h2]; exact hi.created i g1 (by rw [h4] at g2; omega)
      cases h with
      | refused => exact ⟨_, hi, .inl .openPathAgain⟩
      | nameFailed =>
        exact ⟨_, old _ .freed rfl rfl rfl rfl rfl (fun i hne => by simp [St.setIo, hne]) (by simp [St.setIo]), .inl .openPathAgain⟩
      | failed h =>
        obtain ⟨rfl, _⟩ := openHandle_again h (by simp [St.setIo, hf])
        exact ⟨_, old _ .freed rfl rfl rfl rfl rfl (fun i hne => by simp [St.setIo, hne]) (by simp [St.setIo]), .inl .openPathAgain⟩
      | ub h => obtain ⟨_, h⟩ := openHandle_again h (by simp [St.setIo, hf]); cases h
      | lockFailed h => rw [hl] at h; cases h
      | ok h => obtain ⟨_, h⟩ := openHandle_again h (by simp [St.setIo, hf]); cases h
    | closed hf hs hcr hop =>
      have none_in_use : ∀ i, n ≤ i → i < s.nextIo → s.io i = .freed := by
        intro i h1 h2
        rcases hi.created i h1 h2 with g | g
        · exact g
        · rw [hf] at g; cases g
      cases h with
      | refused => exact ⟨_, hi, .inl .openPathFailed⟩
      | nameFailed =>
        refine ⟨.closed, ⟨hi.owned, .closed hf hs hcr hop, ?_, by show n ≤ s.nextIo + 1; omega⟩, .inl .openPathFailed⟩
        intro i g1 g2
        by_cases e : i = s.nextIo
        · exact .inl (by simp [St.setIo, e])
        · exact .inl (by simp [St.setIo, e]; exact none_in_use i g1 (by have : i < s.nextIo + 1 := g2; omega))
      | @failed u h =>
        obtain ⟨ho', hn, hcr', hio, hku, ⟨h, _⟩ | ⟨_, hf', hs', hop'⟩⟩ := openHandle_inv hl h hi.owned (by simp [St.setIo]) hf hs
        · cases h
        · have hn : u.nextIo = s.nextIo + 1 := hn
          refine ⟨.closed, ⟨ho', .closed hf' hs' (hcr'.trans hcr) (hop'.trans hop), ?_, by show n ≤ u.nextIo; omega⟩, .inl .openPathFailed⟩
          intro i g1 g2
          by_cases e : i = s.nextIo
          · exact .inl (by simp [St.setIo, e])
          · refine .inl ?_
            simp only [St.setIo, e, if_false]
            rw [hio i e]
            simp only [St.setIo, e, if_false]
            exact none_in_use i g1 (by have : i < u.nextIo := g2; omega)
      | ub h =>
        obtain ⟨_, _, _, _, _, ⟨h, _⟩ | ⟨h, _⟩⟩ := openHandle_inv hl h hi.owned (by simp [St.setIo]) hf hs <;> cases h
      | lockFailed h => rw [hl] at h; cases h
      | @ok u h =>
        obtain ⟨ho', hn, hcr', hio, hku, ⟨_, hf', b, hs'⟩ | ⟨h, _⟩⟩ := openHandle_inv hl h hi.owned (by simp [St.setIo]) hf hs
        · have hn : u.nextIo = s.nextIo + 1 := hn
          refine ⟨_, ⟨ho', .opened s.nextIo b hf' (by show s.nextIo < u.nextIo; omega) hku hs' (by simp; omega), ?_, by show n ≤ u.nextIo; omega⟩, .inl .openPath⟩
          intro i g1 g2
          by_cases e : i = s.nextIo
          · exact .inr (by rw [e]; exact hf')
          · refine .inl ?_
            show u.io i = .freed
            rw [hio i e]
            simp only [St.setIo, e, if_false]
            exact none_in_use i g1 (by have : i < u.nextIo := g2; omega)
        · cases h
  | @close _ r h =>
    cases hi.isAt with
    | closed hf hs hcr hop =>
      cases h with
      | refused => exact ⟨_, hi, .inl .closeAgain⟩
      | lockFailed h => rw [hl] at h; cases h
      | fileUb h => rw [hf] at h; cases h
      | ub h => rw [hf] at h; cases h
      | done h => rw [hf] at h; cases h
      | doneError h => rw [hf] at h; cases h
    | opened j b hf hj hjf hs hcr =>
      have after : ∀ {k : Nat} {u : St} {r : Outcome Unit} {h : Heap} {o : Out}, s.fileIo = some k → CloseFile f k s u r → Exec closeFrees { u.heap with size := 0 } h o →
          o = .next ∧ LifeInv n { u with heap := h } .closed := by
        intro k u r h o hk hcf he
        rw [hf] at hk
        cases hk
        obtain ⟨_, g1, g2, g3, g4, g5, g6, g7⟩ := closeFile_inv hcf hjf
        rw [g1] at he
        obtain ⟨h1, h2, h3⟩ := close_frees he (owned_congr hi.owned rfl rfl rfl) (b := b) hs
        refine ⟨h1, ⟨h2, .closed g2 h3 g3 g4, ?_, by show n ≤ u.nextIo; rw [g5]; exact hi.le⟩⟩
        intro i l1 l2
        refine .inl ?_
        show u.io i = .freed
        by_cases e : i = j
        · subst e; exact g7 (hcr.2 l1)
        · rw [g6 i e]
          rcases hi.created i l1 (by have : i < u.nextIo := l2; omega) with g | g
          · exact g
          · rw [hf] at g; exact absurd (Option.some.inj g).symm e
      cases h with
      | refused h => rw [hf] at h; cases h
      | lockFailed h => rw [hl] at h; cases h
      | fileUb h hcf =>
        rw [hf] at h
        cases h
        exact absurd rfl (closeFile_inv hcf hjf).1
      | ub h hcf _ he =>
        have := (after h hcf he).1
        cases this
      | done h hcf hne he =>
        refine ⟨.closed, (after h hcf he).2, .inl ?_⟩
        cases r with
        | ok => exact .close
        | fail => exact .closeError
        | ub => exact absurd rfl hne
      | doneError h hcf _ he => exact ⟨.closed, (after h hcf he).2, .inl .closeError⟩
  | getSize =>
    rw [(query_answer hi).1]
    exact ⟨p, hi, .inl .getSize⟩
  | getNumberOfVolumes =>
    rw [(query_answer hi).2.1]
    exact ⟨p, hi, .inl .getNumberOfVolumes⟩
  | getIdentifier =>
    rw [(query_answer hi).2.2.1]
    exact ⟨p, hi, .inl .getIdentifier⟩
  | isLocked =>
    cases p with
    | closed =>
      refine ⟨.closed, hi, .inr ⟨rfl, rfl, ?_⟩⟩
      cases hi.isAt with
      | closed _ hs _ _ => simp [isLocked, set_nil.1 hs]
    | opened i =>
      rw [(query_answer hi).2.2.2 (by simp)]
      exact ⟨_, hi, .inl .isLocked⟩
  | @getVolume k b =>
    refine ⟨p, hi, .inl ?_⟩
    unfold getVolume
    rw [(query_answer hi).2.1]
    cases p with
    | closed => exact .getVolumeFailed
    | opened i =>
      simp only [answer, volume_usable hi, if_true]
      split
      · exact .getVolumeFailed
      · cases b
        · exact .getVolumeFailed
        · rename_i hne
          exact .getVolume (by omega) (by omega)
  | @caller k v hk hne hkf hv =>
    refine ⟨p, ⟨hi.owned, ?_, ?_, hi.le⟩, .inl .caller⟩
    · cases hi.isAt with
      | closed h1 h2 h3 h4 => exact .closed h1 h2 h3 h4
      | opened j b h1 h2 h3 h4 h5 =>
        refine .opened (s := s.setIo k v) j b h1 h2 ?_ h4 h5
        have : j ≠ k := fun e => hne (e ▸ h1)
        simp [St.setIo, this, h3]
    · intro i g1 g2
      by_cases e : i = k
      · rcases hi.created i g1 g2 with g | g
        · exact absurd (e ▸ g) hkf
        · exact absurd (e ▸ g) hne
      · simp only [St.setIo, e, if_false]
        exact hi.created i g1 g2

/-- the events of a history, without the questions to a closed container whether it is locked -/
inductive Asks : Phase → List Event → Phase → Prop where
  | nil {p} : Asks p [] p
  | accepted {p es q e r} : Asks p es q → Accepts q e r → Asks p (es ++ [e]) r
  | locked {p es} : Asks p es .closed → Asks p (es ++ [.isLocked (.ok false)]) .closed

theorem calls_inv {f : Faults} (hl : f.locks = false) {n : Nat} {s u : St} {es : List Event} (hc : Calls f s es u) {p : Phase} (hi : LifeInv n s p) : ∃ q, LifeInv n u q ∧ Asks p es q := by
  induction hc with
  | nil => exact ⟨p, hi, .nil⟩
  | snoc _ h ih =>
    obtain ⟨q, hq, ha⟩ := ih
    obtain ⟨r, hr, h | ⟨rfl, rfl, rfl⟩⟩ := call_inv hl h hq
    · exact ⟨r, hr, .accepted ha h⟩
    · exact ⟨_, hr, .locked ha⟩

/-- Every history of calls, with any failures of reading, allocation, opening and closing of files, is one of the state machine: queries only succeed while the container is open and agree with
each other until it is closed, a second open is refused and changes nothing, close after close is refused, after a failed open the container is closed and can be opened.
Missing: a closed container that is asked whether it is locked answers, see `c30_closed_answers`; locks that cannot be grabbed, see `c30_lock_failure_stuck`. -/
theorem c30_state_machine_partial {f : Faults} (hl : f.locks = false) {io : Nat → Io} {n size : Nat} {c : Nat → Info} {es : List Event} {s : St}
    (h : Calls f (initial io n size c) es s) (hq : ∀ r, Event.isLocked r ∉ es) : ∃ p, Accepted .closed es p := by
  obtain ⟨p, hinv, ha⟩ := calls_inv hl h (initial_inv io n size c)
  refine ⟨p, ?_⟩
  clear h hinv
  induction ha with
  | nil => exact .nil
  | accepted _ h ih => exact .snoc (ih (fun r hr => hq r (List.mem_append_left _ hr))) h
  | locked _ _ => exact absurd (List.mem_append_right _ (List.mem_singleton.2 rfl)) (hq (.ok false))

/-- The same with `libfsapfs_container_is_locked`: it answers for a closed container. -/
theorem c30_state_machine_locked {f : Faults} (hl : f.locks = false) {io : Nat → Io} {n size : Nat} {c : Nat → Info} {es : List Event} {s : St}
    (h : Calls f (initial io n size c) es s) : ∃ p, Asks .closed es p := by
  obtain ⟨p, _, ha⟩ := calls_inv hl h (initial_inv io n size c)
  exact ⟨p, ha⟩

/-- Whatever happened before, when the last open failed or the container was closed no memory of the container is allocated and no file IO handle of the library remains. -/
theorem c30_no_leak {f : Faults} (hl : f.locks = false) {io : Nat → Io} {n size : Nat} {c : Nat → Info} {es : List Event} {s : St}
    (h : Calls f (initial io n size c) es s) (hf : s.fileIo = none) : s.heap.live = [] ∧ ∀ k, n ≤ k → k < s.nextIo → s.io k = .freed := by
  obtain ⟨p, hi, _⟩ := calls_inv hl h (initial_inv io n size c)
  cases hi.isAt with
  | opened _ _ h => rw [hf] at h; cases h
  | closed _ hs _ _ =>
    refine ⟨live_nil hi.owned hs, ?_⟩
    intro k h1 h2
    rcases hi.created k h1 h2 with g | g
    · exact g
    · rw [hf] at g; cases g

/-- A container that was closed or whose opening failed, however that came about, can be opened: nothing is left that makes opening refuse. -/
theorem c30_reusable {f : Faults} (hl : f.locks = false) {io : Nat → Io} {n size : Nat} {c : Nat → Info} {es : List Event} {s : St}
    (h : Calls f (initial io n size c) es s) (hf : s.fileIo = none) : (∃ u, Call f s (.openPath (.ok ())) u) ∧ ∀ k, k < s.nextIo → s.io k ≠ .freed → ∃ u, Call f s (.openHandle k (.ok ())) u := by
  obtain ⟨p, hi, _⟩ := calls_inv hl h (initial_inv io n size c)
  cases hi.isAt with
  | opened _ _ h => rw [hf] at h; cases h
  | closed _ hs _ _ =>
    obtain ⟨h', he⟩ := openRead_succeeds hi.owned hs
    exact ⟨⟨_, .openPath (.ok (.ok hf (by simp [St.setIo]) he))⟩, fun k h1 h2 => ⟨_, .openHandle h1 h2 (.ok hf h2 he)⟩⟩

theorem wanted_snoc (io : Nat → Io) (es : List Event) (e : Event) (k : Nat) :
    wanted io (es ++ [e]) k = match e with | .caller j w => if j = k then w else wanted io es k | _ => wanted io es k := by
  unfold wanted
  rw [List.foldl_append]
  rfl

/-- what is known of a handle of the caller: it is as the caller left it, or the container uses it and opened it -/
def Kept (s : St) (w : Io) (k : Nat) : Prop :=
  (s.io k = w ∧ (s.fileIo = some k → s.openedInLibrary = false)) ∨ (s.fileIo = some k ∧ s.openedInLibrary = true ∧ s.createdInLibrary = false ∧ w = .closed ∧ s.io k = .opened)

theorem closeIo_ok {f : Faults} (hc : f.closes = false) {k : Nat} {s u : St} {b : Bool} (h : CloseIo f k s u b) : u = s.setIo k .closed := by
  cases h with
  | ok => rfl
  | failed h => rw [hc] at h; cases h

/-- File IO handles of the caller are left as the caller had them: after a failed open, after close, and while they are not in use, a handle is open or closed as the caller last made it,
whether the library had to open it or not. (If closing a file can fail the handle can remain open.) -/
theorem c30_callers_handles {f : Faults} (hl : f.locks = false) (hcl : f.closes = false) {io : Nat → Io} {n size : Nat} {c : Nat → Info} (hio : ∀ k, k < n → io k ≠ .freed) {es : List Event} {s : St}
    (h : Calls f (initial io n size c) es s) {k : Nat} (hk : k < n) (hf : s.fileIo ≠ some k) : s.io k = wanted io es k := by
  suffices key : wanted io es k ≠ .freed ∧ Kept s (wanted io es k) k by
    rcases key.2 with g | g
    · exact g.1
    · exact absurd g.1 hf
  clear hf
  generalize hs0 : initial io n size c = s0 at h
  induction h with
  | nil =>
    subst hs0
    exact ⟨hio k hk, .inl ⟨rfl, by simp [initial]⟩⟩
  | @snoc es u e v hcs hcall ih =>
    obtain ⟨hw, hkept⟩ := ih
    subst hs0
    obtain ⟨p, hi, _⟩ := calls_inv hl hcs (initial_inv io n size c)
    have hkn : k < u.nextIo := Nat.lt_of_lt_of_le hk hi.le
    cases hcall with
    | @openHandle j _ r hj hjf ho =>
      rw [wanted_snoc]
      refine ⟨hw, ?_⟩
      by_cases hfu : u.fileIo = none
      · have hku : u.io k = wanted io es k := by
          rcases hkept with g | g
          · exact g.1
          · rw [hfu] at g; cases g.1
        cases ho with
        | refused h => exact absurd hfu h
        | ubFreed _ h => exact absurd h hjf
        | notOpened => exact .inl ⟨hku, fun h => by rw [hfu] at h; cases h⟩
        | ub => exact .inl ⟨hku, fun h => by rw [hfu] at h; cases h⟩
        | readFailed => exact .inl ⟨hku, fun h => by rw [hfu] at h; cases h⟩
        | readFailedClose _ hjc _ hci =>
          rw [closeIo_ok hcl hci]
          refine .inl ⟨?_, fun h => by simp [St.setIo, hfu] at h⟩
          show (if k = j then Io.closed else if k = j then Io.opened else u.io k) = wanted io es k
          by_cases e : k = j
          · rw [if_pos e, ← hku, e, hjc]
          · rw [if_neg e, if_neg e, hku]
        | lockFailed h => rw [hl] at h; cases h
        | lockFailedClose h => rw [hl] at h; cases h
        | ok _ _ _ =>
          by_cases e : k = j
          · subst e
            cases hst : u.io k with
            | freed => exact absurd hst hjf
            | closed =>
              refine .inr ⟨rfl, by simp, ?_, by rw [← hku, hst], by simp [St.setIo]⟩
              cases hi.isAt with
              | closed _ _ h _ => exact h
              | opened _ _ h => rw [hfu] at h; cases h
            | opened => exact .inl ⟨by simp [St.setIo, ← hku, hst], fun _ => by simp⟩
          · refine .inl ⟨by simp [St.setIo, e, hku], fun h => ?_⟩
            exact absurd (Option.some.inj h).symm e
      · obtain ⟨rfl, _⟩ := openHandle_again ho hfu
        exact hkept
    | @openPath _ r ho =>
      rw [wanted_snoc]
      refine ⟨hw, ?_⟩
      have hne : k ≠ u.nextIo := by omega
      by_cases hfu : u.fileIo = none
      · have hku : u.io k = wanted io es k := by
          rcases hkept with g | g
          · exact g.1
          · rw [hfu] at g; cases g.1
        have hs : Set u.heap [] := by
          cases hi.isAt with
          | closed _ h _ _ => exact h
          | opened _ _ h => rw [hfu] at h; cases h
        cases ho with
        | refused => exact hkept
        | nameFailed => exact .inl ⟨by simp [St.setIo, hne, hku], fun h => by simp [St.setIo, hfu] at h⟩
        | @failed w h =>
          obtain ⟨_, _, _, hio', _, ⟨h, _⟩ | ⟨_, hf', _, _⟩⟩ := openHandle_inv hl h hi.owned (by simp [St.setIo]) hfu hs
          · cases h
          · refine .inl ⟨?_, fun h => by simp [St.setIo, hf'] at h⟩
            simp only [St.setIo, hne, if_false]
            rw [hio' k hne]
            simp [St.setIo, hne, hku]
        | ub h =>
          obtain ⟨_, _, _, _, _, ⟨h, _⟩ | ⟨h, _⟩⟩ := openHandle_inv hl h hi.owned (by simp [St.setIo]) hfu hs <;> cases h
        | lockFailed h => rw [hl] at h; cases h
        | @ok w h =>
          obtain ⟨_, _, _, hio', _, ⟨_, hf', _⟩ | ⟨h, _⟩⟩ := openHandle_inv hl h hi.owned (by simp [St.setIo]) hfu hs
          · refine .inl ⟨?_, fun h => ?_⟩
            · show w.io k = _
              rw [hio' k hne]
              simp [St.setIo, hne, hku]
            · have h : w.fileIo = some k := h
              rw [hf'] at h
              exact absurd (Option.some.inj h).symm hne
          · cases h
      · have keep : ∀ t : St, t.fileIo = u.fileIo → t.openedInLibrary = u.openedInLibrary → t.createdInLibrary = u.createdInLibrary → t.io k = u.io k → Kept t (wanted io es k) k := by
          intro t h1 h2 h3 h4
          unfold Kept
          rw [h1, h2, h3, h4]
          exact hkept
        cases ho with
        | refused => exact hkept
        | nameFailed => exact keep _ rfl rfl rfl (by simp [St.setIo, hne])
        | failed h =>
          obtain ⟨rfl, _⟩ := openHandle_again h (by simpa [St.setIo] using hfu)
          exact keep _ rfl rfl rfl (by simp [St.setIo, hne])
        | ub h => obtain ⟨_, h⟩ := openHandle_again h (by simpa [St.setIo] using hfu); cases h
        | lockFailed h => rw [hl] at h; cases h
        | ok h => obtain ⟨_, h⟩ := openHandle_again h (by simpa [St.setIo] using hfu); cases h
    | @close _ r ho =>
      rw [wanted_snoc]
      refine ⟨hw, ?_⟩
      cases hi.isAt with
      | closed hf _ _ _ =>
        cases ho with
        | refused => exact hkept
        | lockFailed h => rw [hl] at h; cases h
        | fileUb h => rw [hf] at h; cases h
        | ub h => rw [hf] at h; cases h
        | done h => rw [hf] at h; cases h
        | doneError h => rw [hf] at h; cases h
      | opened j b hf hj hjf hs hcr =>
        have key : ∀ {i : Nat} {w : St} {r : Outcome Unit}, u.fileIo = some i → CloseFile f i u w r → w.fileIo = none ∧ w.io k = wanted io es k := by
          intro i w r hij hcf
          rw [hf] at hij
          cases hij
          refine ⟨(closeFile_inv hcf hjf).2.2.1, ?_⟩
          by_cases e : k = j
          · subst e
            have hncr : u.createdInLibrary = false := by
              cases hb : u.createdInLibrary with
              | false => rfl
              | true => have := hcr.1 hb; omega
            cases hcf with
            | ub h => exact absurd h hjf
            | keep hop _ =>
              rcases hkept with g | g
              · exact g.1
              · rw [hop] at g; cases g.2.1
            | closed _ hop _ hci =>
              rw [closeIo_ok hcl hci]
              rcases hkept with g | g
              · rw [g.2 hf] at hop; cases hop
              · simp [St.setIo, g.2.2.2.1]
            | closedFreed _ _ h => rw [hncr] at h; cases h
            | freed _ _ h => rw [hncr] at h; cases h
          · rw [(closeFile_inv hcf hjf).2.2.2.2.2.2.1 k e]
            rcases hkept with g | g
            · exact g.1
            · rw [hf] at g; exact absurd (Option.some.inj g.1).symm e
        cases ho with
        | refused h => rw [hf] at h; cases h
        | lockFailed h => rw [hl] at h; cases h
        | fileUb h hcf => obtain ⟨h1, h2⟩ := key h hcf; exact .inl ⟨h2, fun h => by rw [h1] at h; cases h⟩
        | ub h hcf => obtain ⟨h1, h2⟩ := key h hcf; exact .inl ⟨h2, fun h => by rw [show _ = _ from h1] at h; cases h⟩
        | done h hcf => obtain ⟨h1, h2⟩ := key h hcf; exact .inl ⟨h2, fun h => by rw [show _ = _ from h1] at h; cases h⟩
        | doneError h hcf => obtain ⟨h1, h2⟩ := key h hcf; exact .inl ⟨h2, fun h => by rw [show _ = _ from h1] at h; cases h⟩
    | getSize => rw [wanted_snoc]; exact ⟨hw, hkept⟩
    | getNumberOfVolumes => rw [wanted_snoc]; exact ⟨hw, hkept⟩
    | getIdentifier => rw [wanted_snoc]; exact ⟨hw, hkept⟩
    | isLocked => rw [wanted_snoc]; exact ⟨hw, hkept⟩
    | getVolume => rw [wanted_snoc]; exact ⟨hw, hkept⟩
    | @caller j w hj hjf hjo hwf =>
      have e0 : wanted io (es ++ [.caller j w]) k = if j = k then w else wanted io es k := wanted_snoc io es (.caller j w) k
      by_cases e : j = k
      · subst e
        simp only [if_true] at e0
        refine ⟨by rw [e0]; exact hwf, .inl ⟨by rw [e0]; simp [St.setIo], fun h => absurd h hjf⟩⟩
      · simp only [e, if_false] at e0
        refine ⟨by rw [e0]; exact hw, ?_⟩
        unfold Kept
        have : (u.setIo j w).io k = u.io k := by simp [St.setIo, Ne.symm e]
        rw [this, e0]
        exact hkept

def faultless : Faults := ⟨false, false⟩
def start : St := initial (fun _ => .closed) 1 0 (fun _ => ⟨0, 0, 0, false⟩)

theorem start_inv : LifeInv 1 start .closed := initial_inv _ _ _ _

/-- a history: a handle of the caller is used for opening, the number of volumes is asked for, the container is closed, and opened by path -/
example : ∃ a s, Calls faultless start [.openHandle 0 (.ok ()), .getNumberOfVolumes (.ok a), .close (.ok ()), .openPath (.ok ())] s ∧ s.io 0 = .closed := by
  obtain ⟨_, hr⟩ := c30_reusable (f := faultless) rfl (.nil : Calls faultless start [] start) rfl
  obtain ⟨u, hu⟩ := hr 0 (by decide) (by decide)
  have c1 : Calls faultless start [.openHandle 0 (.ok ())] u := .snoc .nil hu
  obtain ⟨q, hq, ha | ⟨_, _, h⟩⟩ := call_inv rfl hu start_inv
  · cases ha with
    | @openHandle _ i =>
      have c2 := Calls.snoc c1 .getNumberOfVolumes
      rw [(query_answer hq).2.1] at c2
      have hio : u.io 0 = .opened ∧ u.fileIo = some 0 ∧ u.openedInLibrary = true ∧ u.createdInLibrary = false := by
        cases hu with
        | openHandle _ _ h => cases h; exact ⟨rfl, rfl, rfl, rfl⟩
      obtain ⟨h0, he⟩ : ∃ h0, Exec closeFrees { u.heap with size := 0 } h0 .next := by
        cases hq.isAt with
        | opened k b _ _ _ hs _ => exact close_runs (owned_congr hq.owned rfl rfl rfl) hs
      have hcl : Call faultless u (.close (.ok ())) _ := .close (.done hio.2.1 (.closed (by rw [hio.1]; simp) hio.2.2.1 hio.2.2.2 .ok) (by simp) he)
      have c3 := Calls.snoc c2 hcl
      obtain ⟨⟨v, hv⟩, _⟩ := c30_reusable rfl c3 rfl
      have c4 := Calls.snoc c3 hv
      refine ⟨_, v, c4, ?_⟩
      have := c30_callers_handles rfl rfl (fun k _ => by simp) c4 (k := 0) (by decide) ?_
      · rw [this]; rfl
      · cases hv with
        | openPath h =>
          cases h with
          | ok h =>
            cases h
            have : u.nextIo = 1 := by
              cases hu with
              | openHandle _ _ h => cases h; rfl
            simp [St.setIo, this]
  · cases h

/-- A container that was never opened is asked whether it is locked, and answers. -/
theorem c30_closed_answers : ∃ es s, Calls faultless start es s ∧ ¬ ∃ p, Accepted .closed es p := by
  refine ⟨[.isLocked (.ok false)], start, ?_, ?_⟩
  · have := Calls.snoc (.nil : Calls faultless start [] start) .isLocked
    exact this
  · rintro ⟨p, h⟩
    generalize hes : ([.isLocked (.ok false)] : List Event) = es at h
    generalize hp : Phase.closed = p0 at h
    cases h with
    | nil => cases hes
    | @snoc es q e _ h1 h2 =>
      have := congrArg List.length hes
      simp at this
      cases es with
      | cons => simp at this
      | nil =>
        simp at hes
        subst hes hp
        generalize hz : ([] : List Event) = z at h1
        cases h1 with
        | snoc => simp at hz
        | nil =>
          generalize hy : Event.isLocked (.ok false) = y at h2
          cases h2 <;> simp [answer] at hy

/-- If the lock cannot be grabbed after the container was read the container can neither be closed nor opened again, and answers queries although opening it failed. -/
theorem c30_lock_failure_stuck : ∃ s, Calls ⟨true, false⟩ start [.openPath .fail] s ∧ (∃ a, getNumberOfVolumes s = .ok a) ∧
    (∀ r u, Call ⟨true, false⟩ s (.close r) u → r = .fail ∧ u = s) ∧ (∀ r u, Call ⟨true, false⟩ s (.openPath r) u → r = .fail ∧ u.heap = s.heap) := by
  obtain ⟨h', he⟩ := openRead_succeeds start_inv.owned (set_nil.2 (fun _ => rfl))
  have hpost := openRead_nil he start_inv.owned (set_nil.2 (fun _ => rfl))
  obtain ⟨ho, ⟨_, b, hb⟩ | ⟨h, _⟩⟩ := hpost
  · let t : St := { start.setIo start.nextIo .closed with nextIo := start.nextIo + 1 }
    let s : St := (({ t with heap := h' }.setIo 1 .opened).setIo 1 .closed).setIo 1 .freed
    have hs : Calls ⟨true, false⟩ start [.openPath .fail] s := by
      have h0 : OpenHandle ⟨true, false⟩ start.nextIo t (({ t with heap := h' }.setIo 1 .opened).setIo 1 .closed) .fail := .lockFailedClose (s := t) (h := h') rfl rfl rfl he .ok
      exact .snoc .nil (.openPath (.failed h0))
    obtain ⟨p, hp⟩ := isSome_of hb (x := .superblock) (by decide)
    have hun : unset h' = false := by simp [unset, hp]
    have noread : ∀ {g : Heap} {r : Option Bool}, OpenRead h' g r → r = some false ∧ g = h' := by
      intro g r hr
      cases hr with
      | refused => exact ⟨rfl, rfl⟩
      | ok h => rw [hun] at h; cases h
      | failed h => rw [hun] at h; cases h
      | ub h => rw [hun] at h; cases h
      | handlerUb h => rw [hun] at h; cases h
    have noopen : ∀ {k : Nat} {v u : St} {r : Outcome Unit}, v.heap = h' → v.fileIo = none → v.io k ≠ .freed → OpenHandle ⟨true, false⟩ k v u r → r = .fail ∧ u.heap = h' := by
      intro k v u r hv hf hk h
      cases h with
      | refused h => exact absurd hf h
      | ubFreed _ h => exact absurd h hk
      | notOpened => exact ⟨rfl, hv⟩
      | ub _ _ h => rw [hv] at h; cases (noread h).1
      | readFailed _ _ h => rw [hv] at h; exact ⟨rfl, (noread h).2⟩
      | readFailedClose _ _ h hc =>
        rw [hv] at h
        rw [closeIo_ok rfl hc]
        exact ⟨rfl, (noread h).2⟩
      | lockFailed _ _ _ h => rw [hv] at h; cases (noread h).1
      | lockFailedClose _ _ _ h => rw [hv] at h; cases (noread h).1
      | ok _ _ h => rw [hv] at h; cases (noread h).1
    refine ⟨s, hs, ?_, ?_, ?_⟩
    · exact ⟨(h'.content p).volumes, by
        show fromSuperblock s Info.volumes = _
        have h1 : s.heap.ptr .superblock = some p := hp
        have h2 : p ∈ s.heap.live := owned_live ho hp
        simp only [fromSuperblock, h1, h2, if_true]
        rfl⟩
    · intro r u hc
      have hf : s.fileIo = none := rfl
      cases hc with
      | close h =>
        cases h with
        | refused => exact ⟨rfl, rfl⟩
        | lockFailed _ h => exact absurd hf h
        | fileUb h => rw [hf] at h; cases h
        | ub h => rw [hf] at h; cases h
        | done h => rw [hf] at h; cases h
        | doneError h => rw [hf] at h; cases h
    · intro r u hc
      cases hc with
      | openPath h =>
        cases h with
        | refused => exact ⟨rfl, rfl⟩
        | nameFailed => exact ⟨rfl, rfl⟩
        | failed h => exact ⟨rfl, (noopen (v := _) rfl rfl (by simp [St.setIo]) h).2⟩
        | ub h => cases (noopen (v := _) rfl rfl (by simp [St.setIo]) h).1
        | lockFailed _ h => cases (noopen (v := _) rfl rfl (by simp [St.setIo]) h).1
        | ok h => cases (noopen (v := _) rfl rfl (by simp [St.setIo]) h).1
  · cases h

/-- If the second lock of `libfsapfs_container_open` cannot be grabbed the container keeps a file IO handle that was freed, and closing it uses that. -/
theorem c30_lock_failure_dangling : ∃ s, Calls ⟨true, false⟩ start [.openPath .fail, .close .ub] s := by
  obtain ⟨h', he⟩ := openRead_succeeds start_inv.owned (set_nil.2 (fun _ => rfl))
  let t : St := { start.setIo start.nextIo .closed with nextIo := start.nextIo + 1 }
  let v : St := { t.setIo 1 .opened with heap := h', fileIo := some 1, openedInLibrary := decide (t.io 1 = .closed) }
  have h1 : Calls ⟨true, false⟩ start [.openPath .fail] (v.setIo 1 .freed) := by
    have h0 : OpenHandle ⟨true, false⟩ start.nextIo t v (.ok ()) := .ok (s := t) (h := h') rfl (by simp [t, St.setIo]) he
    exact .snoc .nil (.openPath (.lockFailed rfl h0))
  have h2 : Call ⟨true, false⟩ (v.setIo 1 .freed) (.close .ub) (v.setIo 1 .freed) :=
    .close (.fileUb (k := 1) rfl (.ub rfl rfl))
  exact ⟨_, .snoc h1 h2⟩

end Verif.Props
