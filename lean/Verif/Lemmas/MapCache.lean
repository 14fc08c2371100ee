import Verif.Lemmas.Threads
import Verif.Lemmas.Walk
import Verif.Lemmas.WideListing
/-!
# Lookups in the object map with its node cache
-/
namespace Verif
open Res BTree NodeCache
open Verif.FsTree (safe_omScan safe_omSubNode safe_omRoot)
namespace Threads

/-- the block was read and has the node -/
def MapCame (fetch : Nat → Res Bytes) (b : Nat) (n : Node) : Prop := ∃ d, fetch b = ok d ∧ readNode d = ok n

theorem MapCame.eq {fetch : Nat → Res Bytes} {b : Nat} {m n : Node} (hm : MapCame fetch b m) (hn : MapCame fetch b n) : m = n := by
  obtain ⟨d, h1, h2⟩ := hm
  obtain ⟨e, h3, h4⟩ := hn
  rw [h1] at h3
  cases Res.ok.inj h3
  rw [h2] at h4
  exact Res.ok.inj h4

/-- every value of the cache is the node of its block, and there is one for each block -/
structure MapFits (fetch : Nat → Res Bytes) (c : Cache) : Prop where
  came : ∀ s ∈ c.slots, MapCame fetch s.block s.node
  once : (c.slots.map (·.block)).Nodup

theorem omRoot_came {fetch : Nat → Res Bytes} {b : Nat} {n : Node} (h : omRoot fetch b = ok n) : ¬ b > 2 ^ 31 - 1 ∧ MapCame fetch b n := by
  unfold omRoot at h
  obtain ⟨_, h0, h⟩ := bind_eq_ok.1 h
  obtain ⟨d, h1, h⟩ := bind_eq_ok.1 h
  obtain ⟨m, h2, h⟩ := bind_eq_ok.1 h
  obtain ⟨_, _, h⟩ := bind_eq_ok.1 h
  obtain ⟨_, _, h⟩ := bind_eq_ok.1 h
  obtain ⟨_, _, h⟩ := bind_eq_ok.1 h
  refine ⟨fun hb => ?_, d, h1, ?_⟩
  · rw [require_false (by simpa using hb)] at h0
    cases h0
  · split at h
    · cases h
    · obtain ⟨_, _, h⟩ := bind_eq_ok.1 h
      obtain ⟨_, _, h⟩ := bind_eq_ok.1 h
      obtain ⟨_, _, h⟩ := bind_eq_ok.1 h
      cases Res.ok.inj h
      exact h2

theorem omSubNode_came {fetch : Nat → Res Bytes} {b : Nat} {n : Node} (h : omSubNode fetch b = ok n) : ¬ b > 2 ^ 31 - 1 ∧ MapCame fetch b n := by
  unfold omSubNode at h
  obtain ⟨_, h0, h⟩ := bind_eq_ok.1 h
  obtain ⟨d, h1, h⟩ := bind_eq_ok.1 h
  obtain ⟨m, h2, h⟩ := bind_eq_ok.1 h
  obtain ⟨_, _, h⟩ := bind_eq_ok.1 h
  obtain ⟨_, _, h⟩ := bind_eq_ok.1 h
  obtain ⟨_, _, h⟩ := bind_eq_ok.1 h
  refine ⟨fun hb => ?_, d, h1, ?_⟩
  · rw [require_false (by simpa using hb)] at h0
    cases h0
  · cases Res.ok.inj h
    exact h2

theorem map_get {p : Policy} (hp : KeepsValues p) {fetch : Nat → Res Bytes} {load : Nat → Res Node} (hs : ∀ b, Safe (load b)) (hl : ∀ b n, load b = ok n → ¬ b > 2 ^ 31 - 1 ∧ MapCame fetch b n) (b : Nat) {c : Cache}
    (hc : MapFits fetch c) : MapFits fetch ((get (fun b => do return some (← load b)) b).run p c).2 ∧
      (((get (fun b => do return some (← load b)) b).run p c).1 = err ∧ (∀ n, load b ≠ ok n) ∨
        ∃ s, ((get (fun b => do return some (← load b)) b).run p c).1 = ok (some s) ∧ s ∈ ((get (fun b => do return some (← load b)) b).run p c).2.slots ∧ ∀ n, load b = ok n → n = s.node) := by
  rw [run_get]
  unfold NodeCache.get
  split
  · next h => exact ⟨hc, .inl ⟨rfl, fun n hn => (hl b n hn).1 h⟩⟩
  · split
    · next s hf =>
      have hm := List.mem_of_find?_eq_some hf
      have hb : s.block = b := by simpa using List.find?_some hf
      have hperm := hp c.slots s hc.once hm
      refine ⟨⟨fun t ht => hc.came t (hperm.mem_iff.1 ht), (hperm.map _).nodup_iff.2 hc.once⟩, .inr ⟨s, rfl, hperm.mem_iff.2 hm, fun n hn => ?_⟩⟩
      have := hc.came s hm
      rw [hb] at this
      exact (hl b n hn).2.eq this
    · next hf =>
      have hf : ∀ s ∈ c.slots, s.block ≠ b := by simpa using List.find?_eq_none.1 hf
      dsimp only
      cases hr : load b with
      | ub => exact absurd hr (hs b)
      | err => exact ⟨hc, .inl ⟨rfl, by simp⟩⟩
      | ok n =>
        have hsub : (room p c.slots b).Sublist c.slots := by
          unfold room
          split
          · exact List.Sublist.refl _
          · exact List.eraseIdx_sublist _ _
        have hnew : (c.slots.map (·.block) ++ [b]).Nodup := by
          rw [List.nodup_append]
          refine ⟨hc.once, by simp, fun x hx y hy => ?_⟩
          obtain ⟨s, hs, rfl⟩ := List.mem_map.1 hx
          rw [List.mem_singleton.1 hy]
          exact hf s hs
        refine ⟨⟨fun t ht => ?_, ?_⟩, .inr ⟨⟨b, c.next, n⟩, rfl, by show _ ∈ _ ++ [_]; simp, fun m hm => (Res.ok.inj hm).symm⟩⟩
        · rcases List.mem_append.1 ht with ht | ht
          · exact hc.came t (hsub.subset ht)
          · rw [List.mem_singleton.1 ht]
            exact (hl b n hr).2
        · show ((room p c.slots b ++ [_]).map _).Nodup
          rw [List.map_append]
          exact hnew.sublist ((hsub.map _).append (List.Sublist.refl _))

theorem map_use {α : Type} {p : Policy} {s : Slot} {m : Proc α} {c : Cache} (h : s ∈ c.slots) : (Proc.use s m).run p c = m.run p c := by
  show (if c.slots.any (fun t => t.stamp = s.stamp) then m.run p c else (ub, c)) = _
  rw [if_pos (List.any_eq_true.2 ⟨s, h, by simp⟩)]

theorem safe_omEntryFromNode (n : Node) (oid xid : Nat) : Safe (omEntryFromNode n oid xid) := by
  unfold omEntryFromNode
  refine safe_bind (safe_omScan _ _ _ _) fun s _ => ?_
  split
  · split <;> exact safe_ok _
  · split <;> exact safe_ok _

theorem mapLoop_runs {p : Policy} (hp : KeepsValues p) {fetch : Nat → Res Bytes} (hf : ∀ b, Safe (fetch b)) (oid xid fuel : Nat) : ∀ (s : Slot) (c : Cache), MapFits fetch c → s ∈ c.slots →
    MapFits fetch ((mapLoop fetch oid xid fuel s).run p c).2 ∧
      (((mapLoop fetch oid xid fuel s).run p c).1 = err ∧ (∀ r, omLoop fetch oid xid fuel s.node ≠ ok r) ∨
        ((mapLoop fetch oid xid fuel s).run p c).1 = ok none ∧ (∀ r, omLoop fetch oid xid fuel s.node = ok r → r = none) ∨
        ∃ u e, ((mapLoop fetch oid xid fuel s).run p c).1 = ok (some (u, e)) ∧ u ∈ ((mapLoop fetch oid xid fuel s).run p c).2.slots ∧ ∀ r, omLoop fetch oid xid fuel s.node = ok r → r = some e) := by
  induction fuel with
  | zero =>
    intro s c hc hs
    exact ⟨hc, .inl ⟨rfl, by simp [omLoop]⟩⟩
  | succ fuel ih =>
    intro s c hc hs
    rw [mapLoop, omLoop, map_use hs, run_bind]
    cases hr : omEntryFromNode s.node oid xid with
    | ub => exact absurd hr (safe_omEntryFromNode _ _ _)
    | err => exact ⟨hc, .inl ⟨rfl, by simp⟩⟩
    | ok r =>
      rw [show (Proc.ret (ok r)).run p = pureRes (ok r) from rfl, pureRes_ok, ok_bind]
      cases r with
      | none => exact ⟨hc, .inr (.inl ⟨rfl, fun r h => (Res.ok.inj h).symm⟩)⟩
      | some e =>
        dsimp only
        by_cases hleaf : s.node.leaf = true
        · rw [if_pos hleaf, if_pos hleaf]
          exact ⟨hc, .inr (.inr ⟨s, e, rfl, hs, fun r h => (Res.ok.inj h).symm⟩)⟩
        · rw [if_neg hleaf, if_neg hleaf]
          cases e with
          | none => exact ⟨hc, .inl ⟨rfl, by simp⟩⟩
          | some e =>
            dsimp only
            unfold omSub
            rw [run_bind]
            by_cases hlen : e.2.length = 8
            · rw [require_true hlen, show (Proc.ret (ok ())).run p = pureRes (ok ()) from rfl, pureRes_ok, ok_bind, run_bind]
              cases hb : rdLE e.2 0 8 with
              | ub => exact absurd hb (safe_rdLE (by omega))
              | err => exact ⟨hc, .inl ⟨rfl, by simp⟩⟩
              | ok b =>
                rw [show (Proc.ret (ok b)).run p = pureRes (ok b) from rfl, pureRes_ok, ok_bind, run_bind]
                obtain ⟨g1, g2⟩ := map_get hp (load := omSubNode fetch) (safe_omSubNode hf) (fun _ _ => omSubNode_came) b hc
                rcases g2 with ⟨g2, g3⟩ | ⟨u, g2, g3, g4⟩
                · rw [bind_err (Prod.ext g2 rfl)]
                  refine ⟨g1, .inl ⟨rfl, fun r ha => ?_⟩⟩
                  obtain ⟨m, hm, _⟩ := bind_eq_ok.1 ha
                  exact g3 m hm
                · rw [bind_ok (Prod.ext g2 rfl)]
                  dsimp only
                  obtain ⟨k1, k2⟩ := ih u _ g1 g3
                  have hm : ∀ r, (omSubNode fetch b >>= fun m => omLoop fetch oid xid fuel m) = ok r → omLoop fetch oid xid fuel u.node = ok r := by
                    intro r hr
                    obtain ⟨m, hm, hr⟩ := bind_eq_ok.1 hr
                    rw [← g4 m hm]
                    exact hr
                  refine ⟨k1, ?_⟩
                  rcases k2 with ⟨k2, k3⟩ | ⟨k2, k3⟩ | ⟨w, e, k2, k3, k4⟩
                  · exact .inl ⟨k2, fun r hr => k3 r (hm r hr)⟩
                  · exact .inr (.inl ⟨k2, fun r hr => k3 r (hm r hr)⟩)
                  · exact .inr (.inr ⟨w, e, k2, k3, fun r hr => k4 r (hm r hr)⟩)
            · rw [require_false hlen]
              exact ⟨hc, .inl ⟨rfl, by simp⟩⟩

/-- one lookup in the object map -/
theorem mapping_runs {p : Policy} (hp : KeepsValues p) {fetch : Nat → Res Bytes} (hf : ∀ b, Safe (fetch b)) (root oid xid : Nat) {c : Cache} (hc : MapFits fetch c) :
    ((mapping fetch root oid xid).run p c).1 ≠ ub ∧ (∀ r, omDescriptor fetch root oid xid = ok r → ((mapping fetch root oid xid).run p c).1 = ok r) ∧ MapFits fetch ((mapping fetch root oid xid).run p c).2 := by
  unfold mapping omDescriptor omLookup
  rw [run_bind]
  obtain ⟨g1, g2⟩ := map_get hp (load := omRoot fetch) (safe_omRoot hf) (fun _ _ => omRoot_came) root hc
  rcases g2 with ⟨g2, g3⟩ | ⟨u, g2, g3, g4⟩
  · rw [bind_err (Prod.ext g2 rfl)]
    refine ⟨by simp, fun r ha => ?_, g1⟩
    obtain ⟨m, hm, _⟩ := bind_eq_ok.1 ha
    obtain ⟨m, hm, _⟩ := bind_eq_ok.1 hm
    exact absurd hm (g3 m)
  · rw [bind_ok (Prod.ext g2 rfl)]
    dsimp only
    rw [run_bind]
    obtain ⟨k1, k2⟩ := mapLoop_runs hp hf oid xid 257 u _ g1 g3
    have hm : ∀ r, (omRoot fetch root >>= fun n => omLoop fetch oid xid 257 n) = ok r → omLoop fetch oid xid 257 u.node = ok r := by
      intro r hr
      obtain ⟨m, hm, hr⟩ := bind_eq_ok.1 hr
      rw [← g4 m hm]
      exact hr
    rcases k2 with ⟨k2, k3⟩ | ⟨k2, k3⟩ | ⟨w, e, k2, k3, k4⟩
    · rw [bind_err (Prod.ext k2 rfl)]
      refine ⟨by simp, fun r ha => ?_, k1⟩
      obtain ⟨m, h, _⟩ := bind_eq_ok.1 ha
      exact absurd (hm m h) (k3 m)
    · rw [bind_ok (Prod.ext k2 rfl)]
      refine ⟨by show ok none ≠ ub; simp, fun r ha => ?_, k1⟩
      obtain ⟨m, h, ha⟩ := bind_eq_ok.1 ha
      rw [k3 m (hm m h)] at ha
      exact ha
    · rw [bind_ok (Prod.ext k2 rfl)]
      cases e with
      | none =>
        refine ⟨by show err ≠ ub; simp, fun r ha => ?_, k1⟩
        obtain ⟨m, h, ha⟩ := bind_eq_ok.1 ha
        rw [k4 m (hm m h)] at ha
        cases ha
      | some e =>
        dsimp only
        rw [map_use k3]
        refine ⟨?_, fun r ha => ?_, k1⟩
        · show (_ : Res _) ≠ ub
          by_cases h1 : e.1.length < 16
          · rw [require_false (by simpa using h1)]
            show (err : Res (Option Descriptor)) ≠ ub
            simp
          · rw [require_true h1, ok_bind]
            refine safe_bind (safe_rdLE (by omega)) fun _ _ => safe_bind (safe_rdLE (by omega)) fun _ _ => ?_
            by_cases h2 : e.2.length < 16
            · rw [require_false (by simpa using h2)]
              simp [err_bind, Safe]
            · rw [require_true h2, ok_bind]
              exact safe_bind (safe_rdLE (by omega)) fun _ _ => safe_bind (safe_rdLE (by omega)) fun _ _ => safe_bind (safe_rdLE (by omega)) fun _ _ => safe_ok _
        · obtain ⟨m, h, ha⟩ := bind_eq_ok.1 ha
          rw [k4 m (hm m h)] at ha
          exact ha

theorem mapFits_empty (fetch : Nat → Res Bytes) : MapFits fetch NodeCache.empty := ⟨(by intro s hs; cases hs), List.Pairwise.nil⟩

end Threads
end Verif
