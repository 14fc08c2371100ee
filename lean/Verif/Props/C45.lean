import Verif.Model.DataStream
import Verif.Spec.ByteArray
import Verif.Lemmas.Base
/-!
# C45 In-memory attribute streams behave like byte arrays
-/
namespace Verif.Props
open Verif Res Spec DataStream

/-- the calls with valid arguments as operations on a byte array; others do nothing -/
def arrayOp : BufferOp → Option ArrayOp
  | .seek segment off => if segment = 0 ∧ 0 ≤ off then some (.seek off.toNat) else none
  | .read segment n => if segment = 0 ∧ n < 2 ^ 63 then some (.read n) else none

/-- the data returned by the successful reads -/
def readData : List BufferResult → List Bytes
  | [] => []
  | .data d :: rs => d :: readData rs
  | _ :: rs => readData rs

theorem bufferRun_spec (data : Bytes) (ops : List BufferOp) (pos : Nat) :
    ∃ rs, bufferRun data pos ops = ok rs ∧ readData rs = arrayRun data pos (ops.filterMap arrayOp) ∧ rs.length = ops.length ∧
      ∀ i, ∀ h : i < rs.length, ∀ h' : i < ops.length, rs[i] = .error ↔ arrayOp ops[i] = none := by
  induction ops generalizing pos with
  | nil => exact ⟨[], rfl, rfl, rfl, by intro i h; simp at h⟩
  | cons o ops ih =>
    have step : ∃ r pos', bufferStep data pos o = ok (r, ((pos' : Nat) : Int)) ∧ (r = .error ↔ arrayOp o = none) ∧
        ∀ rs, readData rs = arrayRun data pos' (ops.filterMap arrayOp) → readData (r :: rs) = arrayRun data pos ((o :: ops).filterMap arrayOp) := by
      cases o with
      | seek segment off =>
        unfold bufferStep
        simp only
        by_cases h1 : segment = 0
        · rw [if_neg (by simpa using h1)]
          by_cases h2 : off < 0
          · rw [if_pos h2]
            have hn : arrayOp (.seek segment off) = none := by unfold arrayOp; simp only; rw [if_neg (by omega)]
            refine ⟨_, pos, rfl, by simp [hn], ?_⟩
            intro rs h
            rw [List.filterMap_cons_none hn]
            exact h
          · rw [if_neg h2]
            have hn : arrayOp (.seek segment off) = some (.seek off.toNat) := by unfold arrayOp; simp only; rw [if_pos (by omega)]
            refine ⟨.offset off, off.toNat, by rw [Int.toNat_of_nonneg (by omega)], by simp [hn], ?_⟩
            intro rs h
            rw [List.filterMap_cons_some hn]
            exact h
        · rw [if_pos h1]
          have hn : arrayOp (.seek segment off) = none := by unfold arrayOp; simp only; rw [if_neg (by omega)]
          refine ⟨_, pos, rfl, by simp [hn], ?_⟩
          intro rs h
          rw [List.filterMap_cons_none hn]
          exact h
      | read segment n =>
        unfold bufferStep
        simp only
        rw [if_neg (by omega)]
        by_cases h1 : segment = 0
        · rw [if_neg (by simpa using h1)]
          by_cases h2 : n > 2 ^ 63 - 1
          · rw [if_pos h2]
            have hn : arrayOp (.read segment n) = none := by unfold arrayOp; simp only; rw [if_neg (by omega)]
            refine ⟨_, pos, rfl, by simp [hn], ?_⟩
            intro rs h
            rw [List.filterMap_cons_none hn]
            exact h
          · rw [if_neg h2]
            have hn : arrayOp (.read segment n) = some (.read n) := by unfold arrayOp; simp only; rw [if_pos (by omega)]
            by_cases h3 : (pos : Int) ≥ (data.length : Int)
            · rw [if_pos h3]
              have hd : data.drop pos = [] := List.drop_of_length_le (by omega)
              refine ⟨.data [], pos, rfl, by simp [hn], ?_⟩
              intro rs h
              rw [List.filterMap_cons_some hn]
              simp only [readData, arrayRun, hd, List.take_nil, List.length_nil, Nat.add_zero]
              rw [h]
            · rw [if_neg h3]
              have hsz : (if data.length - pos > n then n else data.length - pos) = min n (data.length - pos) := by split <;> omega
              simp only [Int.toNat_natCast, hsz]
              rw [rdN_le (by omega)]
              have ht : (data.drop pos).take (min n (data.length - pos)) = (data.drop pos).take n := by
                rw [← List.length_drop, ← List.take_eq_take_min]
              rw [ht]
              refine ⟨.data ((data.drop pos).take n), pos + min n (data.length - pos), ?_, by simp [hn], ?_⟩
              · rfl
              · intro rs h
                rw [List.filterMap_cons_some hn]
                simp only [readData, arrayRun, List.length_take, List.length_drop]
                rw [h]
        · rw [if_pos h1]
          have hn : arrayOp (.read segment n) = none := by unfold arrayOp; simp only; rw [if_neg (by omega)]
          refine ⟨_, pos, rfl, by simp [hn], ?_⟩
          intro rs h
          rw [List.filterMap_cons_none hn]
          exact h
    obtain ⟨r, pos', s1, s2, s3⟩ := step
    obtain ⟨rs, g1, g2, g3, g4⟩ := ih pos'
    refine ⟨r :: rs, ?_, s3 rs g2, by simp [g3], ?_⟩
    · unfold bufferRun
      rw [s1]
      simp only [ok_bind]
      rw [g1]
      rfl
    · intro i h h'
      cases i with
      | zero => exact s2
      | succ i => exact g4 i (by simpa using h) (by simpa using h')

/-- Any sequence of calls on a new stream stays within the buffer, fails exactly for the calls with invalid arguments, and the reads return what
the same operations on a byte array return. -/
theorem c45_refines (data : Bytes) (ops : List BufferOp) :
    ∃ rs, bufferRun data 0 ops = ok rs ∧ readData rs = arrayRun data 0 (ops.filterMap arrayOp) ∧ rs.length = ops.length ∧
      ∀ i, ∀ h : i < rs.length, ∀ h' : i < ops.length, rs[i] = .error ↔ arrayOp ops[i] = none :=
  bufferRun_spec data ops 0

theorem arrayRun_reads (data : Bytes) (ns : List Nat) (pos : Nat) :
    (arrayRun data pos (ns.map .read)).flatten = (data.drop pos).take ns.sum := by
  induction ns generalizing pos with
  | nil => simp [arrayRun]
  | cons n ns ih =>
    simp only [List.map_cons, arrayRun, List.flatten_cons, ih, List.sum_cons]
    rw [List.take_add]
    congr 1
    rw [← List.drop_drop, List.length_take, List.length_drop]
    by_cases h : n ≤ data.length - pos
    · rw [Nat.min_eq_left h, List.drop_drop]
    · rw [Nat.min_eq_right (by omega), ← List.length_drop, List.drop_length, List.drop_of_length_le (by rw [List.length_drop]; omega)]

/-- Reading piecewise, with pieces of any sizes, gives the data: the concatenation of the pieces is the data up to the number of bytes asked for. -/
theorem c45_pieces (data : Bytes) (ns : List Nat) (hn : ∀ n ∈ ns, n < 2 ^ 63) :
    ∃ rs, bufferRun data 0 (ns.map (.read 0 ·)) = ok rs ∧ (readData rs).flatten = data.take ns.sum := by
  obtain ⟨rs, h1, h2, h3⟩ := c45_refines data (ns.map (.read 0 ·))
  refine ⟨rs, h1, ?_⟩
  have : (ns.map (BufferOp.read 0 ·)).filterMap arrayOp = ns.map .read := by
    clear h1 h2 h3
    induction ns with
    | nil => rfl
    | cons n ns ih =>
      have hn' : arrayOp (.read 0 n) = some (.read n) := by unfold arrayOp; simp only; rw [if_pos ⟨trivial, hn n (by simp)⟩]
      rw [List.map_cons, List.filterMap_cons_some hn', ih (fun m hm => hn m (by simp [hm])), List.map_cons]
  rw [h2, this, arrayRun_reads]
  rfl

example : bufferRun [1, 2, 3, 4, 5] 0 [.read 0 2, .seek 0 4, .read 0 9, .seek 0 (-1), .seek 0 70, .read 0 1, .seek 1 0, .seek 0 1, .read 0 2] =
    ok [.data [1, 2], .offset 4, .data [5], .error, .offset 70, .data [], .error, .offset 1, .data [2, 3]] := by decide +kernel

end Verif.Props
