import Verif.Model.Base
/-! Lemmas: memory access -/
namespace Verif
open Res

theorem safe_rd {d : Bytes} {i : Nat} (h : i < d.length) : Safe (rd d i) := by rw [rd_lt h]; exact safe_ok _
theorem safe_rdN {d : Bytes} {i n : Nat} (h : i + n ≤ d.length) : Safe (rdN d i n) := by rw [rdN_le h]; exact safe_ok _
theorem safe_rdLE {d : Bytes} {i n : Nat} (h : i + n ≤ d.length) : Safe (rdLE d i n) := by rw [rdLE_le h]; exact safe_ok _

theorem rdLE_mid (a b : Bytes) (n v off : Nat) (h : a.length = off) (hv : v < 256 ^ n) : rdLE (a ++ (toLE n v ++ b)) off n = ok v := by
  unfold rdLE
  rw [rdN_mid' a (toLE n v) b off n h (by simp)]
  simp [leNat_toLE n v hv]

theorem eq_take_drop (d : Bytes) (off n : Nat) : d.drop off = (d.drop off).take n ++ d.drop (off + n) := by
  rw [← List.drop_drop, List.take_append_drop]

theorem rdLE_inv {d : Bytes} {off n v : Nat} (h : rdLE d off n = ok v) : off + n ≤ d.length ∧ (d.drop off).take n = toLE n v := by
  by_cases hl : off + n ≤ d.length
  · rw [rdLE_le hl] at h
    refine ⟨hl, ?_⟩
    have := ok.inj h
    rw [← this]
    have hlen : ((d.drop off).take n).length = n := by rw [List.length_take, List.length_drop]; omega
    conv => rhs; arg 1; rw [← hlen]
    rw [toLE_leNat]
  · rw [rdLE_gt (by omega)] at h
    cases h

theorem rdN_inv {d : Bytes} {off n : Nat} {v : Bytes} (h : rdN d off n = ok v) : off + n ≤ d.length ∧ (d.drop off).take n = v := by
  by_cases hl : off + n ≤ d.length
  · rw [rdN_le hl] at h
    exact ⟨hl, ok.inj h⟩
  · rw [rdN_gt (by omega)] at h
    cases h

theorem rdLE_lt {d : Bytes} {off n v : Nat} (h : rdLE d off n = ok v) : v < 256 ^ n := by
  by_cases hl : off + n ≤ d.length
  · rw [rdLE_le hl] at h
    have := leNat_lt ((d.drop off).take n)
    rw [ok.inj h] at this
    rw [List.length_take, List.length_drop, Nat.min_eq_left (by omega)] at this
    exact this
  · rw [rdLE_gt (by omega)] at h
    cases h

end Verif
