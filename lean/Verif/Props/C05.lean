import Verif.Lemmas.BitStream
/-!
# C05 – bit reader
-/
namespace Verif.Props
open Verif Res Spec BitStream

/-- Specification: reading groups of `ns` bits, in order, from a bit string. `none`: not enough bits. -/
def specReads : List Bool → List Nat → Option (List Nat)
  | _, [] => some []
  | bits, n :: ns =>
    if n ≤ bits.length then (specReads (bits.drop n) ns).map (bitsVal (bits.take n) :: ·) else none

/-- Reads that the bit reader performs exactly: at most 25 bits, or up to 32 bits from a byte boundary.
`left` is the number of bits left. -/
def Admissible : Nat → List Nat → Prop
  | _, [] => True
  | left, n :: ns => (n ≤ 25 ∨ (n ≤ 32 ∧ left % 8 = 0)) ∧ Admissible (left - n) ns

/-- a sequence of calls of the bit reader -/
def runReads : BitStream → List Nat → Res (List Nat)
  | _, [] => ok []
  | s, n :: ns => do
    let (v, s') ← getValue s n
    let vs ← runReads s' ns
    return v :: vs

theorem runReads_spec (s : BitStream) (ns : List Nat) (hw : s.WF) (ha : Admissible s.bits.length ns) :
    runReads s ns = match specReads s.bits ns with | some vs => ok vs | none => err := by
  induction ns generalizing s with
  | nil => rfl
  | cons n ns ih =>
    obtain ⟨h1, h2⟩ := ha
    have hl := length_bits s
    have hsz := hw.size_lt
    have := getValue_spec s n hw (by omega) (by omega)
    simp only [runReads, specReads]
    by_cases hle : n ≤ s.bits.length
    · rw [if_pos hle]
      obtain ⟨s', e1, e2, _, e4⟩ := this.1 hle
      rw [e1]
      have hb : s'.bits.length = s.bits.length - n := by rw [e2]; simp
      have := ih s' e4 (by rw [hb]; exact h2)
      rw [e2] at this
      simp only [ok_bind, this]
      cases specReads (List.drop n s.bits) ns <;> simp
    · rw [if_neg hle, this.2 (by omega)]
      rfl

/-- Any sequence of reads returns the consecutive bit groups of the input, and fails exactly when the input is
exhausted.  Missing from the full property: reads of more than 25 bits at an unaligned position. -/
theorem c05_reads_in_order_partial (d : Bytes) (off : Nat) (ho : off ≤ d.length) (ns : List Nat)
    (ha : Admissible (8 * (d.length - off)) ns) :
    runReads (init d off) ns =
      match specReads (bytesBits (d.drop off)) ns with | some vs => ok vs | none => err := by
  have := runReads_spec (init d off) ns (WF_init d off ho) (by rw [bits_init]; simpa using ha)
  rwa [bits_init] at this

example : Admissible (8 * 6) [32, 3, 5, 8] ∧ runReads (init [1, 2, 3, 4, 0xab, 0xcd] 0) [32, 3, 5, 8] = ok [0x04030201, 3, 21, 0xcd] := by
  constructor
  · simp [Admissible]
  · decide +kernel

/-- Whatever the input and the read sizes, no byte outside the input is read and the reader terminates. -/
theorem c05_reads_safe (s : BitStream) (ns : List Nat) : Safe (runReads s ns) := by
  induction ns generalizing s with
  | nil => simp [runReads]
  | cons n ns ih =>
    refine safe_bind (getValue_safe s n) ?_
    rintro ⟨v, s'⟩ _
    exact safe_bind (ih s') (fun a _ => by simp)

/-- The full property is false: an unaligned 32-bit read returns its two halves in the wrong order.
(The library itself never performs such a read, see `c07`/`c08`.) -/
theorem c05_unaligned_wide_read_wrong :
    ∃ d ns, (∀ n ∈ ns, n ≤ 32) ∧ specReads (bytesBits d) ns = some [0, 0x80000000] ∧
      runReads (init d 0) ns = ok [0, 1] := by
  refine ⟨[0, 0, 0, 0, 1], [1, 32], by decide, by decide +kernel, by decide +kernel⟩

end Verif.Props
