import Verif.Lemmas.Zlib
/-!
# C08 – DEFLATE decompression follows RFC 1951

`Spec.Blocks D fin 0 [] bits out` (Spec/Deflate.lean) is the RFC 1951 relation between the bits of a block sequence and
its expansion, `D` is the condition on the distance code of a dynamic block.

Full statement (false, see `c08_refuses_literal_only_block`):
`Blocks RfcDist true 0 [] bits out → out.length ≤ cap → bytesBits d = bits ++ rest → decompress d cap = ok out`
-/
namespace Verif.Props
open Verif Res Spec BitStream Deflate

/-- The decompressor succeeds exactly for the streams of RFC 1951 blocks whose distance codes are not empty and have at
most 30 sizes, and then returns exactly the expansion. Bits behind the last block are ignored. A stream that stops
without a last block is accepted as well if less than one byte is left.

Missing for the full statement: dynamic blocks without any distance code, and distance code tables of 31 or 32 sizes. -/
theorem c08_rfc1951_partial (d out : Bytes) (cap : Nat) (hd : d.length ≤ 2 ^ 63 - 1) (hcap : cap ≤ 2 ^ 63 - 1) (h0 : d ≠ []) :
    decompress d cap = ok out ↔ out.length ≤ cap ∧ ∃ fin bits rest, Blocks UsedDist fin 0 [] bits out ∧
      bytesBits d = bits ++ rest ∧ (fin = false → rest.length < 8) := by
  have hl : 0 < d.length := List.length_pos_iff.2 h0
  unfold decompress
  simp only [require_true hd, require_true hcap, require_true hl, ok_bind, pure_eq]
  obtain ⟨hc, hs⟩ := blockLoop_run cap d 0 (by omega)
  simp only [List.drop_zero] at hc hs
  constructor
  · intro h
    rcases hs with e | ⟨fin, bits, rest, out', s', e, hB, hle, hb, hf, _⟩
    · simp [e] at h
    · simp only [e, ok_bind, ok.injEq] at h
      subst h
      exact ⟨hle, fin, bits, rest, hB, hb, hf⟩
  · rintro ⟨hle, fin, bits, rest, hB, hb, hf⟩
    obtain ⟨s', e, _⟩ := hc fin bits rest out hB hle hb hf
    simp [e]

/-- Direction a user relies on: any complete stream is decompressed to its expansion. -/
theorem c08_complete_stream_partial (d out : Bytes) (bits rest : List Bool) (cap : Nat) (hd : d.length ≤ 2 ^ 63 - 1)
    (hcap : cap ≤ 2 ^ 63 - 1) (hfit : out.length ≤ cap) (hB : Blocks UsedDist true 0 [] bits out) (hb : bytesBits d = bits ++ rest) :
    decompress d cap = ok out := by
  have h0 : d ≠ [] := by
    rintro rfl
    have : bits = [] := (List.append_eq_nil_iff.1 (hb.symm.trans rfl)).1
    subst this
    have key : ∀ b pos o o', Blocks UsedDist true pos o b o' → b ≠ [] := by
      intro b pos o o' h
      cases h with
      | last _ h => obtain ⟨_⟩ := h; simp
      | «open» h => cases h
      | more h _ => obtain ⟨_⟩ := h; simp
    exact key _ _ _ _ hB rfl
  exact (c08_rfc1951_partial d out cap hd hcap h0).2 ⟨hfit, true, bits, rest, hB, hb, by simp⟩

/-- Two readings of one stream never disagree: the expansion is a function of the bytes. -/
theorem c08_unambiguous (d out out' : Bytes) (bits bits' rest rest' : List Bool) (hd : d.length ≤ 2 ^ 63 - 1)
    (ho : out.length ≤ 2 ^ 63 - 1) (ho' : out'.length ≤ 2 ^ 63 - 1)
    (h : Blocks UsedDist true 0 [] bits out) (h' : Blocks UsedDist true 0 [] bits' out')
    (hb : bytesBits d = bits ++ rest) (hb' : bytesBits d = bits' ++ rest') : out = out' := by
  have h1 := c08_complete_stream_partial d out bits rest (2 ^ 63 - 1) hd (by omega) ho h hb
  have h2 := c08_complete_stream_partial d out' bits' rest' (2 ^ 63 - 1) hd (by omega) ho' h' hb'
  rw [h1] at h2
  cases h2
  rfl

/-- a concrete stream of two blocks, stored "ab" and a fixed block with literal "c" and a match (length 3, distance 3) -/
example : Blocks UsedDist true 0 []
    ((false :: (natBits 2 0 ++ (List.replicate 5 false ++ (natBits 16 2 ++ (natBits 16 65533 ++ bytesBits [0x61, 0x62]))))) ++
     (true :: (natBits 2 1 ++ (msbBits 8 (0x30 + 0x63) ++ (msbBits 7 1 ++ (natBits 0 0 ++ (msbBits 5 2 ++ (natBits 0 0 ++ msbBits 7 0))))))))
    [0x61, 0x62, 0x63, 0x61, 0x62, 0x63] :=
  .more (.mk (.stored (List.replicate 5 false) [0x61, 0x62] (by decide) (by decide) (by decide)))
    (.last rfl (.mk (.fixed (.lit 0x63 ⟨8, by decide +kernel, by decide, by decide +kernel⟩
      (.copy 0 0 2 0 (by decide) ⟨7, by decide +kernel, by decide, by decide +kernel⟩ (by decide) (by decide)
        ⟨5, by decide +kernel, by decide, by decide +kernel⟩ (by decide) (by decide)
        (.eob ⟨7, by decide +kernel, by decide, by decide +kernel⟩))))))

/-- code sizes of the witness below: literal 'A' and end-of-block have 1 bit codes -/
def witnessLL : List Nat := List.replicate 65 0 ++ ([1] ++ (List.replicate 138 0 ++ (List.replicate 52 0 ++ [1])))

/-- values of the code length codes: 1 bit for 18, 2 bits for 0 and 1 -/
def witnessCL : List Nat := [0, 0, 1, 2, 0, 0, 0, 0, 0, 0, 0, 0, 0, 0, 0, 0, 0, 2]

def witnessRle : List Bool :=
  [false] ++ (natBits 7 54 ++ ([true, true] ++ ([false] ++ (natBits 7 127 ++ ([false] ++ (natBits 7 41 ++ ([true, true] ++ ([true, false] ++ []))))))))

def witnessHeader : List Bool :=
  natBits 5 0 ++ (natBits 5 0 ++ (natBits 4 14 ++ (witnessCL.flatMap (natBits 3) ++ witnessRle)))

def witnessBits : List Bool := true :: (natBits 2 2 ++ (witnessHeader ++ ([false] ++ [true])))

/-- `witnessBits` as bytes -/
def witnessBytes : Bytes := [5, 192, 129, 8, 0, 0, 0, 0, 32, 182, 253, 165, 78]

theorem witness_rfc : Blocks RfcDist true 0 [] witnessBits [65] := by
  have hcl : ∀ s w, (∃ l, (clSizes witnessCL)[s]? = some l ∧ 0 < l ∧ w = msbBits l (symCode (clSizes witnessCL) s l)) →
      CodeWord (clSizes witnessCL) s w := fun s w h => h
  refine .last rfl (.mk (.dynamic (ll := witnessLL) (dl := [0]) ?_ ?_))
  · refine ⟨witnessCL, witnessRle, by decide +kernel, by decide +kernel, ⟨by decide, by decide, ?_⟩, by decide, by decide,
      by decide +kernel, ⟨?_, 1, by decide +kernel, by decide⟩, ⟨?_, 1, by decide +kernel, by decide⟩, ?_, by decide +kernel⟩
    · intro b hb
      have : ∀ b < 16, nextCode [0] b + blCount [0] b ≤ 2 ^ b := by decide +kernel
      exact this b (by omega)
    · intro b hb
      have : ∀ b < 16, nextCode (clSizes witnessCL) b + blCount (clSizes witnessCL) b ≤ 2 ^ b := by decide +kernel
      exact this b (by omega)
    · intro b hb
      have : ∀ b < 16, nextCode witnessLL b + blCount witnessLL b ≤ 2 ^ b := by decide +kernel
      exact this b (by omega)
    · have hall : witnessLL ++ [0] = ((((([] ++ List.replicate (11 + 54) 0) ++ [1]) ++ List.replicate (11 + 127) 0) ++
          List.replicate (11 + 41) 0) ++ [1]) ++ [0] := by decide +kernel
      rw [hall, show witnessLL.length + [0].length = 258 by decide +kernel]
      exact .manyZeros 54 (by decide) (by decide) ⟨1, by decide +kernel, by decide, by decide +kernel⟩
        (.size 1 (by decide +kernel) (by decide) ⟨2, by decide +kernel, by decide, by decide +kernel⟩
          (.manyZeros 127 (by decide) (by decide +kernel) ⟨1, by decide +kernel, by decide, by decide +kernel⟩
            (.manyZeros 41 (by decide) (by decide +kernel) ⟨1, by decide +kernel, by decide, by decide +kernel⟩
              (.size 1 (by decide +kernel) (by decide) ⟨2, by decide +kernel, by decide, by decide +kernel⟩
                (.size 0 (by decide +kernel) (by decide) ⟨2, by decide +kernel, by decide, by decide +kernel⟩
                  (.done (by decide +kernel)))))))
  · exact .lit 65 ⟨1, by decide +kernel, by decide, by decide +kernel⟩
      (.eob ⟨1, by decide +kernel, by decide, by decide +kernel⟩)

/-- The full statement is false: a valid stream whose only block has no distance code (RFC 1951 3.2.7 "One distance code
of zero bits means that there are no distance codes used at all") is refused. -/
theorem c08_refuses_literal_only_block : ∃ (d out : Bytes) (bits rest : List Bool), Blocks RfcDist true 0 [] bits out ∧
    bytesBits d = bits ++ rest ∧ out.length ≤ 16 ∧ decompress d 16 = err :=
  ⟨witnessBytes, [65], witnessBits, (bytesBits witnessBytes).drop witnessBits.length, witness_rfc,
    by decide +kernel, by decide, by decide +kernel⟩

end Verif.Props
