import Verif.Model.DataStream
import Verif.Spec.FileContent
import Verif.Lemmas.Base
/-! Lemmas: data streams -/
namespace Verif
open Res Spec
namespace DataStream

/-- storage of the bytes `d`: reading fails if not all bytes are there -/
def flat (d : Bytes) (offset size : Nat) : Res Bytes := if offset + size ≤ d.length then ok ((d.drop offset).take size) else err

/-- the blocks of `d` -/
def cut (bs : Nat) (d : Bytes) (b : Nat) : Option Bytes := if (b + 1) * bs ≤ d.length then some ((d.drop (b * bs)).take bs) else none

theorem cut_reads (bs : Nat) (_h : 0 < bs) (d : Bytes) (b : Nat) (raw : Bytes) (h : cut bs d b = some raw) : flat d (b * bs) bs = ok raw := by
  unfold cut at h
  unfold flat
  rw [Nat.add_mul, Nat.one_mul] at h
  split at h
  · rename_i hl
    rw [if_pos hl, Option.some.inj h]
  · cases h

theorem cut_range (bs : Nat) (d : Bytes) (hd : d.length < 2 ^ 63) (b : Nat) (raw : Bytes) (h : cut bs d b = some raw) : (b + 1) * bs < 2 ^ 63 := by
  unfold cut at h
  split at h
  · omega
  · cases h

def mapping (e : Extent) : Mapping := { logical := e.logical, block := e.physical, length := e.size, crypto := e.encId }

/-- the segment of an extent -/
def segOf (bs : Nat) (sparse : Bool) (index : Nat) (e : Extent) : Segment :=
  { fileIndex := index, offset := e.physical * bs % 2 ^ 64, size := e.size, sparse := sparse && (e.physical == 0) }

theorem buildVector_eq {bs : Nat} {sparse : Bool} {es : List Extent} {index at_ : Nat} (hc : Contiguous at_ (es.map mapping))
    (ht : at_ + (es.map (·.size)).sum < 2 ^ 64) (ho : ∀ e ∈ es, e.physical * bs % 2 ^ 64 < 2 ^ 63) :
    buildVector bs sparse es index at_ = ok (es.mapIdx (fun i e => segOf bs sparse (index + i) e)) := by
  induction es generalizing index at_ with
  | nil => rfl
  | cons e es ih =>
    simp only [List.map_cons, List.sum_cons, Contiguous] at hc ht
    have h1 : e.logical = at_ := hc.1
    have h2 : Contiguous (at_ + e.size) (es.map mapping) := hc.2
    unfold buildVector
    rw [require_true (by intro h; exact h.2 h1), ok_bind]
    simp only
    rw [require_true (ho e (by simp)), ok_bind, Nat.mod_eq_of_lt (by omega), ih h2 (by omega) (fun x hx => ho x (by simp [hx]))]
    simp only [ok_bind, pure_eq, List.mapIdx_cons, Nat.add_zero, segOf]
    congr 2
    congr 1
    funext i e
    rw [show index + 1 + i = index + (i + 1) by omega]

theorem buildVector_contiguous {bs : Nat} {es : List Extent} {index at_ : Nat} {segs : List Segment}
    (ht : at_ + (es.map (·.size)).sum < 2 ^ 64) (h : buildVector bs false es index at_ = ok segs) : Contiguous at_ (es.map mapping) := by
  induction es generalizing index at_ segs with
  | nil => trivial
  | cons e es ih =>
    simp only [List.map_cons, List.sum_cons] at ht
    unfold buildVector at h
    obtain ⟨_, g, h⟩ := bind_eq_ok.1 h
    simp only at h
    obtain ⟨_, g2, h⟩ := bind_eq_ok.1 h
    obtain ⟨segs', h3, h⟩ := bind_eq_ok.1 h
    rw [Nat.mod_eq_of_lt (by omega)] at h3
    simp only [require_eq_ok, true_or, true_and, Classical.not_not] at g
    have h2 : Contiguous (at_ + e.size) (es.map mapping) := ih (by omega) h3
    exact ⟨g, h2⟩

/-- the extents with the logical offsets of the holes replaced by the offsets at which the library places them -/
def relocate : Nat → List Extent → List Extent
  | _, [] => []
  | at_, e :: es => (if e.physical = 0 then { e with logical := at_ } else e) :: relocate (at_ + e.size) es

theorem relocate_sizes (at_ : Nat) (es : List Extent) : (relocate at_ es).map (·.size) = es.map (·.size) := by
  induction es generalizing at_ with
  | nil => rfl
  | cons e es ih =>
    simp only [relocate, List.map_cons, ih]
    split <;> rfl

theorem relocate_get (at_ : Nat) (es : List Extent) (i : Nat) :
    (relocate at_ es)[i]?.map (fun e => (e.physical, e.size, e.encId)) = es[i]?.map (fun e => (e.physical, e.size, e.encId)) := by
  induction es generalizing at_ i with
  | nil => rfl
  | cons e es ih =>
    unfold relocate
    cases i with
    | zero =>
      simp only [List.getElem?_cons_zero, Option.map_some]
      split <;> rfl
    | succ i =>
      simp only [List.getElem?_cons_succ]
      exact ih _ i

theorem mem_relocate {at_ : Nat} {es : List Extent} {e : Extent} (h : e ∈ relocate at_ es) :
    ∃ e' ∈ es, e'.physical = e.physical ∧ e'.size = e.size ∧ e'.encId = e.encId ∧ (e.physical ≠ 0 → e' = e) := by
  induction es generalizing at_ with
  | nil => cases h
  | cons x es ih =>
    unfold relocate at h
    rcases List.mem_cons.1 h with rfl | h
    · refine ⟨x, by simp, ?_⟩
      split
      · exact ⟨rfl, rfl, rfl, fun h => absurd (by assumption) h⟩
      · exact ⟨rfl, rfl, rfl, fun _ => rfl⟩
    · obtain ⟨e', h1, h2⟩ := ih h
      exact ⟨e', by simp [h1], h2⟩

theorem mem_relocate_of {at_ : Nat} {es : List Extent} {e : Extent} (h : e ∈ es) (hp : e.physical ≠ 0) : e ∈ relocate at_ es := by
  induction es generalizing at_ with
  | nil => cases h
  | cons x es ih =>
    unfold relocate
    rcases List.mem_cons.1 h with rfl | h
    · rw [if_neg hp]
      simp
    · exact List.mem_cons.2 (.inr (ih h))

theorem relocate_contiguous {bs : Nat} {es : List Extent} {index at_ : Nat} {segs : List Segment}
    (ht : at_ + (es.map (·.size)).sum < 2 ^ 64) (h : buildVector bs true es index at_ = ok segs) : Contiguous at_ ((relocate at_ es).map mapping) := by
  induction es generalizing index at_ segs with
  | nil => trivial
  | cons e es ih =>
    simp only [List.map_cons, List.sum_cons] at ht
    unfold buildVector at h
    obtain ⟨_, g, h⟩ := bind_eq_ok.1 h
    simp only at h
    obtain ⟨_, g2, h⟩ := bind_eq_ok.1 h
    obtain ⟨segs', h3, h⟩ := bind_eq_ok.1 h
    rw [Nat.mod_eq_of_lt (by omega)] at h3
    have h2 : Contiguous (at_ + e.size) ((relocate (at_ + e.size) es).map mapping) := ih (by omega) h3
    simp only [require_eq_ok] at g
    unfold relocate
    by_cases hp : e.physical = 0
    · rw [if_pos hp]
      exact ⟨rfl, h2⟩
    · rw [if_neg hp]
      refine ⟨?_, h2⟩
      have : ¬ e.logical ≠ at_ := fun hne => g ⟨.inr hp, hne⟩
      exact Classical.not_not.1 this

theorem buildVector_relocate {bs : Nat} {es : List Extent} {index at_ : Nat} {segs : List Segment}
    (ht : at_ + (es.map (·.size)).sum < 2 ^ 64) (h : buildVector bs true es index at_ = ok segs) :
    buildVector bs true (relocate at_ es) index at_ = ok segs := by
  induction es generalizing index at_ segs with
  | nil => exact h
  | cons e es ih =>
    simp only [List.map_cons, List.sum_cons] at ht
    unfold buildVector at h
    obtain ⟨_, g, h⟩ := bind_eq_ok.1 h
    simp only at h
    obtain ⟨_, g2, h⟩ := bind_eq_ok.1 h
    obtain ⟨segs', h3, h⟩ := bind_eq_ok.1 h
    rw [Nat.mod_eq_of_lt (by omega)] at h3
    have h4 := ih (by omega) h3
    simp only [require_eq_ok] at g g2
    unfold relocate
    by_cases hp : e.physical = 0
    · rw [if_pos hp]
      unfold buildVector
      rw [require_true (by intro h; exact h.2 rfl), ok_bind]
      simp only
      rw [require_true g2, ok_bind, Nat.mod_eq_of_lt (by omega), h4]
      exact h
    · rw [if_neg hp]
      unfold buildVector
      rw [require_true g, ok_bind]
      simp only
      rw [require_true g2, ok_bind, Nat.mod_eq_of_lt (by omega), h4]
      exact h

theorem blockAt_relocate (h : Handle) : blockAt { h with extents := relocate 0 h.extents } = blockAt h := by
  funext off
  unfold blockAt
  show (match element h.segs h.bs off with | none => err | some (s, o, size, bo) => _) = _
  cases element h.segs h.bs off with
  | none => rfl
  | some x =>
    obtain ⟨s, o, size, bo⟩ := x
    simp only
    congr 1
    unfold readBlock
    simp only
    have key := relocate_get 0 h.extents s.fileIndex
    cases h1 : (relocate 0 h.extents)[s.fileIndex]? with
    | none =>
      cases h2 : h.extents[s.fileIndex]? with
      | none => rfl
      | some e => simp [h1, h2] at key
    | some e =>
      cases h2 : h.extents[s.fileIndex]? with
      | none => simp [h1, h2] at key
      | some e' =>
        simp only [h1, h2, Option.map_some, Option.some.injEq, Prod.mk.injEq] at key
        simp only [key.1, key.2.2]

theorem findSegment_spec {bs : Nat} {sparse : Bool} {es : List Extent} {index at_ off : Nat} (hc : Contiguous at_ (es.map mapping))
    (hm : ∀ e ∈ es, e.size % bs = 0) (hoff : off % bs = 0) (ht : off < (es.map (·.size)).sum) :
    ∃ i o, ∃ h : i < es.length, findSegment (es.mapIdx (fun i e => segOf bs sparse (index + i) e)) off = some (segOf bs sparse (index + i) es[i], o) ∧
      es[i].logical + o = at_ + off ∧ o % bs = 0 ∧ o + bs ≤ es[i].size := by
  induction es generalizing index at_ off with
  | nil => simp at ht
  | cons e es ih =>
    simp only [List.map_cons, List.sum_cons, Contiguous] at hc ht
    have h1 : e.logical = at_ := hc.1
    have h2 : Contiguous (at_ + e.size) (es.map mapping) := hc.2
    have he := hm e (by simp)
    rw [List.mapIdx_cons]
    unfold findSegment
    by_cases hlt : off < e.size
    · refine ⟨0, off, by simp, ?_, by simp [h1], hoff, ?_⟩
      · rw [if_pos (by simpa [segOf] using hlt)]
        rfl
      · simp only [List.getElem_cons_zero]
        obtain ⟨a, ha⟩ := Nat.dvd_of_mod_eq_zero hoff
        obtain ⟨b, hb'⟩ := Nat.dvd_of_mod_eq_zero he
        rw [ha, hb'] at hlt ⊢
        have : a < b := Nat.lt_of_mul_lt_mul_left hlt
        calc bs * a + bs = bs * (a + 1) := by rw [Nat.mul_succ]
          _ ≤ bs * b := Nat.mul_le_mul_left _ this
    · have hoff' : (off - e.size) % bs = 0 := by
        obtain ⟨a, ha⟩ := Nat.dvd_of_mod_eq_zero hoff
        obtain ⟨b, hb'⟩ := Nat.dvd_of_mod_eq_zero he
        rw [ha, hb', ← Nat.mul_sub, Nat.mul_mod_right]
      obtain ⟨i, o, hi, g1, g2, g3, g4⟩ := ih (index := index + 1) h2 (fun x hx => hm x (by simp [hx])) hoff' (by omega)
      refine ⟨i + 1, o, by simpa using hi, ?_, ?_, g3, by simpa using g4⟩
      · rw [if_neg (by simpa [segOf] using hlt)]
        simp only [List.getElem_cons_succ]
        rw [show index + (i + 1) = index + 1 + i by omega, ← g1]
        congr 1
        congr 1
        funext j x
        rw [show index + 1 + j = index + (j + 1) by omega]
      · simp only [List.getElem_cons_succ]
        omega

theorem readLoop_spec (P : Nat → UInt8 → Prop) {bs total : Nat} (hb : 0 < bs) (hd : total % bs = 0) {blk : Nat → Res (Bytes × Nat)}
    (hblk : ∀ off < total, ∃ b : Bytes, blk off = ok (b, off % bs) ∧ b.length = bs ∧ ∀ j, ∀ h : j < b.length, P (off / bs * bs + j) b[j])
    (n off : Nat) (ho : off < total) :
    ∃ out : Bytes, readLoop blk total off n = ok (out, off + out.length) ∧ out.length = min n (total - off) ∧
      ∀ i, ∀ h : i < out.length, P (off + i) out[i] := by
  induction n using Nat.strongRecOn generalizing off with
  | _ n ih =>
    unfold readLoop
    by_cases hn : n = 0
    · rw [dif_pos hn]
      exact ⟨[], rfl, by simp [hn], by intro i h; simp at h⟩
    · rw [dif_neg hn]
      obtain ⟨b, e1, e2, e3⟩ := hblk off ho
      have hm := Nat.mod_lt off hb
      have hdm : off / bs * bs + off % bs = off := by rw [Nat.mul_comm]; exact Nat.div_add_mod off bs
      have hend : off / bs * bs + bs ≤ total := by
        obtain ⟨t, ht⟩ := Nat.dvd_of_mod_eq_zero hd
        have : off / bs < t := by
          rw [ht, Nat.mul_comm] at ho
          exact Nat.div_lt_of_lt_mul (by rwa [Nat.mul_comm] at ho)
        rw [ht, Nat.mul_comm]
        calc bs * (off / bs) + bs = bs * (off / bs + 1) := by rw [Nat.mul_succ]
          _ ≤ bs * t := Nat.mul_le_mul_left _ this
      rw [e1]
      simp only
      rw [dif_neg (by omega)]
      have hr : 0 < min (b.length - off % bs) n := by omega
      have hout : ∀ i, ∀ h : i < ((b.drop (off % bs)).take (min (b.length - off % bs) n)).length,
          P (off + i) (((b.drop (off % bs)).take (min (b.length - off % bs) n))[i]) := by
        intro i h
        simp only [List.getElem_take, List.getElem_drop]
        have := e3 (off % bs + i) (by simp only [List.length_take, List.length_drop] at h; omega)
        rwa [show off / bs * bs + (off % bs + i) = off + i by omega] at this
      have hlen : ((b.drop (off % bs)).take (min (b.length - off % bs) n)).length = min (b.length - off % bs) n := by
        simp only [List.length_take, List.length_drop]; omega
      by_cases hge : off + min (b.length - off % bs) n ≥ total
      · rw [if_pos hge]
        exact ⟨_, by rw [hlen], by rw [hlen]; omega, hout⟩
      · rw [if_neg hge]
        obtain ⟨rest, r1, r2, r3⟩ := ih (n - min (b.length - off % bs) n) (by omega) (off + min (b.length - off % bs) n) (by omega)
        rw [r1]
        refine ⟨(b.drop (off % bs)).take (min (b.length - off % bs) n) ++ rest, ?_, ?_, ?_⟩
        · rw [List.length_append, hlen, Nat.add_assoc]
        · rw [List.length_append, hlen, r2]; omega
        · intro i h
          by_cases hi : i < min (b.length - off % bs) n
          · rw [List.getElem_append_left (by omega)]
            exact hout i (by omega)
          · rw [List.getElem_append_right (by omega)]
            have := r3 (i - min (b.length - off % bs) n) (by rw [List.length_append, hlen] at h; omega)
            simp only [hlen]
            rwa [show off + min (b.length - off % bs) n + (i - min (b.length - off % bs) n) = off + i by omega] at this

end DataStream
end Verif
