import Verif.Lemmas.KeyBag
import Verif.Lemmas.Checksum
/-!
# C16 Key bag parsing is memory safe and returns exactly the entries
-/
namespace Verif.Props
open Verif Res Spec KeyBag

/-- the entries of a bag: identifier, type, data -/
def entriesOf (es : List BagEntry) : List Entry := es.map (fun e => { identifier := e.identifier, type := e.type, data := e.data })

/-- Parsing any block as a volume key bag terminates and stays within the block. -/
theorem c16_volume_bag_safe (d : Bytes) : Safe (readVolumeBag d) := by
  unfold readVolumeBag
  refine safe_bind safe_require fun _ g => ?_
  simp only [require_eq_ok] at g
  exact safe_bind (safe_rdLE (by omega)) fun _ _ => safe_bind safe_require fun _ _ => safe_bind (safe_rdLE (by omega)) fun _ _ =>
    safe_bind safe_require fun _ _ => readBag_safe d

/-- Parsing any block as a container key bag terminates and stays within the block. -/
theorem c16_container_bag_safe (d : Bytes) : Safe (readContainerBag d) := by
  unfold readContainerBag
  refine safe_bind safe_require fun _ g => ?_
  simp only [require_eq_ok] at g
  refine safe_bind (safe_rdLE (by omega)) fun ty _ => ?_
  split
  · exact safe_ok _
  · exact safe_bind (safe_rdLE (by omega)) fun _ _ => safe_bind safe_require fun _ _ =>
      safe_bind (Checksum.checkObject_safe (by omega)) fun _ _ => safe_bind (readBag_safe d) fun _ _ => safe_ok _

/-- Reading a block succeeds with the given entries exactly if the block is a version 2 key bag holding these entries. -/
theorem readBag_iff (d : Bytes) (hd : 32 ≤ d.length) (hd2 : d.length ≤ 2 ^ 63 - 1) (es : List Entry) :
    readBag d = ok es ↔ ∃ (size : Nat) (reserved : Bytes) (bs : List BagEntry) (rest : Bytes), size ≤ d.length - 32 ∧ size < 2 ^ 32 ∧
      reserved.length = 8 ∧ bs.length < 65536 ∧ (∀ b ∈ bs, b.Wf) ∧ d = bagBlock (d.take 32) bs.length size reserved bs rest ∧ es = entriesOf bs := by
  constructor
  · intro h
    unfold readBag at h
    obtain ⟨_, g, h⟩ := bind_eq_ok.1 h
    obtain ⟨ver, h1, h⟩ := bind_eq_ok.1 h
    obtain ⟨n, h2, h⟩ := bind_eq_ok.1 h
    obtain ⟨sz, h3, h⟩ := bind_eq_ok.1 h
    obtain ⟨_, g2, h5⟩ := bind_eq_ok.1 h
    obtain ⟨_, g3, h6⟩ := bind_eq_ok.1 h5
    simp only [require_eq_ok] at g g2 g3
    subst g2
    obtain ⟨bs, i1, i2, i3, rest, i4⟩ := readEntries_inv h6 (by omega)
    have hn := rdLE_lt h2
    have hz := rdLE_lt h3
    obtain ⟨b1, e1⟩ := rdLE_inv h1
    obtain ⟨b2, e2⟩ := rdLE_inv h2
    obtain ⟨b3, e3⟩ := rdLE_inv h3
    obtain ⟨q, hq⟩ : ∃ q, (d.drop 40).take 8 = q := ⟨_, rfl⟩
    refine ⟨sz, q, bs, rest, by omega, by omega, by rw [← hq, List.length_take, List.length_drop]; omega, by omega, i1, ?_, i3⟩
    have a0 : d = d.take 32 ++ d.drop 32 := (List.take_append_drop _ _).symm
    have a1 : d.drop 32 = toLE 2 2 ++ d.drop 34 := by rw [← e1]; exact eq_take_drop d 32 2
    have a2 : d.drop 34 = toLE 2 n ++ d.drop 36 := by rw [← e2]; exact eq_take_drop d 34 2
    have a3 : d.drop 36 = toLE 4 sz ++ d.drop 40 := by rw [← e3]; exact eq_take_drop d 36 4
    have a4 : d.drop 40 = q ++ d.drop 48 := by rw [← hq]; exact eq_take_drop d 40 8
    unfold bagBlock
    rw [i2, ← i4, ← a4, ← a3, ← a2, ← a1]
    exact a0
  · rintro ⟨size, reserved, bs, rest, g1, g2, g3, g4, g5, g6, rfl⟩
    have hlen : (d.take 32).length = 32 := by rw [List.length_take]; omega
    generalize d.take 32 = object at *
    subst g6
    have ll : (bagBlock object bs.length size reserved bs rest).length = 48 + ((bs.map BagEntry.encode).flatten ++ rest).length := by
      simp only [bagBlock, List.length_append, length_toLE, hlen, g3]
      omega
    have m1 : bagBlock object bs.length size reserved bs rest = (object ++ toLE 2 2) ++ (toLE 2 bs.length ++ (toLE 4 size ++ (reserved ++ ((bs.map BagEntry.encode).flatten ++ rest)))) := by
      simp [bagBlock]
    have m2 : bagBlock object bs.length size reserved bs rest = (object ++ toLE 2 2 ++ toLE 2 bs.length) ++ (toLE 4 size ++ (reserved ++ ((bs.map BagEntry.encode).flatten ++ rest))) := by
      simp [bagBlock]
    have m3 : bagBlock object bs.length size reserved bs rest = (object ++ toLE 2 2 ++ toLE 2 bs.length ++ toLE 4 size ++ reserved) ++ ((bs.map BagEntry.encode).flatten ++ rest) := by
      simp [bagBlock]
    have r1 : rdLE (bagBlock object bs.length size reserved bs rest) 32 2 = ok 2 := rdLE_mid _ _ _ _ _ hlen (by decide)
    have r2 : rdLE (bagBlock object bs.length size reserved bs rest) 34 2 = ok bs.length := by rw [m1]; exact rdLE_mid _ _ _ _ _ (by simp [hlen]) (by omega)
    have r3 : rdLE (bagBlock object bs.length size reserved bs rest) 36 4 = ok size := by rw [m2]; exact rdLE_mid _ _ _ _ _ (by simp [hlen]) (by omega)
    have lpre : (object ++ toLE 2 2 ++ toLE 2 bs.length ++ toLE 4 size ++ reserved).length = 48 := by simp [hlen, g3]
    have r4 := readEntries_encode bs g5 (object ++ toLE 2 2 ++ toLE 2 bs.length ++ toLE 4 size ++ reserved) rest (by rw [lpre]) (by rw [← m3]; exact hd2)
    rw [lpre, ← m3] at r4
    unfold readBag
    rw [require_true (by omega), ok_bind, r1, ok_bind, r2, ok_bind, r3, ok_bind, require_true rfl, ok_bind, require_true (by omega), ok_bind, r4]
    rfl

/-- Reading a volume key bag returns a list of entries exactly if the block is a volume key bag with this list of entries. -/
theorem c16_volume_bag_iff (d : Bytes) (es : List Entry) :
    readVolumeBag d = ok es ↔ d.length ≤ 2 ^ 63 - 1 ∧ ∃ (head : Bytes) (size : Nat) (reserved : Bytes) (bs : List BagEntry) (rest : Bytes),
      head.length = 24 ∧ size ≤ d.length - 32 ∧ size < 2 ^ 32 ∧ reserved.length = 8 ∧ bs.length < 65536 ∧ (∀ b ∈ bs, b.Wf) ∧
      d = bagBlock (head ++ toLE 4 0x72656373 ++ toLE 4 0) bs.length size reserved bs rest ∧ es = entriesOf bs := by
  constructor
  · intro h
    unfold readVolumeBag at h
    obtain ⟨_, g, h⟩ := bind_eq_ok.1 h
    obtain ⟨ty, h1, h⟩ := bind_eq_ok.1 h
    obtain ⟨_, g1, h⟩ := bind_eq_ok.1 h
    obtain ⟨sub, h2, h⟩ := bind_eq_ok.1 h
    obtain ⟨_, g2, h⟩ := bind_eq_ok.1 h
    simp only [require_eq_ok] at g g1 g2
    subst g1 g2
    obtain ⟨_, e1⟩ := rdLE_inv h1
    obtain ⟨_, e2⟩ := rdLE_inv h2
    obtain ⟨size, reserved, bs, rest, i1, i2, i3, i4, i5, i6, i7⟩ := (readBag_iff d (by omega) (by omega) es).1 h
    refine ⟨by omega, d.take 24, size, reserved, bs, rest, by rw [List.length_take]; omega, i1, i2, i3, i4, i5, ?_, i7⟩
    have : d.take 32 = d.take 24 ++ toLE 4 0x72656373 ++ toLE 4 0 := by
      rw [← e1, ← e2, show 32 = 28 + 4 from rfl, List.take_add, show 28 = 24 + 4 from rfl, List.take_add]
    rw [← this]
    exact i6
  · rintro ⟨hd2, head, size, reserved, bs, rest, g0, g1, g2, g3, g4, g5, g6, g7⟩
    have lo : (head ++ toLE 4 0x72656373 ++ toLE 4 0).length = 32 := by simp [g0]
    have hd : 32 ≤ d.length := by
      rw [g6]
      simp only [bagBlock, List.length_append (as := head ++ toLE 4 0x72656373 ++ toLE 4 0), lo]
      omega
    have ht : d.take 32 = head ++ toLE 4 0x72656373 ++ toLE 4 0 := by
      rw [g6]
      exact List.take_left' lo
    have hb := (readBag_iff d hd hd2 es).2 ⟨size, reserved, bs, rest, g1, g2, g3, g4, g5, by rw [ht]; exact g6, g7⟩
    have m : d = head ++ (toLE 4 0x72656373 ++ (toLE 4 0 ++ d.drop 32)) := by
      conv => lhs; rw [← List.take_append_drop 32 d, ht]
      simp
    have r1 : rdLE d 24 4 = ok 0x72656373 := by rw [m]; exact rdLE_mid _ _ _ _ _ g0 (by decide)
    have r2 : rdLE d 28 4 = ok 0 := by
      rw [m, ← List.append_assoc]
      exact rdLE_mid _ _ _ _ _ (by simp [g0]) (by decide)
    unfold readVolumeBag
    rw [require_true (by omega), ok_bind, r1, ok_bind, require_true rfl, ok_bind, r2, ok_bind, require_true rfl, ok_bind, hb]

/-- A container key bag is read with a list of entries exactly if its type, its checksum and its entries are right; a block of another type is not
an error but reports that there is no key bag. -/
theorem c16_container_bag_iff (d : Bytes) (hd : 32 ≤ d.length) (hd2 : d.length ≤ 2 ^ 63 - 1) (es : List Entry) :
    readContainerBag d = ok (some es) ↔ rdLE d 24 4 = ok 0x6b657973 ∧ rdLE d 28 4 = ok 0 ∧ Checksum.checkObject d = ok () ∧
      ∃ (size : Nat) (reserved : Bytes) (bs : List BagEntry) (rest : Bytes), size ≤ d.length - 32 ∧ size < 2 ^ 32 ∧
      reserved.length = 8 ∧ bs.length < 65536 ∧ (∀ b ∈ bs, b.Wf) ∧ d = bagBlock (d.take 32) bs.length size reserved bs rest ∧ es = entriesOf bs := by
  rw [← readBag_iff d hd hd2 es]
  unfold readContainerBag
  rw [require_true (by omega), ok_bind]
  constructor
  · intro h
    obtain ⟨ty, h1, h⟩ := bind_eq_ok.1 h
    split at h
    · cases h
    · rename_i hty
      obtain ⟨sub, h2, h⟩ := bind_eq_ok.1 h
      obtain ⟨_, g, h⟩ := bind_eq_ok.1 h
      obtain ⟨_, h3, h⟩ := bind_eq_ok.1 h
      obtain ⟨es', h4, h⟩ := bind_eq_ok.1 h
      simp only [require_eq_ok] at g
      cases h
      simp only [ne_eq, Decidable.not_not] at hty
      exact ⟨by rw [h1, hty], by rw [h2, g], h3, h4⟩
  · rintro ⟨h1, h2, h3, h4⟩
    rw [h1, ok_bind, if_neg (by decide), h2, ok_bind, require_true rfl, ok_bind, h3, ok_bind, h4]
    rfl

/-- The key bag extent of a volume is that of the first entry of type 3 with its identifier. -/
theorem c16_extent_first (uuid : Bytes) (pre post : List Entry) (b n : Nat) (hb : b < 2 ^ 64) (hn : n < 2 ^ 64)
    (h : ∀ e ∈ pre, ¬ (e.type = 3 ∧ e.identifier = uuid)) :
    getVolumeBagExtent uuid (pre ++ { identifier := uuid, type := 3, data := toLE 8 b ++ toLE 8 n } :: post) = ok (some (b, n)) := by
  induction pre with
  | nil =>
    rw [List.nil_append, getVolumeBagExtent, if_neg (by simp), if_neg (by simp)]
    have r1 : rdLE (toLE 8 b ++ toLE 8 n) 0 8 = ok b := rdLE_mid [] (toLE 8 n) 8 b 0 rfl (by omega)
    have r2 : rdLE (toLE 8 b ++ toLE 8 n) 8 8 = ok n := by
      have := rdLE_mid (toLE 8 b) [] 8 n 8 (by simp) (by omega)
      rwa [List.append_nil] at this
    rw [require_true (by simp), ok_bind, r1, ok_bind, r2]
    rfl
  | cons e pre ih =>
    have he := h e (by simp)
    have := ih (fun x hx => h x (by simp [hx]))
    rw [List.cons_append, getVolumeBagExtent]
    split
    · exact this
    · rename_i h3
      rw [if_pos (fun hi => he ⟨by omega, hi⟩)]
      exact this

/-- If no entry of type 3 has the identifier, none is found. -/
theorem c16_extent_none (uuid : Bytes) (es : List Entry) :
    getVolumeBagExtent uuid es = ok none ↔ ∀ e ∈ es, ¬ (e.type = 3 ∧ e.identifier = uuid) := by
  induction es with
  | nil => simp [getVolumeBagExtent]
  | cons e es ih =>
    rw [getVolumeBagExtent]
    split
    · rename_i h3
      rw [ih]
      simp [h3]
    · split
      · rename_i h3 hi
        rw [ih]
        simp [hi]
      · rename_i h3 hi
        simp only [ne_eq, Decidable.not_not] at h3 hi
        constructor
        · intro h
          obtain ⟨_, _, h⟩ := bind_eq_ok.1 h
          obtain ⟨_, _, h⟩ := bind_eq_ok.1 h
          obtain ⟨_, _, h⟩ := bind_eq_ok.1 h
          cases h
        · intro h
          exact absurd ⟨h3, hi⟩ (h e (by simp))

/-- a bag with one entry -/
def bagExample : BagEntry := { identifier := List.replicate 16 9, type := 3, reserved := [0, 0, 0, 0], data := toLE 8 77 ++ toLE 8 1, pad := List.replicate 8 0 }

example : bagExample.Wf := by constructor <;> decide

example : readVolumeBag (bagBlock (List.replicate 24 0 ++ toLE 4 0x72656373 ++ toLE 4 0) 1 64 (List.replicate 8 0) [bagExample] [1, 2, 3]) =
    ok [{ identifier := List.replicate 16 9, type := 3, data := toLE 8 77 ++ toLE 8 1 }] :=
  (c16_volume_bag_iff _ _).2 ⟨by decide, List.replicate 24 0, 64, List.replicate 8 0, [bagExample], [1, 2, 3], by decide, by decide, by decide, by decide, by decide,
    by intro b hb; cases List.mem_singleton.1 hb; constructor <;> decide, rfl, rfl⟩

example : getVolumeBagExtent (List.replicate 16 9) [{ identifier := List.replicate 16 8, type := 3, data := [] },
    { identifier := List.replicate 16 9, type := 3, data := toLE 8 77 ++ toLE 8 1 }] = ok (some (77, 1)) :=
  c16_extent_first _ [{ identifier := List.replicate 16 8, type := 3, data := [] }] [] 77 1 (by decide) (by decide) (by decide)

end Verif.Props
