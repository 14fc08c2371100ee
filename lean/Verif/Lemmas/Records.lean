import Verif.Lemmas.BTree
import Verif.Model.Records
import Verif.Spec.Records
/-! Lemmas: parsing records -/
namespace Verif
open Res Spec
namespace Records
open BTree

theorem safe_readExtent (e : Bytes × Bytes) : Safe (readExtent e) := by
  unfold readExtent readExtentKey readExtentValue
  refine safe_bind (safe_bind safe_require fun _ h1 => safe_rdLE (by have := (require_eq_ok _).1 h1; omega)) fun _ _ => ?_
  refine safe_bind ?_ fun _ _ => safe_ok _
  refine safe_bind safe_require fun _ h1 => ?_
  have := (require_eq_ok _).1 h1
  exact safe_bind (safe_rdLE (by omega)) fun _ _ => safe_bind (safe_rdLE (by omega)) fun _ _ => safe_bind (safe_rdLE (by omega)) fun _ _ => safe_ok _

theorem readExtent_ok {e : Bytes × Bytes} (h1 : 16 ≤ e.1.length) (h2 : 24 ≤ e.2.length) (h3 : e.1.length < 2 ^ 63) (h4 : e.2.length < 2 ^ 63) :
    readExtent e = ok { logical := field e.1 8 8, physical := field e.2 8 8, size := field e.2 0 8 % 2 ^ 56, encId := field e.2 16 8 } := by
  unfold readExtent readExtentKey readExtentValue
  rw [require_true (by omega), ok_bind, rdLE_field (by omega), ok_bind, require_true (by omega), ok_bind, rdLE_field (by omega), ok_bind,
    rdLE_field (by omega), ok_bind, rdLE_field (by omega), ok_bind]
  rfl

theorem safe_readDirectoryKey (d : Bytes) : Safe (readDirectoryKey d) := by
  unfold readDirectoryKey
  refine safe_bind safe_require fun _ h1 => ?_
  have := (require_eq_ok _).1 h1
  refine safe_bind (safe_rdLE (by omega)) fun v _ => ?_
  refine safe_bind ?_ fun r hr => ?_
  · split
    · refine safe_bind safe_require fun _ h2 => ?_
      have := (require_eq_ok _).1 h2
      exact safe_bind (safe_rdLE (by omega)) fun _ _ => safe_ok _
    · exact safe_ok _
  · obtain ⟨size, hash, off⟩ := r
    simp only
    have hoff : off ≤ d.length := by
      split at hr
      · obtain ⟨_, h2, hr⟩ := bind_eq_ok.1 hr
        have := (require_eq_ok _).1 h2
        obtain ⟨w, _, hr⟩ := bind_eq_ok.1 hr
        cases hr
        omega
      · cases hr
        omega
    refine safe_bind safe_require fun _ h3 => ?_
    have := (require_eq_ok _).1 h3
    exact safe_bind (safe_rdN (by omega)) fun _ _ => safe_ok _

theorem safe_directoryFields (d : Bytes) (hd : 4 ≤ d.length) (k off valueOff : Nat) : Safe (directoryFields d k off valueOff) := by
  induction k generalizing off valueOff with
  | zero => exact safe_ok _
  | succ k ih =>
    unfold directoryFields
    refine safe_bind safe_require fun _ h1 => ?_
    have := (require_eq_ok _).1 h1
    exact safe_bind (safe_rd (by omega)) fun _ _ => safe_bind (safe_rdLE (by omega)) fun _ _ => safe_bind safe_require fun _ _ =>
      safe_bind safe_require fun _ _ => safe_bind safe_require fun _ _ => ih _ _

theorem safe_readDirectoryValue (d : Bytes) : Safe (readDirectoryValue d) := by
  unfold readDirectoryValue
  refine safe_bind safe_require fun _ h1 => ?_
  have := (require_eq_ok _).1 h1
  refine safe_bind (safe_rdLE (by omega)) fun _ _ => safe_bind (safe_rdLE (by omega)) fun _ _ => ?_
  split
  · refine safe_bind safe_require fun _ h2 => ?_
    have := (require_eq_ok _).1 h2
    exact safe_bind (safe_rdLE (by omega)) fun _ _ => safe_bind (safe_directoryFields d (by omega) _ _ _) fun _ _ => safe_ok _
  · exact safe_ok _

theorem safe_inodeField (i : Inode) (d : Bytes) (type valueOff size : Nat) (h : valueOff + size ≤ d.length) : Safe (inodeField i d type valueOff size) := by
  unfold inodeField
  split
  · exact safe_ok _
  · split
    · exact safe_bind safe_require fun _ _ => safe_bind (safe_rdN h) fun _ _ => safe_ok _
    · split
      · refine safe_bind safe_require fun _ h1 => ?_
        have := (require_eq_ok _).1 h1
        exact safe_bind (safe_rdLE (by omega)) fun _ _ => safe_ok _
      · split
        · refine safe_bind safe_require fun _ h1 => ?_
          have := (require_eq_ok _).1 h1
          exact safe_bind (safe_rdLE (by omega)) fun _ _ => safe_ok _
        · exact safe_err

theorem safe_inodeFields (d : Bytes) (hd : 4 ≤ d.length) (k off valueOff : Nat) (i : Inode) : Safe (inodeFields d k off valueOff i) := by
  induction k generalizing off valueOff i with
  | zero => exact safe_ok _
  | succ k ih =>
    unfold inodeFields
    refine safe_bind safe_require fun _ h1 => ?_
    have := (require_eq_ok _).1 h1
    refine safe_bind (safe_rd (by omega)) fun _ _ => safe_bind (safe_rdLE (by omega)) fun _ _ => safe_bind safe_require fun _ h2 =>
      safe_bind safe_require fun _ h3 => ?_
    have := (require_eq_ok _).1 h2
    have := (require_eq_ok _).1 h3
    exact safe_bind (safe_inodeField _ _ _ _ _ (by omega)) fun _ _ => ih _ _ _

theorem safe_readInodeValue (identifier : Nat) (d : Bytes) : Safe (readInodeValue identifier d) := by
  unfold readInodeValue
  refine safe_bind safe_require fun _ h1 => ?_
  have := (require_eq_ok _).1 h1
  refine safe_bind (safe_rdLE (by omega)) fun _ _ => safe_bind (safe_rdLE (by omega)) fun _ _ => safe_bind (safe_rdLE (by omega)) fun _ _ =>
    safe_bind (safe_rdLE (by omega)) fun _ _ => safe_bind (safe_rdLE (by omega)) fun _ _ => safe_bind (safe_rdLE (by omega)) fun _ _ =>
    safe_bind (safe_rdLE (by omega)) fun _ _ => safe_bind (safe_rdLE (by omega)) fun _ _ => safe_bind (safe_rdLE (by omega)) fun _ _ =>
    safe_bind (safe_rdLE (by omega)) fun _ _ => safe_bind (safe_rdLE (by omega)) fun _ _ => ?_
  simp only
  split
  · refine safe_bind safe_require fun _ h2 => ?_
    have := (require_eq_ok _).1 h2
    exact safe_bind (safe_rdLE (by omega)) fun _ _ => safe_inodeFields d (by omega) _ _ _ _
  · exact safe_ok _

theorem safe_readAttributeKey (d : Bytes) : Safe (readAttributeKey d) := by
  unfold readAttributeKey
  refine safe_bind safe_require fun _ h1 => ?_
  have := (require_eq_ok _).1 h1
  refine safe_bind (safe_rdLE (by omega)) fun _ _ => safe_bind safe_require fun _ h2 => ?_
  have := (require_eq_ok _).1 h2
  exact safe_rdN (by omega)

theorem safe_readAttributeValue (d : Bytes) : Safe (readAttributeValue d) := by
  unfold readAttributeValue
  refine safe_bind safe_require fun _ h1 => ?_
  have := (require_eq_ok _).1 h1
  refine safe_bind (safe_rdLE (by omega)) fun _ _ => safe_bind (safe_rdLE (by omega)) fun _ _ => safe_bind safe_require fun _ h2 => ?_
  have := (require_eq_ok _).1 h2
  split
  · refine safe_bind safe_require fun _ h3 => ?_
    have := (require_eq_ok _).1 h3
    exact safe_bind (safe_rdLE (by omega)) fun _ _ => safe_bind (safe_rdLE (by omega)) fun _ _ => safe_ok _
  · split
    · exact safe_bind (safe_rdN (by omega)) fun _ _ => safe_ok _
    · exact safe_ok _

/-! the identifier of an inode -/

theorem inodeField_identifier {i j : Inode} {d : Bytes} {type off size : Nat} (h : inodeField i d type off size = ok j) : j.identifier = i.identifier := by
  unfold inodeField at h
  split at h
  · cases h; rfl
  · split at h
    · obtain ⟨_, _, h⟩ := bind_eq_ok.1 h
      obtain ⟨_, _, h⟩ := bind_eq_ok.1 h
      cases h; rfl
    · split at h
      · obtain ⟨_, _, h⟩ := bind_eq_ok.1 h
        obtain ⟨_, _, h⟩ := bind_eq_ok.1 h
        cases h; rfl
      · split at h
        · obtain ⟨_, _, h⟩ := bind_eq_ok.1 h
          obtain ⟨_, _, h⟩ := bind_eq_ok.1 h
          cases h; rfl
        · cases h

theorem inodeFields_identifier {d : Bytes} {k off valueOff : Nat} {i j : Inode} (h : inodeFields d k off valueOff i = ok j) : j.identifier = i.identifier := by
  induction k generalizing off valueOff i with
  | zero => cases h; rfl
  | succ k ih =>
    unfold inodeFields at h
    obtain ⟨_, _, h⟩ := bind_eq_ok.1 h
    obtain ⟨_, _, h⟩ := bind_eq_ok.1 h
    obtain ⟨_, _, h⟩ := bind_eq_ok.1 h
    obtain ⟨_, _, h⟩ := bind_eq_ok.1 h
    obtain ⟨_, _, h⟩ := bind_eq_ok.1 h
    obtain ⟨_, h1, h⟩ := bind_eq_ok.1 h
    rw [ih h, inodeField_identifier h1]

theorem readInodeValue_identifier {identifier : Nat} {d : Bytes} {i : Inode} (h : readInodeValue identifier d = ok i) : i.identifier = identifier := by
  unfold readInodeValue at h
  iterate 12 obtain ⟨_, _, h⟩ := bind_eq_ok.1 h
  simp only at h
  split at h
  · obtain ⟨_, _, h⟩ := bind_eq_ok.1 h
    obtain ⟨_, _, h⟩ := bind_eq_ok.1 h
    rw [inodeFields_identifier h]
  · cases h; rfl

/-! completeness -/

theorem readDirectoryKey_plain {parent : Nat} {name : Bytes} (h1 : 0 < name.length) (h2 : name.length < 1024) :
    readDirectoryKey (drecKey parent name) = ok (name, 0) := by
  have hl : (drecKey parent name).length = 10 + name.length := by simp [drecKey]; omega
  unfold readDirectoryKey
  rw [hl, require_true (by omega), ok_bind]
  have hr : rdLE (drecKey parent name) 8 2 = ok name.length := rdLE_mid _ _ 2 _ _ (by simp) (by omega)
  rw [hr, ok_bind, if_neg (by omega)]
  simp only [pure_eq, ok_bind]
  rw [Nat.mod_eq_of_lt h2, require_true (by omega), ok_bind]
  have : rdN (drecKey parent name) 10 name.length = ok name := by
    have := rdN_mid' (toLE 8 (9 * 2 ^ 60 + parent) ++ toLE 2 name.length) name [] 10 name.length (by simp) rfl
    simpa [drecKey, List.append_assoc] using this
  rw [this]
  rfl

theorem readDirectoryKey_hashed {parent hash : Nat} {name : Bytes} (h1 : 0 < name.length) (h2 : name.length < 1024) (h3 : hash < 2 ^ 22) :
    readDirectoryKey (drecHashedKey parent hash name) = ok (name, hash) := by
  have hl : (drecHashedKey parent hash name).length = 12 + name.length := by simp [drecHashedKey]; omega
  unfold readDirectoryKey
  rw [hl, require_true (by omega), ok_bind]
  have h4 : rdLE (drecHashedKey parent hash name) 8 4 = ok (hash * 1024 + name.length) := rdLE_mid _ _ 4 _ _ (by simp) (by omega)
  obtain ⟨v, hv, hmod⟩ : ∃ v, rdLE (drecHashedKey parent hash name) 8 2 = ok v ∧ v % 1024 = name.length := by
    refine ⟨field (drecHashedKey parent hash name) 8 2, rdLE_field (by omega), ?_⟩
    have hf4 : field (drecHashedKey parent hash name) 8 4 = hash * 1024 + name.length := by
      rw [rdLE_field (by omega)] at h4
      exact ok.inj h4
    have : field (drecHashedKey parent hash name) 8 4 = field (drecHashedKey parent hash name) 8 2 + 65536 * field (drecHashedKey parent hash name) 10 2 := by
      unfold field slice
      rw [show (4 : Nat) = 2 + 2 by rfl, List.take_add, leNat_append, List.drop_drop, List.length_take, List.length_drop, hl,
        show min 2 (12 + name.length - 8) = 2 by omega]
    omega
  rw [hv, ok_bind, if_pos (by omega), require_true (by omega), ok_bind, h4, ok_bind]
  simp only [pure_eq, ok_bind]
  have e1 : (hash * 1024 + name.length) % 1024 = name.length := by omega
  have e2 : (hash * 1024 + name.length) / 1024 = hash := by omega
  rw [e1, e2, require_true (by omega), ok_bind]
  have : rdN (drecHashedKey parent hash name) 12 name.length = ok name := by
    have := rdN_mid' (toLE 8 (9 * 2 ^ 60 + parent) ++ toLE 4 (hash * 1024 + name.length)) name [] 12 name.length (by simp) rfl
    simpa [drecHashedKey, List.append_assoc] using this
  rw [this]
  rfl

theorem header_length (f : XField) : f.header.length = 4 := by simp [XField.header]

theorem padded_length (f : XField) : f.padded.length = f.value.length + (8 - f.value.length % 8) % 8 := by simp [XField.padded]

theorem headers_length (fs : List XField) : (fs.flatMap XField.header).length = fs.length * 4 := by
  induction fs with
  | nil => rfl
  | cons f fs ih =>
    rw [List.flatMap_cons, List.length_append, ih, header_length, List.length_cons]
    omega

theorem nextValue_padded {f : XField} {a b d : Bytes} (h : d = a ++ (f.padded ++ b)) : nextValue d.length a.length f.value.length = a.length + f.padded.length := by
  have hl : d.length = a.length + (f.padded.length + b.length) := by rw [h]; simp
  have hp := padded_length f
  unfold nextValue
  split
  · rw [if_neg (by omega)]
    omega
  · omega

/-- reading the header and the range checks of an extended field -/
theorem field_reads {f : XField} {a b a' b' d : Bytes} (h1 : d = a ++ (f.header ++ b)) (h2 : d = a' ++ (f.padded ++ b')) (hs : f.value.length < 65536) :
    ¬ a.length > d.length - 4 ∧ rd d a.length = ok f.type ∧ rdLE d (a.length + 2) 2 = ok f.value.length ∧ ¬ a'.length > d.length ∧
    f.value.length ≤ d.length - a'.length ∧ rdN d a'.length f.value.length = ok f.value := by
  have hl1 : d.length = a.length + (4 + b.length) := by rw [h1]; simp [header_length]
  have hl2 : d.length = a'.length + (f.padded.length + b'.length) := by rw [h2]; simp
  have hp := padded_length f
  refine ⟨by omega, ?_, ?_, by omega, by omega, ?_⟩
  · rw [rd_lt (by omega)]
    congr 1
    subst h1
    simp [XField.header, List.getElem_append_right]
  · have : d = (a ++ [f.type, f.flags]) ++ (toLE 2 f.value.length ++ b) := by rw [h1]; simp [XField.header]
    rw [this]
    exact rdLE_mid _ _ _ _ _ (by simp) (by omega)
  · have : d = a' ++ (f.value ++ (List.replicate ((8 - f.value.length % 8) % 8) 0 ++ b')) := by rw [h2]; simp [XField.padded]
    rw [this]
    exact rdN_mid' _ _ _ _ _ rfl rfl

theorem directoryFields_ok {d : Bytes} {fs : List XField} (ht : ∀ f ∈ fs, f.type = 1 ∧ f.value.length < 65536) {a b a' b' : Bytes}
    (h1 : d = a ++ (fs.flatMap XField.header ++ b)) (h2 : d = a' ++ (fs.flatMap XField.padded ++ b')) :
    directoryFields d fs.length a.length a'.length = ok () := by
  induction fs generalizing a a' with
  | nil => rfl
  | cons f fs ih =>
    rw [List.flatMap_cons, List.append_assoc] at h1 h2
    obtain ⟨r1, r2, r3, r4, r5, r6⟩ := field_reads h1 h2 (ht f (by simp)).2
    rw [List.length_cons]
    unfold directoryFields
    rw [require_true r1, ok_bind, r2, ok_bind, r3, ok_bind, require_true r4, ok_bind, require_true (by omega), ok_bind,
      require_true (ht f (by simp)).1, ok_bind, nextValue_padded h2]
    have := ih (fun x hx => ht x (by simp [hx])) (a := a ++ f.header) (a' := a' ++ f.padded) (by rw [List.append_assoc]; exact h1)
      (by rw [List.append_assoc]; exact h2)
    rw [List.length_append, List.length_append, header_length] at this
    exact this

theorem readDirectoryValue_ok {identifier added flags : Nat} {fs : Option (List XField)} (h1 : identifier < 2 ^ 64) (h2 : added < 2 ^ 64)
    (ht : ∀ l ∈ fs, l.length < 65536 ∧ ∀ f ∈ l, f.type = 1 ∧ f.value.length < 65536) (hl : (drecValue identifier added flags fs).length < 2 ^ 63) :
    readDirectoryValue (drecValue identifier added flags fs) = ok (identifier, added) := by
  have hlen : (drecValue identifier added flags fs).length = 18 + (optionalFields fs).length := by
    unfold drecValue
    simp only [List.length_append, length_toLE]
    omega
  have r1 : rdLE (drecValue identifier added flags fs) 0 8 = ok identifier := rdLE_mid [] _ 8 _ 0 rfl (by omega)
  have r2 : rdLE (drecValue identifier added flags fs) 8 8 = ok added := rdLE_mid _ _ 8 _ 8 (by simp) (by omega)
  unfold readDirectoryValue
  rw [require_true (by omega), ok_bind, r1, ok_bind, r2, ok_bind]
  cases fs with
  | none =>
    rw [if_neg (by rw [hlen]; simp [optionalFields])]
    rfl
  | some l =>
    obtain ⟨hc, ht⟩ := ht l rfl
    have hx : (xfields l).length = 4 + (l.length * 4 + (l.flatMap XField.padded).length) := by
      unfold xfields
      simp only [List.length_append, length_toLE, headers_length]
      omega
    simp only [optionalFields] at hlen
    rw [if_pos (by omega), require_true (by omega), ok_bind]
    have hd : drecValue identifier added flags (some l) = (toLE 8 identifier ++ (toLE 8 added ++ toLE 2 flags)) ++ xfields l := by
      unfold drecValue optionalFields
      simp only [List.append_assoc]
    have r3 : rdLE (drecValue identifier added flags (some l)) 18 2 = ok l.length := by
      rw [hd]
      exact rdLE_mid _ _ 2 _ 18 (by simp) (by omega)
    rw [r3, ok_bind]
    have := directoryFields_ok (d := drecValue identifier added flags (some l)) (fs := l) ht
      (a := (toLE 8 identifier ++ (toLE 8 added ++ toLE 2 flags)) ++ (toLE 2 l.length ++ toLE 2 (l.flatMap XField.padded).length)) (b := l.flatMap XField.padded)
      (a' := (toLE 8 identifier ++ (toLE 8 added ++ toLE 2 flags)) ++ (toLE 2 l.length ++ (toLE 2 (l.flatMap XField.padded).length ++ l.flatMap XField.header))) (b' := [])
      (by rw [hd]; unfold xfields; simp only [List.append_assoc]) (by rw [hd]; unfold xfields; simp only [List.append_assoc, List.append_nil])
    simp only [List.length_append, length_toLE, headers_length] at this
    rw [show 8 + (8 + 2) + (2 + (2 + l.length * 4)) = 22 + l.length * 4 by omega] at this
    rw [this]
    rfl

/-! inodes -/

theorem xvalue_cons (f : XField) (fs : List XField) (t : UInt8) : xvalue (f :: fs) t = if f.type = t then some f.value else xvalue fs t := by
  unfold xvalue
  by_cases h : f.type = t
  · rw [List.find?_cons_of_pos (by simpa using h), if_pos h]
    rfl
  · rw [List.find?_cons_of_neg (by simpa using h), if_neg h]

theorem xvalue_none {fs : List XField} {t : UInt8} (h : ∀ f ∈ fs, f.type ≠ t) : xvalue fs t = none := by
  unfold xvalue
  rw [List.find?_eq_none.2 (by intro f hf; simpa using h f hf)]
  rfl

/-- an inode with the values of extended fields -/
def withFields (i : Inode) (fs : List XField) : Inode :=
  { i with name := (xvalue fs 4).or i.name, size := ((xvalue fs 8).map (fun v => leNat (v.take 8))).getD i.size, device := ((xvalue fs 14).map leNat).getD i.device }

theorem inodeField_ok {i : Inode} {d : Bytes} {f : XField} {off : Nat} (hf : InodeField f) (hn : f.type = 4 → i.name = none)
    (hr : rdN d off f.value.length = ok f.value) : inodeField i d f.type.toNat off f.value.length = ok (withFields i [f]) := by
  obtain ⟨ht, h0, h1, h8, h14⟩ := hf
  unfold withFields
  simp only [xvalue_cons, show ∀ t, xvalue [] t = none from fun _ => rfl]
  unfold inodeField
  have hcase : f.type = 1 ∨ f.type = 2 ∨ f.type = 3 ∨ f.type = 4 ∨ f.type = 5 ∨ f.type = 7 ∨ f.type = 8 ∨ f.type = 10 ∨ f.type = 11 ∨ f.type = 13 ∨ f.type = 14 ∨ f.type = 15 := by
    simpa using ht
  have hle := fun n (h : n ≤ f.value.length) => show rdLE d off n = ok (leNat (f.value.take n)) from by
    obtain ⟨q1, q2⟩ := rdN_inv hr
    rw [rdLE_le (by omega), ← q2, List.take_take, Nat.min_eq_left h]
  rcases hcase with h | h | h | h | h | h | h | h | h | h | h | h
  any_goals rw [h]; rfl
  · rw [h, if_neg (by decide), if_pos (by decide), require_true (hn h), ok_bind, hr]
    simp
  · have := h8 h
    rw [h, if_neg (by decide), if_neg (by decide), if_pos (by decide), require_true (by omega), ok_bind, hle 8 (by omega)]
    simp
  · have := h14 h
    rw [h, if_neg (by decide), if_neg (by decide), if_neg (by decide), if_pos (by decide), require_true this, ok_bind, hle 4 (by omega),
      List.take_of_length_le (by omega)]
    simp

theorem withFields_cons {i : Inode} {f : XField} {fs : List XField} (hd : ∀ g ∈ fs, g.type ≠ f.type) : withFields (withFields i [f]) fs = withFields i (f :: fs) := by
  have hn : xvalue fs f.type = none := xvalue_none hd
  unfold withFields
  simp only [xvalue_cons, show ∀ t, xvalue [] t = none from fun _ => rfl]
  congr 1
  · by_cases h : f.type = 4
    · rw [← h, hn]; simp
    · simp [h]
  · by_cases h : f.type = 8
    · rw [← h, hn]; simp
    · simp [h]
  · by_cases h : f.type = 14
    · rw [← h, hn]; simp
    · simp [h]

theorem inodeFields_ok {d : Bytes} {fs : List XField} (ht : ∀ f ∈ fs, InodeField f) (hd : fs.Pairwise (fun f g => g.type ≠ f.type)) {i : Inode}
    (hn : i.name ≠ none → ∀ f ∈ fs, f.type ≠ 4) {a b a' b' : Bytes}
    (h1 : d = a ++ (fs.flatMap XField.header ++ b)) (h2 : d = a' ++ (fs.flatMap XField.padded ++ b')) :
    inodeFields d fs.length a.length a'.length i = ok (withFields i fs) := by
  induction fs generalizing a a' i with
  | nil =>
    show ok i = _
    unfold withFields
    simp [xvalue]
  | cons f fs ih =>
    rw [List.flatMap_cons, List.append_assoc] at h1 h2
    have hf := ht f (by simp)
    obtain ⟨r1, r2, r3, r4, r5, r6⟩ := field_reads h1 h2 hf.2.2.1
    rw [List.length_cons]
    unfold inodeFields
    have hname : f.type = 4 → i.name = none := by
      intro h
      refine Classical.byContradiction fun hc => hn hc f (by simp) h
    rw [require_true r1, ok_bind, r2, ok_bind, r3, ok_bind, require_true r4, ok_bind, require_true (by have := hf.2.1; omega), ok_bind,
      inodeField_ok hf hname r6, ok_bind, nextValue_padded h2]
    have hp := List.pairwise_cons.1 hd
    have := ih (fun x hx => ht x (by simp [hx])) hp.2 (i := withFields i [f]) ?_ (a := a ++ f.header) (a' := a' ++ f.padded)
      (by rw [List.append_assoc]; exact h1) (by rw [List.append_assoc]; exact h2)
    · rw [List.length_append, List.length_append, header_length] at this
      rw [this, withFields_cons hp.1]
    · intro hne g hg h4
      by_cases h : f.type = 4
      · exact hp.1 g hg (by rw [h, h4])
      · apply hn _ g (by simp [hg]) h4
        intro hi
        apply hne
        unfold withFields
        rw [xvalue_cons, if_neg h]
        simp [xvalue, hi]

/-- the inode with the fixed fields of a value -/
def fixedInode (identifier : Nat) (d : Bytes) : Inode :=
  { identifier := identifier, parent := field d 0 8, dataStream := field d 8 8, modification := field d 16 8, creation := field d 24 8, change := field d 32 8,
    access := field d 40 8, flags := field d 48 8, links := field d 56 4, owner := field d 72 4, group := field d 76 4, mode := field d 80 2,
    name := none, size := 0, device := 0 }

theorem field_append {a b : Bytes} {off n : Nat} (h : off + n ≤ a.length) : field (a ++ b) off n = field a off n := by
  unfold field slice
  rw [List.drop_append_of_le_length (by omega), List.take_append_of_le_length (by rw [List.length_drop]; omega)]

theorem readInodeValue_ok {identifier : Nat} {fixed : Bytes} (h : fixed.length = 92) {fs : Option (List XField)}
    (ht : ∀ l ∈ fs, l.length < 65536 ∧ (∀ f ∈ l, InodeField f) ∧ l.Pairwise (fun f g => g.type ≠ f.type)) (hl : (inodeValue fixed fs).length < 2 ^ 63) :
    readInodeValue identifier (inodeValue fixed fs) = ok (withFields (fixedInode identifier fixed) (fs.getD [])) := by
  have hlen : (inodeValue fixed fs).length = 92 + (optionalFields fs).length := by
    unfold inodeValue
    rw [List.length_append, h]
  have hr : ∀ off n, off + n ≤ 92 → rdLE (inodeValue fixed fs) off n = ok (field fixed off n) := by
    intro off n hle
    rw [rdLE_field (by omega)]
    unfold inodeValue
    rw [field_append (by omega)]
  unfold readInodeValue
  rw [require_true (by omega), ok_bind]
  rw [hr 0 8 (by omega), ok_bind, hr 8 8 (by omega), ok_bind, hr 16 8 (by omega), ok_bind, hr 24 8 (by omega), ok_bind, hr 32 8 (by omega), ok_bind,
    hr 40 8 (by omega), ok_bind, hr 48 8 (by omega), ok_bind, hr 56 4 (by omega), ok_bind, hr 72 4 (by omega), ok_bind, hr 76 4 (by omega), ok_bind,
    hr 80 2 (by omega), ok_bind]
  simp only
  change (if _ then _ else ok (fixedInode identifier fixed)) = _
  cases fs with
  | none =>
    rw [if_neg (by rw [hlen]; simp [optionalFields])]
    unfold withFields
    simp [xvalue]
  | some l =>
    obtain ⟨hc, ht, hp⟩ := ht l rfl
    have hx : (xfields l).length = 4 + (l.length * 4 + (l.flatMap XField.padded).length) := by
      unfold xfields
      simp only [List.length_append, length_toLE, headers_length]
      omega
    simp only [optionalFields] at hlen
    rw [if_pos (by omega), require_true (by omega), ok_bind]
    have hd : inodeValue fixed (some l) = fixed ++ xfields l := rfl
    have r3 : rdLE (inodeValue fixed (some l)) 92 2 = ok l.length := by
      rw [hd]
      exact rdLE_mid _ _ 2 _ 92 h (by omega)
    rw [r3, ok_bind]
    have := inodeFields_ok (d := inodeValue fixed (some l)) (fs := l) ht hp (i := fixedInode identifier fixed) (by intro hh; exact absurd rfl hh)
      (a := fixed ++ (toLE 2 l.length ++ toLE 2 (l.flatMap XField.padded).length)) (b := l.flatMap XField.padded)
      (a' := fixed ++ (toLE 2 l.length ++ (toLE 2 (l.flatMap XField.padded).length ++ l.flatMap XField.header))) (b' := [])
      (by rw [hd]; unfold xfields; simp only [List.append_assoc]) (by rw [hd]; unfold xfields; simp only [List.append_assoc, List.append_nil])
    simp only [List.length_append, length_toLE, headers_length, h] at this
    rw [show 92 + (2 + (2 + l.length * 4)) = 96 + l.length * 4 by omega] at this
    exact this

end Records
end Verif
