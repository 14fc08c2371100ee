import Verif.Model.Extents
import Verif.Props.C53
/-!
# C67 Extents tell where the bytes of a file are

The extents of a file entry and of an extended attribute, for any calls in any order with failures of reading in between.
-/
namespace Verif.Props
open Verif Res Spec BTree FsTree FileRead
open Verif.Extents (piece entries entryCall entryCalls Attr attrStream attrEntries attrCall attrCalls btree make)

section
variable {F : Files} {s : Storage} {xid : Nat} {files : List Record} {image : Nat → Option Bytes} {cipher : Option (Cipher × Cipher)}

/-- the extent of a mapping as it is read -/
def readMapping (m : Mapping × Nat) : DataStream.Extent := { logical := m.1.logical, physical := m.1.block, size := m.1.length, encId := m.1.crypto }

/-- the extents of a data stream that are read -/
theorem btree_mappings (hF : Serves F s xid image cipher) (h : FsHolds s xid files) (hroot : ∃ r ∈ files, IsOf 2 3 r) {identifier : Nat} (hf : 2 ≤ identifier) (hi : identifier < 2 ^ 60)
    {ms : List (Mapping × Nat)} (h1 : recordsOf files identifier 8 = ms.map (Mapping.record identifier)) (h2 : ∀ m ∈ ms, m.1.Fits ∧ m.2 < 256) (h3 : Contiguous 0 (ms.map (·.1))) :
    btree F identifier = ok (ms.map readMapping) := by
  have hmem : ∀ r ∈ files, IsOf identifier 8 r → ∃ m ∈ ms, Mapping.record identifier m = r := by
    intro r hr ho
    have : r ∈ recordsOf files identifier 8 := List.mem_filter.2 ⟨hr, decide_eq_true ho⟩
    rw [h1] at this
    exact List.mem_map.1 this
  have hlog : ∀ m : Mapping × Nat, m.1.Fits → field (Mapping.record identifier m).1 8 8 = m.1.logical := by
    intro m hm
    exact second_field rfl (wide8 hm.logical)
  have hok : ExtentsOk files identifier := by
    refine ⟨fun r hr ho => ?_, ?_⟩
    · obtain ⟨m, _, rfl⟩ := hmem r hr ho
      simp [Mapping.record, extentKey, extentValue]
    · have : (recordsOf files identifier 8).Pairwise (fun a b => field a.1 8 8 < field b.1 8 8) := by
        rw [h1, List.pairwise_map]
        have hp := contiguous_ascending h3 (fun m hm => by obtain ⟨m', hm', rfl⟩ := List.mem_map.1 hm; exact (h2 m' hm').1.nonempty)
        rw [List.pairwise_map] at hp
        exact hp.imp_of_mem (fun {a b} ha hb hlt => by rw [hlog a (h2 a ha).1, hlog b (h2 b hb).1]; exact hlt)
      unfold recordsOf at this
      rw [List.pairwise_filter] at this
      exact this.imp (fun hlt ha hb => hlt (decide_eq_true ha) (decide_eq_true hb))
  have hover : ∃ r ∈ files, ¬ fsOver identifier 8 r.1 := by
    obtain ⟨r, hr, e1, e2⟩ := hroot
    refine ⟨r, hr, ?_⟩
    unfold fsOver
    rw [e1, e2]
    omega
  have hes := c24_listing s xid files h identifier hi hok hover
  rw [h1, List.map_map] at hes
  have hmap : ms.map (extentOf ∘ Mapping.record identifier) = ms.map readMapping := List.map_congr_left fun m hm => extentOf_record (h2 m hm).1 (h2 m hm).2
  rw [hmap] at hes
  unfold Extents.btree
  rw [hF.tree, hF.xid, hes]

/-- an extent that is returned for a mapping -/
def pieceOf (m : Mapping × Nat) : Piece := { offset := m.1.block * 4096, size := m.1.length, flags := 0 }

theorem piece_read {m : Mapping × Nat} (h : m.1.Fits) : piece (readMapping m) = pieceOf m := by
  have hb := h.block
  unfold piece readMapping pieceOf DataStream.toInt64
  simp only
  rw [Nat.mod_mod, Nat.mod_eq_of_lt (show m.1.block * 4096 < 2 ^ 64 by omega), if_pos hb]
  simp

/-! ## arrays -/

theorem entries_answer (es : List DataStream.Extent) (a : ExtentAsk) : entries es a = extentAnswer (es.map piece) a := by
  cases a with
  | number => simp [entries, extentAnswer]
  | extent i =>
    unfold entries extentAnswer
    simp only
    by_cases h : i < 0
    · rw [require_false (by simp [h]), if_pos h]
      rfl
    · rw [if_neg h, List.getElem?_map]
      by_cases h2 : (es.length : Int) ≤ i
      · rw [require_false (by simp [h2]), List.getElem?_eq_none (by omega)]
        rfl
      · rw [require_true (by omega), ok_bind, List.getElem?_eq_getElem (show i.toNat < es.length by omega)]
        rfl

/-- a list of answers, each what it should be, or an error if reading failed during the call -/
def AnsweredAs (ps : List Piece) : List (ExtentAsk × Bool) → List (Res ExtentAnswer) → Prop
  | [], [] => True
  | (a, fails) :: l, r :: rs => (r = extentAnswer ps a ∨ (fails = true ∧ r = err)) ∧ AnsweredAs ps l rs
  | _, _ => False

theorem entryCalls_answered (es : List DataStream.Extent) : ∀ (l : List (ExtentAsk × Bool)) (st : Option (List DataStream.Extent)), (st = none ∨ st = some es) →
    AnsweredAs (es.map piece) l (entryCalls (l.map fun x => (x.1, if x.2 then err else ok es)) st)
  | [], _, _ => trivial
  | (a, fails) :: l, st, hst => by
    rw [List.map_cons, entryCalls]
    have key : (entryCall (if fails then err else ok es) a st = (extentAnswer (es.map piece) a, some es)) ∨ (fails = true ∧ entryCall (if fails then err else ok es) a st = (err, none)) := by
      rcases hst with rfl | rfl
      · cases fails with
        | true => exact .inr ⟨rfl, rfl⟩
        | false => exact .inl (by rw [← entries_answer]; rfl)
      · exact .inl (by rw [← entries_answer]; rfl)
    rcases key with h | ⟨hf, h⟩
    · simp only
      rw [h]
      exact ⟨.inl rfl, entryCalls_answered es l _ (.inr rfl)⟩
    · simp only
      rw [h]
      exact ⟨.inr ⟨hf, rfl⟩, entryCalls_answered es l _ (.inl rfl)⟩

theorem attrCalls_answered (es : List DataStream.Extent) {flags : Nat} (hfl : flags % 2 = 1) {mk : List DataStream.Extent → Res Unit} (hm : mk es = ok ()) (data : Res Unit) :
    ∀ (l : List (ExtentAsk × Bool)) (st : Attr), (st.extents = none ∧ st.stream = false ∨ st.extents = some es) →
    AnsweredAs (es.map piece) l (attrCalls flags mk (l.map fun x => (x.1, if x.2 then err else ok es, data)) st)
  | [], _, _ => trivial
  | (a, fails) :: l, st, hst => by
    rw [List.map_cons, attrCalls]
    have key : (∃ st', st'.extents = some es ∧ attrCall flags (if fails then err else ok es) mk data a st = (extentAnswer (es.map piece) a, st')) ∨
        (fails = true ∧ st.extents = none ∧ st.stream = false ∧ attrCall flags (if fails then err else ok es) mk data a st = (err, st)) := by
      unfold attrCall attrStream
      obtain ⟨e, b⟩ := st
      rw [if_pos (show flags % 2 ≠ 0 by omega), ← entries_answer]
      rcases hst with ⟨h1, h2⟩ | h
      · simp only at h1 h2
        subst h1 h2
        cases fails with
        | true => exact .inr ⟨rfl, rfl, rfl, rfl⟩
        | false =>
          refine .inl ⟨{ extents := some es, stream := true }, rfl, ?_⟩
          simp only [Bool.false_eq_true, if_false]
          rw [hm]
          rfl
      · simp only at h
        subst h
        cases b with
        | true => exact .inl ⟨_, rfl, rfl⟩
        | false =>
          refine .inl ⟨{ extents := some es, stream := true }, rfl, ?_⟩
          simp only [Bool.false_eq_true, if_false]
          rw [hm]
          rfl
    rcases key with ⟨st', h1, h⟩ | ⟨hf, h1, h2, h⟩
    · simp only
      rw [h]
      exact ⟨.inl rfl, attrCalls_answered es hfl hm data l _ (.inr h1)⟩
    · simp only
      rw [h]
      exact ⟨.inr ⟨hf, rfl⟩, attrCalls_answered es hfl hm data l _ (.inl ⟨h1, h2⟩)⟩

/-! ## bytes -/

/-- the bytes of a mapping -/
def mappingBytes (plain : Nat → Nat → Bytes) (m : Mapping) : Bytes := (List.range m.length).map fun i => ((plain (m.crypto + i / 4096) (m.block + i / 4096))[i % 4096]?).getD 0

theorem mappingBytes_length (plain : Nat → Nat → Bytes) (m : Mapping) : (mappingBytes plain m).length = m.length := by simp [mappingBytes]

theorem mappingBytes_get {plain : Nat → Nat → Bytes} {m : Mapping} (hp : ∀ k, k * 4096 < m.length → (plain (m.crypto + k) (m.block + k)).length = 4096) {i : Nat} (hi : i < m.length) :
    (plain (m.crypto + i / 4096) (m.block + i / 4096))[i % 4096]? = some ((mappingBytes plain m)[i]'(by rw [mappingBytes_length]; exact hi)) := by
  have hl := hp (i / 4096) (by omega)
  have : i % 4096 < (plain (m.crypto + i / 4096) (m.block + i / 4096)).length := by rw [hl]; omega
  unfold mappingBytes
  rw [List.getElem_map, List.getElem_range, List.getElem?_eq_getElem this]
  rfl

/-- the places of a data stream that is not encrypted have its bytes -/
theorem pieces_bytes {plain : Nat → Nat → Bytes} {sparse : Bool} : ∀ (ms : List (Mapping × Nat)) (at_ : Nat), Contiguous at_ (ms.map (·.1)) → (∀ m ∈ ms, m.1.Fits) →
    (∀ m ∈ ms, ¬ (sparse = true ∧ m.1.block = 0) → ∀ k, k * 4096 < m.1.length → (plain (m.1.crypto + k) (m.1.block + k)).length = 4096 ∧ image (m.1.block + k) = some (plain (m.1.crypto + k) (m.1.block + k))) →
    ∃ all, Pieces image sparse (ms.map pieceOf) all ∧ all.length = (ms.map (·.1.length)).sum ∧ ∀ i, ∀ h : i < all.length, FileByte 4096 plain sparse (ms.map (·.1)) (at_ + i) all[i]
  | [], _, _, _, _ => ⟨[], .nil, rfl, fun i h => by cases h⟩
  | m :: ms, at_, hc, hf, hs => by
    obtain ⟨rest, r1, r2, r3⟩ := pieces_bytes ms (at_ + m.1.length) hc.2 (fun x hx => hf x (List.mem_cons_of_mem _ hx)) (fun x hx => hs x (List.mem_cons_of_mem _ hx))
    have hlog : m.1.logical = at_ := hc.1
    have hrest : ∀ (b : Bytes) (i : Nat) (h : i < (b ++ rest).length), b.length = m.1.length → b.length ≤ i → FileByte 4096 plain sparse ((m :: ms).map (·.1)) (at_ + i) (b ++ rest)[i] := by
      intro b i h hb hi
      rw [List.getElem_append_right hi]
      have hlt : i - b.length < rest.length := by rw [List.length_append] at h; omega
      obtain ⟨x, hx, g⟩ := r3 (i - b.length) hlt
      rw [show at_ + m.1.length + (i - b.length) = at_ + i by omega] at g
      exact ⟨x, List.mem_cons_of_mem _ hx, g⟩
    by_cases hh : sparse = true ∧ m.1.block = 0
    · have hrep : (List.replicate (pieceOf m).size (0 : UInt8)).length = m.1.length := by rw [List.length_replicate]; rfl
      refine ⟨List.replicate (pieceOf m).size 0 ++ rest, .hole ⟨hh.1, by unfold pieceOf; simp [hh.2]⟩ r1, ?_, fun i h => ?_⟩
      · rw [List.length_append, hrep, r2, List.map_cons, List.sum_cons]
      · by_cases hi : i < m.1.length
        · refine ⟨m.1, List.mem_cons_self .., by omega, by omega, ?_⟩
          rw [if_pos hh, List.getElem_append_left (by rw [hrep]; exact hi), List.getElem_replicate]
        · exact hrest _ i h hrep (by rw [hrep]; omega)
    · have hsm := hs m (List.mem_cons_self ..) hh
      have hfit := (hf m (List.mem_cons_self ..)).block
      have hgb := fun {i : Nat} (hi : i < m.1.length) => mappingBytes_get (fun k hk => (hsm k hk).1) hi
      refine ⟨mappingBytes plain m.1 ++ rest, .stored ?_ ⟨?_, mappingBytes_length .., fun i hi => ?_⟩ r1, ?_, fun i h => ?_⟩
      · rintro ⟨g1, g2⟩
        refine hh ⟨g1, ?_⟩
        unfold pieceOf at g2
        simp only at g2
        omega
      · unfold pieceOf
        simp only
        omega
      · have hi' : i < m.1.length := by rwa [mappingBytes_length] at hi
        have e : (pieceOf m).offset.toNat + i = m.1.block * 4096 + i := by
          unfold pieceOf
          simp only
          omega
        have hk := (hsm (i / 4096) (Nat.lt_of_le_of_lt (Nat.div_mul_le_self _ _) hi')).2
        have e2 : (m.1.block * 4096 + i) / 4096 = m.1.block + i / 4096 := by omega
        have e3 : (m.1.block * 4096 + i) % 4096 = i % 4096 := by omega
        unfold byteAt
        rw [e, e2, e3, hk, Option.bind_some]
        exact hgb hi'
      · rw [List.length_append, mappingBytes_length, r2, List.map_cons, List.sum_cons]
      · by_cases hi : i < m.1.length
        · refine ⟨m.1, List.mem_cons_self .., by omega, by omega, ?_⟩
          rw [if_neg hh, List.getElem_append_left (by rw [mappingBytes_length]; exact hi), show at_ + i - m.1.logical = i by omega]
          exact hgb hi
        · exact hrest _ i h (mappingBytes_length ..) (by rw [mappingBytes_length]; omega)

/-- the extents of a stream of bytes -/
theorem stream_pieces (hF : Serves F s xid image none) (h : FsHolds s xid files) (hroot : ∃ r ∈ files, IsOf 2 3 r) {identifier : Nat} {sparse : Bool} {bytes : Bytes}
    (hs : StreamIn files image none identifier sparse bytes) :
    ∃ es all, btree F identifier = ok es ∧ Pieces image sparse (es.map piece) all ∧ bytes = all.take bytes.length := by
  obtain ⟨ms, plain, h1, h2, h3, h4, h5, h6, h7⟩ := hs.extents
  obtain ⟨all, a1, a2, a3⟩ := pieces_bytes (image := image) (plain := plain) (sparse := sparse) ms 0 h3 (fun m hm => (h2 m hm).1) (fun m hm hne k hk => by
    obtain ⟨_, g2, raw, g3, g4⟩ := h5 m hm hne k hk
    simp only at g4
    exact ⟨g2, by rw [g3, g4]⟩)
  refine ⟨_, all, btree_mappings hF h hroot hs.first hs.identifierFits h1 h2 h3, ?_, ?_⟩
  · have hmap : ms.map (piece ∘ readMapping) = ms.map pieceOf := List.map_congr_left fun m hm => piece_read (h2 m hm).1
    rw [List.map_map, hmap]
    exact a1
  · refine List.ext_getElem (by rw [List.length_take, a2]; omega) fun i hi1 hi2 => ?_
    rw [List.getElem_take]
    have hlt : i < all.length := by rw [a2]; omega
    have := a3 i hlt
    rw [Nat.zero_add] at this
    exact c25_byte_unique h3 (h7 i hi1) this

end

variable {F : Files} {s : Storage} {xid : Nat} {files : List Record} {image : Nat → Option Bytes}

/-- The extents of a file that is neither compressed nor encrypted. Whatever calls are made and whichever of them fail to read, the number and each extent are those of one list, and the bytes at these
places of the container, in order and cut to the size of the file, are the contents of the file. Where the file is sparse and the offset is 0 the bytes are zeros instead. -/
theorem c67_file_partial (hF : Serves F s xid image none) (h : FsHolds s xid files) (hroot : ∃ r ∈ files, IsOf 2 3 r) {f : StoredFile} {stream : Nat} {content : Bytes}
    (hs : StreamIn files image none stream f.sparse content) {i : Records.Inode} (hi : ReadsAs i f stream) :
    ∃ ps all, Pieces image f.sparse ps all ∧ content = all.take content.length ∧
      ∀ l : List (ExtentAsk × Bool), AnsweredAs ps l (entryCalls (l.map fun x => (x.1, if x.2 then err else btree F i.dataStream)) none) := by
  obtain ⟨es, all, h1, h2, h3⟩ := stream_pieces hF h hroot hs
  refine ⟨_, all, h2, h3, fun l => ?_⟩
  rw [hi.dataStream, h1]
  exact entryCalls_answered es l none (.inl rfl)

/-- A value in the record of an extended attribute has no extents, and every index is refused. -/
theorem c67_embedded (flags : Nat) (h1 : flags % 2 = 0) (mk : List DataStream.Extent → Res Unit) (tree : Res (List DataStream.Extent)) (l : List ExtentAsk) :
    AnsweredAs [] (l.map fun a => (a, false)) (attrCalls flags mk (l.map fun a => (a, tree, ok ())) {}) := by
  suffices ∀ (l : List ExtentAsk) (st : Attr), st.extents = none → AnsweredAs [] (l.map fun a => (a, false)) (attrCalls flags mk (l.map fun a => (a, tree, ok ())) st) from this l {} rfl
  intro l
  induction l with
  | nil => intros; trivial
  | cons a l ih =>
    intro st hst
    rw [List.map_cons, List.map_cons, attrCalls]
    have key : ∃ st', st'.extents = none ∧ attrCall flags tree mk (ok ()) a st = (extentAnswer [] a, st') := by
      have ha : attrEntries none a = extentAnswer [] a := by
        cases a with
        | number => rfl
        | extent i => unfold attrEntries extentAnswer; simp
      obtain ⟨e, b⟩ := st
      simp only at hst
      subst hst
      unfold attrCall attrStream
      rw [if_neg (show ¬ flags % 2 ≠ 0 by omega), ← ha]
      cases b with
      | true => exact ⟨_, rfl, rfl⟩
      | false =>
        simp only [Bool.false_eq_true, if_false]
        by_cases h2 : flags / 2 % 2 ≠ 0
        · rw [if_pos h2]
          exact ⟨_, rfl, rfl⟩
        · rw [if_neg h2]
          exact ⟨_, rfl, rfl⟩
    obtain ⟨st', g1, g2⟩ := key
    rw [g2]
    exact ⟨.inl rfl, ih st' g1⟩

/-- The same for an extended attribute of a file whose value is in a data stream. -/
theorem c67_attribute_partial (hF : Serves F s xid image none) (h : FsHolds s xid files) (hroot : ∃ r ∈ files, IsOf 2 3 r) {stream : Nat} {value : Bytes} (hs : StreamIn files image none stream false value)
    {flags : Nat} (hfl : flags % 2 = 1) :
    ∃ ps all, Pieces image false ps all ∧ value = all.take value.length ∧
      ∀ l : List (ExtentAsk × Bool), AnsweredAs ps l (attrCalls flags (make F) (l.map fun x => (x.1, if x.2 then err else btree F stream, ok ())) {}) := by
  obtain ⟨es, all, h1, h2, h3⟩ := stream_pieces hF h hroot hs
  refine ⟨_, all, h2, h3, fun l => ?_⟩
  rw [h1]
  refine attrCalls_answered es hfl ?_ (ok ()) l {} (.inl ⟨rfl, rfl⟩)
  obtain ⟨hd, g, _⟩ := extentStream_reads hF h hroot hs
  unfold extentStream at g
  unfold Extents.btree at h1
  rw [h1, ok_bind] at g
  unfold Extents.make
  rw [g]
  rfl

/-! ## what extents do not tell -/

/-- bytes of the container at the places of a stream, if holes are not told apart -/
theorem pieces_get {ms : List (Mapping × Nat)} : ∀ {at_ : Nat} {all : Bytes}, Contiguous at_ (ms.map (·.1)) → Pieces image false (ms.map pieceOf) all → ∀ m ∈ ms, ∀ i < m.1.length,
    all[m.1.logical - at_ + i]? = byteAt image (m.1.block * 4096 + i) := by
  induction ms with
  | nil => intro _ _ _ _ m hm; cases hm
  | cons x ms ih =>
    intro at_ all hc hp m hm i hi
    rw [List.map_cons] at hp
    cases hp with
    | hole hs _ => cases hs.1
    | stored hs hb hrest =>
      rename_i b rest
      obtain ⟨hb1, hb2, hb3⟩ := hb
      have hlog : x.1.logical = at_ := hc.1
      have hxl : b.length = x.1.length := hb2
      rcases List.mem_cons.1 hm with rfl | hm'
      · rw [hlog, Nat.sub_self, Nat.zero_add, List.getElem?_append_left (by omega), List.getElem?_eq_getElem (by omega), ← hb3 i (by omega)]
        rfl
      · have hlow : at_ + x.1.length ≤ m.1.logical := contiguous_lower hc.2 m.1 (List.mem_map_of_mem hm')
        have hrec : rest[m.1.logical - (at_ + x.1.length) + i]? = _ := ih hc.2 hrest m hm' i hi
        rw [List.getElem?_append_right (by omega), ← hrec]
        congr 1
        omega

/-- A hole is returned as offset 0 with flags 0, which is where the superblock of the container is. A program that reads the container there does not get the contents of the file. -/
theorem c67_hole (hF : Serves F s xid image none) (h : FsHolds s xid files) (hroot : ∃ r ∈ files, IsOf 2 3 r) {stream : Nat} {content : Bytes} (hs : StreamIn files image none stream true content)
    {ms : List (Mapping × Nat)} (hms : recordsOf files stream 8 = ms.map (Mapping.record stream) ∧ (∀ m ∈ ms, m.1.Fits ∧ m.2 < 256) ∧ Contiguous 0 (ms.map (·.1))) {m : Mapping × Nat} (hm : m ∈ ms)
    (hb : m.1.block = 0) (hlen : m.1.logical + 32 < content.length) (hmagic : byteAt image 32 = some 0x4e) :
    ∃ es, btree F stream = ok es ∧ (∃ k : Nat, entries es (.extent k) = ok (.piece { offset := 0, size := m.1.length, flags := 0 })) ∧
      ∀ all, Pieces image false (es.map piece) all → content ≠ all.take content.length := by
  obtain ⟨h1, h2, h3⟩ := hms
  have hes := btree_mappings hF h hroot hs.first hs.identifierFits h1 h2 h3
  have hmap : (ms.map readMapping).map piece = ms.map pieceOf := by
    rw [List.map_map]
    exact List.map_congr_left fun m hm => piece_read (h2 m hm).1
  refine ⟨_, hes, ?_, fun all hp heq => ?_⟩
  · obtain ⟨k, hk, hkm⟩ := List.mem_iff_getElem.1 hm
    refine ⟨k, ?_⟩
    rw [entries_answer, hmap]
    unfold extentAnswer
    simp only
    rw [if_neg (by omega), show ((k : Int)).toNat = k by omega, List.getElem?_map, List.getElem?_eq_getElem hk, hkm]
    show ok (ExtentAnswer.piece { offset := (m.1.block : Int) * 4096, size := m.1.length, flags := 0 }) = _
    rw [hb]
    rfl
  · rw [hmap] at hp
    have hfit := (h2 m hm).1
    have h32 : 32 < m.1.length := by
      have := hfit.nonempty
      have := hfit.whole
      omega
    have hg := pieces_get h3 hp m hm 32 h32
    rw [hb, Nat.zero_mul, Nat.zero_add, Nat.sub_zero, hmagic] at hg
    have hc : content[m.1.logical + 32]? = some 0x4e := by
      rw [heq, List.getElem?_take, if_pos hlen, hg]
    obtain ⟨ms', plain, q1, q2, q3, q4, q5, q6, q7⟩ := hs.extents
    have hsame : ms'.map (·.1) = ms.map (·.1) := by
      have e : (ms'.map readMapping) = ms.map readMapping := by
        have := btree_mappings hF h hroot hs.first hs.identifierFits q1 q2 q3
        rw [hes] at this
        exact (Res.ok.inj this).symm
      have inv : ∀ l : List (Mapping × Nat), (l.map readMapping).map DataStream.mapping = l.map (·.1) := fun l => by rw [List.map_map]; rfl
      rw [← inv, e, inv]
    have hb7 := q7 (m.1.logical + 32) hlen
    rw [hsame] at hb7
    have hz : FileByte 4096 plain true (ms.map (·.1)) (m.1.logical + 32) 0 := ⟨m.1, List.mem_map_of_mem hm, by omega, by omega, by rw [if_pos ⟨rfl, hb⟩]⟩
    have := c25_byte_unique h3 hb7 hz
    rw [List.getElem?_eq_getElem hlen, this] at hc
    exact absurd (Option.some.inj hc) (by decide)

/-- Block numbers that are not in a container are not refused: the offset is taken modulo 2^64. -/
theorem c67_wraps (e : DataStream.Extent) (k : Nat) : piece { e with physical := e.physical + k * 2 ^ 52 } = piece e := by
  unfold piece
  simp only
  rw [show (e.physical + k * 2 ^ 52) * 4096 % 2 ^ 64 = e.physical * 4096 % 2 ^ 64 by omega]

end Verif.Props
