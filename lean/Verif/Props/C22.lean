import Verif.Lemmas.Path
import Verif.Props.C19
import Verif.Props.C21
/-!
# C22 – lookup of a path
-/
namespace Verif.Props
open Verif Res Name Records BTree FsTree NameLookup
open Verif.Spec (Storage FsHolds NameFormat DirEntry Directory SameName Record IsOf joinNames pathString Scalar)

/-- No path and no tree contents lead to undefined behaviour. -/
theorem c22_safe {α : Type} [DecidableEq α] (dn : Decoder UInt8) (dq : Decoder α) (separator : α) (folding : Bool) {v : Volume} (hv : SafeVolume v) (xid parent : Nat)
    (str : List α) : Safe (lookupPath dn dq separator folding v xid parent str) :=
  safe_lookupPath dn dq separator folding hv xid parent str

/-- the file of a directory entry -/
def fileOf (v : Volume) (xid : Nat) : Option (Nat × Option DirectoryRecord) → Res (Option (Inode × Option DirectoryRecord))
  | none => return none
  | some (identifier, record) => do
    let inode ← inodeByIdentifier v xid identifier
    match inode with
    | none => err
    | some inode => return some (inode, record)

/-- A path is resolved name by name. Separators before the first name and after the last one do not matter. -/
theorem c22_walk {α : Type} [DecidableEq α] (dn : Decoder UInt8) (dq : Decoder α) {separator : α} (hsep : ∀ r, dq.next (separator :: r) = some (0x2f, r))
    (folding : Bool) {v : Volume} {root : Node} (hroot : fsRootNode v = ok (some root)) (xid parent : Nat) (names : List (List α)) (hn : ∀ n ∈ names, IsSegment dq n)
    (hne : names ≠ []) (leading trailing : Bool) (hlen : 2 ≤ (pathString separator leading trailing names).length)
    (hmax : (pathString separator leading trailing names).length < 2 ^ 63) :
    lookupPath dn dq separator folding v xid parent (pathString separator leading trailing names) =
      (do let p ← walk (lookupName dn dq folding (fsSub v xid) root) parent none names
          fileOf v xid p) := by
  have hstrip : (if (pathString separator leading trailing names).head? = some separator then (pathString separator leading trailing names).drop 1
      else pathString separator leading trailing names) = joinNames separator names ++ (if trailing then [separator] else []) := by
    unfold pathString
    cases leading with
    | true => simp
    | false =>
      cases names with
      | nil => exact absurd rfl hne
      | cons n names =>
        have h1 := hn n (List.mem_cons_self ..)
        have h2 := segment_head dq hsep h1
        have h3 := joinNames_head separator (names := names) h1.nonempty
        rw [if_neg]
        · rfl
        · cases hj : joinNames separator (n :: names) with
          | nil =>
            rw [hj] at h3
            cases n with
            | nil => exact absurd rfl h1.nonempty
            | cons c n => cases h3
          | cons c l =>
            rw [hj] at h3
            simp only [Bool.false_eq_true, if_false, List.nil_append, List.cons_append, List.head?_cons]
            intro hc
            apply h2
            rw [← h3, List.head?_cons]
            exact hc
  unfold lookupPath
  rw [require_true (by omega), ok_bind, hroot, ok_bind]
  simp only
  rw [if_neg (by omega), hstrip, pathLoop_names dq _ hsep hn hne]
  congr 1
  funext p
  cases p with
  | none => rfl
  | some p =>
    obtain ⟨i, r⟩ := p
    simp only [fileOf, inodeByIdentifier]
    cases fsEntry v xid i 3 with
    | err => rfl
    | ub => rfl
    | ok e =>
      simp only [ok_bind]
      cases e with
      | none => rfl
      | some e =>
        simp only
        cases readInode e <;> rfl

/-- UTF-8 and UTF-16 strings without separator and end-of-string character are names. -/
theorem c22_utf8_name (name : List Nat) (hne : name ≠ []) (h : ∀ c ∈ name, Scalar c ∧ c ≠ 0x2f ∧ c ≠ 0) : IsSegment utf8 (Spec.Utf8.encode name) := by
  refine ⟨?_, name, fun c hc => (h c hc).2, fun r => decodes_utf8 name (fun c hc => (h c hc).1) r⟩
  have := decodes_utf8 name (fun c hc => (h c hc).1) []
  intro he
  rw [he] at this
  cases name with
  | nil => exact hne rfl
  | cons c name =>
    cases this with
    | step hn _ => exact next_ne_nil utf8 hn rfl

theorem c22_utf16_name (name : List Nat) (hne : name ≠ []) (h : ∀ c ∈ name, Scalar c ∧ c ≠ 0x2f ∧ c ≠ 0) : IsSegment utf16 (Spec.Utf16.encode name) := by
  refine ⟨?_, name, fun c hc => (h c hc).2, fun r => decodes_utf16 name (fun c hc => (h c hc).1) r⟩
  have := decodes_utf16 name (fun c hc => (h c hc).1) []
  intro he
  rw [he] at this
  cases name with
  | nil => exact hne rfl
  | cons c name =>
    cases this with
    | step hn _ => exact next_ne_nil utf16 hn rfl

theorem utf8_separator (r : Bytes) : utf8.next (0x2f :: r) = some (0x2f, r) := by
  have := utf8_encode 0x2f (by decide) r
  simp [Spec.Utf8.encodeChar] at this
  exact this

theorem utf16_separator (r : List UInt16) : utf16.next (0x2f :: r) = some (0x2f, r) := by
  have := utf16_encode 0x2f (by decide) r
  simp [Spec.Utf16.encodeChar] at this
  exact this

/-- entries of directories, one inside the other, found by names -/
inductive Hierarchy {α : Type} (dq : Decoder α) (rs : List Record) (f : NameFormat) : Nat → List (List α) → List DirEntry → Prop
  | here (parent : Nat) : Hierarchy dq rs f parent [] []
  | step {parent : Nat} {entries : List DirEntry} {e : DirEntry} {str : List α} {strHash : Nat} {strs : List (List α)} {es : List DirEntry} (hp : parent < 2 ^ 60)
      (hdir : Directory rs f parent entries) (he : e ∈ entries) (hq : Query dq f entries str e.name strHash)
      (hu : entries.Pairwise (fun a b => ¬ SameName f.caseInsensitive a.name b.name)) (rest : Hierarchy dq rs f e.identifier strs es) :
      Hierarchy dq rs f parent (str :: strs) (e :: es)

/-- where entries end -/
def lastEntry (f : NameFormat) : Nat → Option DirectoryRecord → List DirEntry → Nat × Option DirectoryRecord
  | parent, record, [] => (parent, record)
  | _, _, e :: es => lastEntry f e.identifier (some (recordOf f e)) es

theorem lastEntry_append (f : NameFormat) (parent : Nat) (record : Option DirectoryRecord) (es : List DirEntry) (e : DirEntry) :
    lastEntry f parent record (es ++ [e]) = (e.identifier, some (recordOf f e)) := by
  induction es generalizing parent record with
  | nil => rfl
  | cons a es ih => exact ih _ _

theorem walk_hierarchy {α : Type} {dn : Decoder UInt8} (hd : ReadsUtf8 dn) (dq : Decoder α) {s : Storage} {xid : Nat} {rs : List Record} (h : FsHolds s xid rs)
    {root : Node} (hroot : fsRootNode (volumeOf s) = ok (some root)) {f : NameFormat} {parent : Nat} {strs more : List (List α)} {es : List DirEntry}
    (hh : Hierarchy dq rs f parent strs es) (record : Option DirectoryRecord) :
    walk (lookupName dn dq f.caseInsensitive (fsSub (volumeOf s) xid) root) parent record (strs ++ more) =
      walk (lookupName dn dq f.caseInsensitive (fsSub (volumeOf s) xid) root) (lastEntry f parent record es).1 (lastEntry f parent record es).2 more := by
  induction hh generalizing record with
  | here parent => rfl
  | step hp hdir he hq hu rest ih =>
    rw [List.cons_append]
    conv => lhs; unfold walk
    rw [c21_found hd dq h hroot hp hdir he hq hu, ok_bind]
    exact ih _

/-- The path of a file resolves to the inode record of the file and its directory entry. It holds for directories of any depth, trees of any shape, volumes with
and without name hashes, and for UTF-8 and UTF-16. What a `Query` is, is described by `c21_query`. -/
theorem c22_resolves {α : Type} [DecidableEq α] {dn : Decoder UInt8} (hd : ReadsUtf8 dn) (dq : Decoder α) {separator : α}
    (hsep : ∀ r, dq.next (separator :: r) = some (0x2f, r)) {s : Storage} {xid : Nat} {rs : List Record} (h : FsHolds s xid rs)
    {root : Node} (hroot : fsRootNode (volumeOf s) = ok (some root)) {f : NameFormat} {parent : Nat} {names : List (List α)} {es : List DirEntry} {e : DirEntry}
    (hh : Hierarchy dq rs f parent names (es ++ [e])) (hn : ∀ n ∈ names, IsSegment dq n) (leading trailing : Bool)
    (hlen : 2 ≤ (pathString separator leading trailing names).length) (hmax : (pathString separator leading trailing names).length < 2 ^ 63)
    (hi : e.identifier < 2 ^ 60) (hone : rs.Pairwise (fun a b => ¬ (IsOf e.identifier 3 a ∧ IsOf e.identifier 3 b))) (ht : ∀ r ∈ rs, 3 ≤ Spec.fsType r.1)
    {r : Record} (hr : r ∈ rs) (hof : IsOf e.identifier 3 r) :
    lookupPath dn dq separator f.caseInsensitive (volumeOf s) xid parent (pathString separator leading trailing names) =
      (do let inode ← readInode r
          return some (inode, some (recordOf f e))) := by
  have hne : names ≠ [] := by
    rintro rfl
    generalize hl : es ++ [e] = l at hh
    cases hh
    simp at hl
  rw [c22_walk dn dq hsep f.caseInsensitive hroot xid parent names hn hne leading trailing hlen hmax]
  have := walk_hierarchy hd dq h hroot (more := []) hh none
  rw [List.append_nil] at this
  rw [this, lastEntry_append]
  unfold walk
  rw [ok_bind]
  simp only [fileOf]
  rw [(c19_lookup_partial s xid rs h e.identifier hi hone ht).1 r hr hof]
  cases readInode r <;> rfl

/-- A missing component is reported as not found, wherever it is in the path. -/
theorem c22_missing {α : Type} [DecidableEq α] {dn : Decoder UInt8} (hd : ReadsUtf8 dn) (dq : Decoder α) {separator : α}
    (hsep : ∀ r, dq.next (separator :: r) = some (0x2f, r)) {s : Storage} {xid : Nat} {rs : List Record} (h : FsHolds s xid rs)
    {root : Node} (hroot : fsRootNode (volumeOf s) = ok (some root)) {f : NameFormat} {parent : Nat} {names more : List (List α)} {es : List DirEntry}
    (hh : Hierarchy dq rs f parent names es) {str : List α} {q : List Nat} {strHash : Nat} {entries : List DirEntry}
    (hp : (lastEntry f parent none es).1 < 2 ^ 60) (hdir : Directory rs f (lastEntry f parent none es).1 entries) (hq : Query dq f entries str q strHash)
    (hno : ∀ e ∈ entries, ¬ SameName f.caseInsensitive q e.name)
    (hn : ∀ n ∈ names ++ str :: more, IsSegment dq n) (leading trailing : Bool)
    (hlen : 2 ≤ (pathString separator leading trailing (names ++ str :: more)).length)
    (hmax : (pathString separator leading trailing (names ++ str :: more)).length < 2 ^ 63) :
    lookupPath dn dq separator f.caseInsensitive (volumeOf s) xid parent (pathString separator leading trailing (names ++ str :: more)) = ok none := by
  rw [c22_walk dn dq hsep f.caseInsensitive hroot xid parent _ hn (by simp) leading trailing hlen hmax, walk_hierarchy hd dq h hroot hh none]
  unfold walk
  rw [c21_absent hd dq h hroot hp hdir hq hno]
  rfl

theorem walk_append {α : Type} (lookup : Nat → List α → Res (Option DirectoryRecord)) (i : Nat) (record : Option DirectoryRecord) (a b : List (List α)) :
    walk lookup i record (a ++ b) = (do
      let p ← walk lookup i record a
      match p with
      | none => return none
      | some (j, r) => walk lookup j r b) := by
  induction a generalizing i record with
  | nil => rfl
  | cons n a ih =>
    rw [List.cons_append]
    conv => lhs; unfold walk
    rw [show walk lookup i record (n :: a) = (do
      let r ← lookup i n
      match r with
      | none => return none
      | some r => walk lookup r.identifier (some r) a) from rfl]
    cases lookup i n with
    | err => rfl
    | ub => rfl
    | ok r =>
      simp only [ok_bind]
      cases r with
      | none => rfl
      | some r => exact ih r.identifier (some r)

theorem walk_record {α : Type} (lookup : Nat → List α → Res (Option DirectoryRecord)) (i : Nat) (record record' : Option DirectoryRecord) (a : List (List α)) (h : a ≠ []) :
    walk lookup i record a = walk lookup i record' a := by
  cases a with
  | nil => exact absurd rfl h
  | cons n a => rfl

/-- If a path leads to a file then a longer path leads to the same as the rest of it, starting at the file. This holds for everything stored in the
directories, names covered by C21 and others. -/
theorem c22_compose {α : Type} [DecidableEq α] (dn : Decoder UInt8) (dq : Decoder α) {separator : α} (hsep : ∀ r, dq.next (separator :: r) = some (0x2f, r))
    (folding : Bool) {s : Storage} {xid : Nat} {rs : List Record} (h : FsHolds s xid rs) {root : Node} (hroot : fsRootNode (volumeOf s) = ok (some root))
    (parent : Nat) (a b : List (List α)) (ha : ∀ n ∈ a, IsSegment dq n) (hb : ∀ n ∈ b, IsSegment dq n) (hane : a ≠ []) (hbne : b ≠ [])
    (hla : 2 ≤ (pathString separator true false a).length) (hlb : 2 ≤ (pathString separator true false b).length)
    (hl : (pathString separator true false (a ++ b)).length < 2 ^ 63)
    {inode : Inode} {record : Option DirectoryRecord} (hf : lookupPath dn dq separator folding (volumeOf s) xid parent (pathString separator true false a) = ok (some (inode, record)))
    (hone : ∀ i, rs.Pairwise (fun a b => ¬ (IsOf i 3 a ∧ IsOf i 3 b))) (ht : ∀ r ∈ rs, 3 ≤ Spec.fsType r.1) (hid : ∀ r ∈ record, r.identifier < 2 ^ 60) :
    lookupPath dn dq separator folding (volumeOf s) xid parent (pathString separator true false (a ++ b)) =
      lookupPath dn dq separator folding (volumeOf s) xid inode.identifier (pathString separator true false b) := by
  have hjoin : ∀ (a b : List (List α)), a ≠ [] → b ≠ [] → (joinNames separator (a ++ b)).length = (joinNames separator a).length + 1 + (joinNames separator b).length := by
    intro a b h1 h2
    induction a with
    | nil => exact absurd rfl h1
    | cons n a ih =>
      cases a with
      | nil =>
        cases b with
        | nil => exact absurd rfl h2
        | cons m b => simp only [joinNames, List.singleton_append, List.length_append, List.length_cons]; omega
      | cons m a =>
        have := ih (by simp)
        simp only [List.cons_append] at this ⊢
        simp only [joinNames, List.length_append, List.length_cons] at this ⊢
        omega
  have hj := hjoin a b hane hbne
  simp only [pathString, if_true, Bool.false_eq_true, if_false, List.append_nil, List.length_append, List.length_cons, List.length_nil] at hla hlb hl
  rw [c22_walk dn dq hsep folding hroot xid parent a ha hane true false (by simp [pathString]; omega) (by simp [pathString]; omega)] at hf
  rw [c22_walk dn dq hsep folding hroot xid parent (a ++ b) (by intro n hn; rcases List.mem_append.1 hn with hn | hn; exact ha n hn; exact hb n hn) (by simp [hane]) true false
      (by simp [pathString]; omega) (by simp [pathString]; omega),
    c22_walk dn dq hsep folding hroot xid inode.identifier b hb hbne true false (by simp [pathString]; omega) (by simp [pathString]; omega)]
  obtain ⟨p, hp, hf⟩ := bind_eq_ok.1 hf
  rw [walk_append, hp, ok_bind]
  cases p with
  | none => cases hf
  | some p =>
    obtain ⟨i, r⟩ := p
    simp only [fileOf] at hf
    obtain ⟨n, hn, hf⟩ := bind_eq_ok.1 hf
    cases n with
    | none => cases hf
    | some n =>
      have hf := Option.some.inj (Res.ok.inj hf)
      simp only [Prod.mk.injEq] at hf
      obtain ⟨rfl, rfl⟩ := hf
      have hri : ∃ d, r = some d ∧ i = d.identifier := by
        have key : ∀ (l : List (List α)) (j : Nat) (q : Option DirectoryRecord), l ≠ [] →
            walk (lookupName dn dq folding (fsSub (volumeOf s) xid) root) j q l = ok (some (i, r)) → ∃ d, r = some d ∧ i = d.identifier := by
          intro l
          induction l with
          | nil => exact fun _ _ h => absurd rfl h
          | cons n l ih =>
            intro j q _ hw
            unfold walk at hw
            obtain ⟨x, hx, hw⟩ := bind_eq_ok.1 hw
            cases x with
            | none => cases hw
            | some x =>
              cases l with
              | nil =>
                unfold walk at hw
                have hw := Option.some.inj (Res.ok.inj hw)
                simp only [Prod.mk.injEq] at hw
                exact ⟨x, hw.2.symm, hw.1.symm⟩
              | cons m l => exact ih _ _ (by simp) hw
        exact key a parent none hane hp
      obtain ⟨d, rfl, rfl⟩ := hri
      have hid := hid d rfl
      rw [c19_identifier s xid rs h d.identifier hid (hone _) ht _ hn]
      simp only
      rw [walk_record _ _ _ none b hbne]

section
open DirectoryExample

/-- "/Docs/readme" -/
def docsReadme : Bytes := pathString 0x2f true false [Spec.Utf8.encode docs, Spec.Utf8.encode readme]

theorem docs_hierarchy : Hierarchy utf8 records format 2 [Spec.Utf8.encode docs, Spec.Utf8.encode readme] [entry docs 5, entry readme 7] := by
  obtain ⟨h1, q1⟩ := c21_query utf8 format dir2 (Spec.Utf8.encode docs) docs (by show Decodes utf8 (stripNul _ _) docs []; rw [show stripNul utf8.isNul (Spec.Utf8.encode docs) = Spec.Utf8.encode docs from by decide +kernel]; simpa using decodes_utf8 docs (by decide) [])
    ⟨by decide, [], by simpa using decodes_utf8 docs (by decide) [], .inl rfl⟩ (by decide +kernel) (by decide +kernel) (by decide +kernel) (by decide +kernel)
    (by decide +kernel)
  obtain ⟨h2, q2⟩ := c21_query utf8 format dir5 (Spec.Utf8.encode readme) readme (by show Decodes utf8 (stripNul _ _) readme []; rw [show stripNul utf8.isNul (Spec.Utf8.encode readme) = Spec.Utf8.encode readme from by decide +kernel]; simpa using decodes_utf8 readme (by decide) [])
    ⟨by decide, [], by simpa using decodes_utf8 readme (by decide) [], .inl rfl⟩ (by decide +kernel) (by decide +kernel) (by decide +kernel) (by decide +kernel)
    (by decide +kernel)
  exact .step (by decide) directory2 (by simp [dir2]) q1 (by unfold SameName; decide +kernel)
    (.step (by decide) directory5 (by simp [dir5]) q2 (by unfold SameName; decide +kernel) (.here 7))

theorem docs_names : ∀ n ∈ [Spec.Utf8.encode docs, Spec.Utf8.encode readme], IsSegment utf8 n := by
  intro n hn
  simp only [List.mem_cons, List.not_mem_nil, or_false] at hn
  rcases hn with rfl | rfl
  · exact c22_utf8_name docs (by decide) (by decide)
  · exact c22_utf8_name readme (by decide) (by decide)

-- "/Docs/readme" is inode 7
example : ∃ i, i.identifier = 7 ∧ lookupPath utf8 utf8 0x2f true (volumeOf storage) 9 2 docsReadme = ok (some (i, some (recordOf format (entry readme 7)))) := by
  have := c22_resolves readsUtf8_utf8 utf8 utf8_separator holds root (es := [entry docs 5]) docs_hierarchy docs_names true false (by decide +kernel) (by decide +kernel)
    (by decide) (by decide +kernel) (by decide +kernel) (r := (TreeExample.key 3 7 [], TreeExample.inode 5 0x81a4)) (by decide +kernel) (by decide +kernel)
  unfold docsReadme
  cases hi : readInode (TreeExample.key 3 7 [], TreeExample.inode 5 0x81a4) with
  | ok i =>
    rw [hi] at this
    refine ⟨i, ?_, this⟩
    have h7 : (do let i ← readInode (TreeExample.key 3 7 [], TreeExample.inode 5 0x81a4); return i.identifier) = ok 7 := by decide +kernel
    rw [hi] at h7
    exact Res.ok.inj h7
  | err => exact absurd hi (by decide +kernel)
  | ub => exact absurd hi (by decide +kernel)

-- "/Docs/docs/readme/" is not there
example : lookupPath utf8 utf8 0x2f true (volumeOf storage) 9 2 (pathString 0x2f true true [Spec.Utf8.encode docs, Spec.Utf8.encode docsLower, Spec.Utf8.encode readme]) = ok none := by
  obtain ⟨h1, q1⟩ := c21_query utf8 format dir5 (Spec.Utf8.encode docsLower) docsLower (by show Decodes utf8 (stripNul _ _) docsLower []; rw [show stripNul utf8.isNul (Spec.Utf8.encode docsLower) = Spec.Utf8.encode docsLower from by decide +kernel]; simpa using decodes_utf8 docsLower (by decide) [])
    ⟨by decide, [], by simpa using decodes_utf8 docsLower (by decide) [], .inl rfl⟩ (by decide +kernel) (by decide +kernel) (by decide +kernel) (by decide +kernel)
    (by decide +kernel)
  have hh : Hierarchy utf8 records format 2 [Spec.Utf8.encode docs] [entry docs 5] := by
    cases docs_hierarchy with
    | step a b c d e _ => exact .step a b c d e (.here 5)
  refine c22_missing readsUtf8_utf8 utf8 utf8_separator holds root (more := [Spec.Utf8.encode readme]) hh (by decide) directory5 q1 (by unfold SameName; decide +kernel) ?_ true true
    (by decide +kernel) (by decide +kernel)
  intro n hn
  simp only [List.cons_append, List.nil_append, List.mem_cons, List.not_mem_nil, or_false] at hn
  rcases hn with rfl | rfl | rfl
  · exact c22_utf8_name docs (by decide) (by decide)
  · exact c22_utf8_name docsLower (by decide) (by decide)
  · exact c22_utf8_name readme (by decide) (by decide)

-- "/Docs" and "/readme" meet what `c22_compose` needs
example : ∃ i : Inode, i.identifier = 5 ∧ lookupPath utf8 utf8 0x2f true (volumeOf storage) 9 2 docsReadme =
    lookupPath utf8 utf8 0x2f true (volumeOf storage) 9 5 (pathString 0x2f true false [Spec.Utf8.encode readme]) := by
  have hn := docs_names
  cases hi : lookupPath utf8 utf8 0x2f true (volumeOf storage) 9 2 (pathString 0x2f true false [Spec.Utf8.encode docs]) with
  | ok r =>
    have h5 : (do let r ← lookupPath utf8 utf8 0x2f true (volumeOf storage) 9 2 (pathString 0x2f true false [Spec.Utf8.encode docs])
                  return r.map (fun p => (p.1.identifier, p.2.map (·.identifier)))) = ok (some (5, some 5)) := by decide +kernel
    rw [hi] at h5
    have h5 := Res.ok.inj h5
    cases r with
    | none => cases h5
    | some r =>
      obtain ⟨i, d⟩ := r
      simp only [Option.map_some, Option.some.injEq, Prod.mk.injEq] at h5
      refine ⟨i, h5.1, ?_⟩
      rw [← h5.1]
      refine c22_compose utf8 utf8 utf8_separator true holds root 2 [Spec.Utf8.encode docs] [Spec.Utf8.encode readme] (fun n h => hn n (by simp at h; simp [h]))
        (fun n h => hn n (by simp at h; simp [h])) (by simp) (by simp) (by decide +kernel) (by decide +kernel) (by decide +kernel) hi ?_ (by decide +kernel) ?_
      · intro k
        have hu : records.Pairwise (fun a b => ¬ (Spec.fsId a.1 = Spec.fsId b.1 ∧ Spec.fsType a.1 = 3 ∧ Spec.fsType b.1 = 3)) := by decide +kernel
        exact hu.imp (fun h h' => h ⟨h'.1.1.trans h'.2.1.symm, h'.1.2, h'.2.2⟩)
      · intro r hr
        rw [hr] at h5
        simp only [Option.map_some, Option.some.injEq] at h5
        omega
  | err => exact absurd hi (by decide +kernel)
  | ub => exact absurd hi (by decide +kernel)

/-- An end-of-string character in a path is taken for a separator: "Docs\0readme" leads to the file "/Docs/readme", and not to "Docs". -/
theorem c22_end_of_string : lookupPath utf8 utf8 0x2f true (volumeOf storage) 9 2 (Spec.Utf8.encode docs ++ 0 :: Spec.Utf8.encode readme) =
      lookupPath utf8 utf8 0x2f true (volumeOf storage) 9 2 docsReadme ∧
    (do let r ← lookupPath utf8 utf8 0x2f true (volumeOf storage) 9 2 docsReadme; return r.map (fun p => p.1.identifier)) = ok (some 7) := by decide +kernel

-- two separators in a row
example : lookupPath utf8 utf8 0x2f true (volumeOf storage) 9 2 (Spec.Utf8.encode docs ++ 0x2f :: 0x2f :: Spec.Utf8.encode readme) = ok none := by decide +kernel
end

/-- The claim is false for names of one code unit: such a path, as well as such a name of a sub file entry, always leads to the directory where the lookup starts. -/
theorem c22_one_character {α : Type} [DecidableEq α] (dn : Decoder UInt8) (dq : Decoder α) (separator : α) (folding : Bool) (v : Volume) (xid parent : Nat) (c : α) :
    lookupPath dn dq separator folding v xid parent [c] = lookupPath dn dq separator folding v xid parent [] := by
  unfold lookupPath
  rw [require_true (by simp), require_true (by simp)]
  simp

-- the root directory has an entry "a" for the file 3, "a" leads to the root directory, "a/" to the file
example : (do let r ← lookupPath utf8 utf8 0x2f false (volumeOf TreeExample.storage) 9 2 [97]; return r.map (fun p => p.1.identifier)) = ok (some 2) ∧
    (do let r ← lookupPath utf8 utf8 0x2f false (volumeOf TreeExample.storage) 9 2 [97, 0x2f]; return r.map (fun p => p.1.identifier)) = ok (some 3) ∧
    (do let r ← directoryRecords (volumeOf TreeExample.storage) 9 2; return r.map (fun d => (d.name, d.identifier))) = ok [([97, 0], 3), ([98, 0], 9)] := by decide +kernel

end Verif.Props
