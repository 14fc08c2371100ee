import Verif.Lemmas.Directory
import Verif.Lemmas.Path
import Verif.Lemmas.DirectoryExample
import Verif.Props.C03
/-!
# C21 – lookup of a name in a directory
-/
namespace Verif.Props
open Verif Res Name Records BTree FsTree NameLookup
open Verif.Spec (Storage FsHolds NameFormat DirEntry Directory SameName hashOf storedName nameKey caselessChar excluded Record IsOf InOrder)

/-- No name and no tree contents lead to undefined behaviour. -/
theorem c21_safe {α : Type} (dn : Decoder UInt8) (dq : Decoder α) (folding : Bool) {v : Volume} (hv : SafeVolume v) (xid : Nat) (root : Node) (parent : Nat)
    (str : List α) : Safe (lookupName dn dq folding (fsSub v xid) root parent str) :=
  safe_lookupName dn dq folding (safe_fsSub hv xid) root parent str

/-- Strings that are covered: the name hash of the library is the specified one (C03) and not 0, also of the entries. -/
theorem c21_query {α : Type} (dq : Decoder α) (f : NameFormat) (entries : List DirEntry) (str : List α) (q : List Nat) (hn : NameOf dq str q) (hr : Reads dq str q)
    (hx : ∀ c ∈ q, excluded c = false) (ho : InOrder (q.flatMap Spec.Unicode.decomposition))
    (hc : f.caseInsensitive = true → InOrder (((q.flatMap Spec.Unicode.decomposition).flatMap Spec.Unicode.caseFolding).flatMap Spec.Unicode.decomposition))
    (h0 : f.hashed = true → hashOf f q ≠ 0 ∧ ∀ e ∈ entries, hashOf f e.name ≠ 0)
    (he : ∀ e ∈ entries, hashOf f e.name = hashOf f q → ∀ c ∈ e.name, excluded c = false) : ∃ strHash, Query dq f entries str q strHash := by
  refine ⟨Spec.nameHash f.caseInsensitive q, hn, ?_, fun hh => by simp [hashOf, hh], h0, hx, he⟩
  cases hf : f.caseInsensitive with
  | false => exact c03_case_sensitive_partial dq str q hr hx ho
  | true => exact c03_case_insensitive_partial dq str q hr hx ho (hc hf)

/-- The entry with the name looked for is found. It holds for volumes with and without name hashes, case-sensitive and case-insensitive ones, trees of any
shape, and strings in UTF-8 and UTF-16. -/
theorem c21_found {α : Type} {dn : Decoder UInt8} (hd : ReadsUtf8 dn) (dq : Decoder α) {s : Storage} {xid : Nat} {rs : List Record} (h : FsHolds s xid rs)
    {root : Node} (hroot : fsRootNode (volumeOf s) = ok (some root)) {f : NameFormat} {parent : Nat} (hp : parent < 2 ^ 60) {entries : List DirEntry}
    (hdir : Directory rs f parent entries) {e : DirEntry} (he : e ∈ entries) {str : List α} {strHash : Nat} (hq : Query dq f entries str e.name strHash)
    (hu : entries.Pairwise (fun a b => ¬ SameName f.caseInsensitive a.name b.name)) :
    lookupName dn dq f.caseInsensitive (fsSub (volumeOf s) xid) root parent str = ok (some (recordOf f e)) := by
  obtain ⟨mappings, hm, ht⟩ := root_tree h hroot
  obtain ⟨a, b, rfl⟩ := List.append_of_mem he
  obtain ⟨before, after, h1, h2, h3, h4⟩ := split_records hdir
  have hk := h.keys
  have hs := h.sorted
  have cov : ∀ c ∈ e.name, excluded c = false ∧ c < 2 ^ 32 := fun c hc => ⟨hq.covered c hc, scalar_lt ((hdir.valid e he).name c hc).1⟩
  have oe := orderOf_entry hd hq f.caseInsensitive parent he (hdir.valid e he)
  have oeb := orderOf_entry hd hq false parent he (hdir.valid e he)
  unfold lookupName
  rw [hq.hash, ok_bind, lookupNode_found dn dq f.caseInsensitive hp str strHash (orderOf dn dq false str strHash) (orderOf dn dq f.caseInsensitive str strHash)
    (fsSub_ok hm) ht hk hs (directory_monotone hd hq hdir) (directory_order hd hq hdir false) (directory_order hd hq hdir f.caseInsensitive)
    (fun _ => directory_first hdir hs _) h1 h2 (oe.2.2.2 ⟨rfl, rfl⟩) ?_ ?_, readDirectoryRecord_entry (hdir.valid e he)]
  · rfl
  · intro x hx hi hxe
    obtain ⟨y, hy, rfl⟩ := h3 x hx hi
    have hye : y ∈ a ++ e :: b := by simp [hy]
    have ⟨g1, g2⟩ := (orderOf_entry hd hq f.caseInsensitive parent hye (hdir.valid y hye)).2.2.1 hxe
    have hsame : SameName f.caseInsensitive e.name y.name :=
      sameName_of_key cov (fun c hc => ⟨hq.others y hye g1.symm c hc, scalar_lt ((hdir.valid y hye).name c hc).1⟩) g2
    have hne := (List.pairwise_append.1 hu).2.2 y hy e (by simp)
    apply hne
    unfold SameName at hsame ⊢
    split at hsame
    · rename_i hci; rw [if_pos hci]; exact hsame.symm
    · rename_i hci; rw [if_neg hci]; exact hsame.symm
  · refine .inr ⟨?_, ?_⟩
    · rw [oeb.2.2.2 ⟨rfl, rfl⟩]
      simp
    · intro x hx hi
      obtain ⟨y, hy, rfl⟩ := h4 x hx hi
      have hye : y ∈ a ++ e :: b := by simp [hy]
      rw [(orderOf_entry hd hq false parent hye (hdir.valid y hye)).2.1]
      have hb := (List.pairwise_cons.1 (List.pairwise_append.1 hdir.ordered).2.1).1 y hy
      rcases hb with hb | ⟨hb1, hb2⟩
      · exact .inl hb
      · refine .inr ⟨hb1, ?_⟩
        rw [nameKey_decomposition hq.covered, nameKey_decomposition (hq.others y hye hb1.symm)]
        exact hb2

section
open DirectoryExample

theorem readme_query : ∃ strHash, Query utf8 format dir2 (Spec.Utf8.encode readme) readme strHash :=
  c21_query utf8 format dir2 _ readme (by show Decodes utf8 (stripNul _ _) readme []; rw [show stripNul utf8.isNul (Spec.Utf8.encode readme) = Spec.Utf8.encode readme from by decide +kernel]; simpa using decodes_utf8 readme (by decide) [])
    ⟨by decide, [], by simpa using decodes_utf8 readme (by decide) [], .inl rfl⟩ (by decide +kernel) (by decide +kernel) (by decide +kernel) (by decide +kernel)
    (by decide +kernel)

-- the name is in the second leaf of a case-insensitive volume
example : ∃ root, fsRootNode (volumeOf storage) = ok (some root) ∧
    lookupName utf8 utf8 true (fsSub (volumeOf storage) 9) root 2 (Spec.Utf8.encode readme) = ok (some (recordOf format (entry readme 9))) := by
  obtain ⟨strHash, hq⟩ := readme_query
  exact ⟨_, root, c21_found readsUtf8_utf8 utf8 holds root (by decide) directory2 (e := entry readme 9) (by simp [dir2]) hq (by unfold SameName; decide +kernel)⟩
end

/-- What is found is an entry of the directory with the same name. -/
theorem c21_sound {α : Type} {dn : Decoder UInt8} (hd : ReadsUtf8 dn) (dq : Decoder α) {s : Storage} {xid : Nat} {rs : List Record} (h : FsHolds s xid rs)
    {root : Node} (hroot : fsRootNode (volumeOf s) = ok (some root)) {f : NameFormat} {parent : Nat} (hp : parent < 2 ^ 60) {entries : List DirEntry}
    (hdir : Directory rs f parent entries) {str : List α} {q : List Nat} {strHash : Nat} (hq : Query dq f entries str q strHash) :
    lookupName dn dq f.caseInsensitive (fsSub (volumeOf s) xid) root parent str = ok none ∨
      ∃ e ∈ entries, SameName f.caseInsensitive q e.name ∧ hashOf f q = hashOf f e.name ∧
        lookupName dn dq f.caseInsensitive (fsSub (volumeOf s) xid) root parent str = ok (some (recordOf f e)) := by
  obtain ⟨mappings, hm, ht⟩ := root_tree h hroot
  have hs := h.sorted
  unfold lookupName
  rw [hq.hash, ok_bind]
  rcases lookupNode_sound dn dq f.caseInsensitive hp str strHash (orderOf dn dq false str strHash) (orderOf dn dq f.caseInsensitive str strHash)
    (fsSub_ok hm) ht h.keys hs (directory_monotone hd hq hdir) (directory_order hd hq hdir false) (directory_order hd hq hdir f.caseInsensitive)
    (fun _ => directory_first hdir hs _) with hn | ⟨r, hr, hi, hre, hl⟩
  · exact .inl hn
  · obtain ⟨e, he, rfl⟩ := mem_of_records hdir hr hi
    have ⟨g1, g2⟩ := (orderOf_entry hd hq f.caseInsensitive parent he (hdir.valid e he)).2.2.1 hre
    refine .inr ⟨e, he, ?_, g1, ?_⟩
    · exact sameName_of_key (fun c hc => ⟨hq.covered c hc, decodes_lt hq.name c hc⟩)
        (fun c hc => ⟨hq.others e he g1.symm c hc, scalar_lt ((hdir.valid e he).name c hc).1⟩) g2
    · rw [hl, readDirectoryRecord_entry (hdir.valid e he)]
      rfl

/-- A name that the directory does not have is reported as not found, without error. -/
theorem c21_absent {α : Type} {dn : Decoder UInt8} (hd : ReadsUtf8 dn) (dq : Decoder α) {s : Storage} {xid : Nat} {rs : List Record} (h : FsHolds s xid rs)
    {root : Node} (hroot : fsRootNode (volumeOf s) = ok (some root)) {f : NameFormat} {parent : Nat} (hp : parent < 2 ^ 60) {entries : List DirEntry}
    (hdir : Directory rs f parent entries) {str : List α} {q : List Nat} {strHash : Nat} (hq : Query dq f entries str q strHash)
    (hn : ∀ e ∈ entries, ¬ SameName f.caseInsensitive q e.name) :
    lookupName dn dq f.caseInsensitive (fsSub (volumeOf s) xid) root parent str = ok none := by
  rcases c21_sound hd dq h hroot hp hdir hq with h1 | ⟨e, he, h1, _⟩
  · exact h1
  · exact absurd h1 (hn e he)

/-- Case variants: an entry whose name differs in case only is found if it is the only one with its name hash, and the name looked for is not before the stored
name in case-sensitive order, or the tree is a single leaf. Without the restriction the claim is false, see `c21_case_variant`. -/
theorem c21_case_variant_partial {α : Type} {dn : Decoder UInt8} (hd : ReadsUtf8 dn) (dq : Decoder α) {s : Storage} {xid : Nat} {rs : List Record}
    (h : FsHolds s xid rs) {root : Node} (hroot : fsRootNode (volumeOf s) = ok (some root)) {f : NameFormat} (hci : f.caseInsensitive = true)
    {parent : Nat}
    (hp : parent < 2 ^ 60) {entries : List DirEntry} (hdir : Directory rs f parent entries) {e : DirEntry} (he : e ∈ entries) {str : List α} {q : List Nat}
    {strHash : Nat} (hq : Query dq f entries str q strHash) (hh : hashOf f q = hashOf f e.name) (hu : ∀ a ∈ entries, hashOf f a.name = hashOf f e.name → a = e)
    (hsame : q.map caselessChar = e.name.map caselessChar)
    (hcq : ∀ c ∈ q, (Spec.Unicode.caseFolding c).length = 1) (hce : ∀ c ∈ e.name, (Spec.Unicode.caseFolding c).length = 1)
    (hpos : root.leaf = true ∨ ¬ nameKey Spec.Unicode.decomposition q < nameKey Spec.Unicode.decomposition e.name) :
    lookupName dn dq f.caseInsensitive (fsSub (volumeOf s) xid) root parent str = ok (some (recordOf f e)) := by
  obtain ⟨mappings, hm, ht⟩ := root_tree h hroot
  obtain ⟨a, b, rfl⟩ := List.append_of_mem he
  obtain ⟨before, after, h1, h2, h3, h4⟩ := split_records hdir
  have hs := h.sorted
  have oe := orderOf_entry hd hq f.caseInsensitive parent he (hdir.valid e he)
  have oeb := orderOf_entry hd hq false parent he (hdir.valid e he)
  have cl : ∀ c, excluded c = false → (Spec.Unicode.caseFolding c).length = 1 → compareForm true c = caselessChar c := by
    intro c h1 h2
    have := compareForm_eq true c
    rw [compare_agrees c h1 h2] at this
    exact (Res.ok.inj this).symm
  have hkey : nameKey (compareForm f.caseInsensitive) q = nameKey (compareForm f.caseInsensitive) e.name := by
    rw [hci]
    have k : ∀ l : List Nat, nameKey (compareForm true) l = (l.map (compareForm true)).flatMap (fun m => m ++ [2 ^ 32]) := by
      intro l
      unfold nameKey
      rw [List.flatMap_map]
    rw [k, k, List.map_congr_left (fun c hc => cl c (hq.covered c hc) (hcq c hc)),
      List.map_congr_left (fun c hc => cl c (hq.others e he hh.symm c hc) (hce c hc)), hsame]
  unfold lookupName
  rw [hq.hash, ok_bind, lookupNode_found dn dq f.caseInsensitive hp str strHash (orderOf dn dq false str strHash) (orderOf dn dq f.caseInsensitive str strHash)
    (fsSub_ok hm) ht h.keys hs (directory_monotone hd hq hdir) (directory_order hd hq hdir false) (directory_order hd hq hdir f.caseInsensitive)
    (fun _ => directory_first hdir hs _) h1 h2 (oe.2.2.2 ⟨hh, hkey⟩) ?_ ?_, readDirectoryRecord_entry (hdir.valid e he)]
  · rfl
  · intro x hx hi hxe
    obtain ⟨y, hy, rfl⟩ := h3 x hx hi
    have hye : y ∈ a ++ e :: b := by simp [hy]
    have ⟨g1, _⟩ := (orderOf_entry hd hq f.caseInsensitive parent hye (hdir.valid y hye)).2.2.1 hxe
    have := hu y hye (by omega)
    subst this
    -- an entry is not before itself
    have hself := (List.pairwise_append.1 hdir.ordered).2.2 y hy y (by simp)
    rcases hself with hself | ⟨_, hself⟩
    · omega
    · exact List.lt_irrefl _ hself
  · rcases hpos with hpos | hpos
    · exact .inl hpos
    · refine .inr ⟨?_, ?_⟩
      · intro hless
        rcases oeb.2.1.1 hless with g | ⟨_, g⟩
        · omega
        · apply hpos
          rw [← nameKey_decomposition hq.covered, ← nameKey_decomposition (hq.others e he hh.symm)]
          exact g
      · intro x hx hi
        obtain ⟨y, hy, rfl⟩ := h4 x hx hi
        have hye : y ∈ a ++ e :: b := by simp [hy]
        rw [(orderOf_entry hd hq false parent hye (hdir.valid y hye)).2.1]
        have hb := (List.pairwise_cons.1 (List.pairwise_append.1 hdir.ordered).2.1).1 y hy
        rcases hb with hb | ⟨hb1, hb2⟩
        · exact .inl (by omega)
        · have := hu y hye hb1.symm
          subst this
          exact absurd hb2 (List.lt_irrefl _)

section
open DirectoryExample

-- "docs" is found, the entry is "Docs"
example : lookupName utf8 utf8 true (fsSub (volumeOf storage) 9) (parsed fsRootBlock) 2 (Spec.Utf8.encode docsLower) =
    ok (some (recordOf format (entry docs 5))) := by
  obtain ⟨strHash, hq⟩ := c21_query utf8 format dir2 (Spec.Utf8.encode docsLower) docsLower (by show Decodes utf8 (stripNul _ _) docsLower []; rw [show stripNul utf8.isNul (Spec.Utf8.encode docsLower) = Spec.Utf8.encode docsLower from by decide +kernel]; simpa using decodes_utf8 docsLower (by decide) [])
    ⟨by decide, [], by simpa using decodes_utf8 docsLower (by decide) [], .inl rfl⟩ (by decide +kernel) (by decide +kernel) (by decide +kernel) (by decide +kernel)
    (by decide +kernel)
  refine c21_case_variant_partial readsUtf8_utf8 utf8 holds root rfl (by decide) directory2 (e := entry docs 5) (by simp [dir2]) hq (by decide +kernel) ?_
    (by decide +kernel) (by decide +kernel) (by decide +kernel) (.inr (by decide +kernel))
  intro a ha
  simp only [dir2, List.mem_cons, List.not_mem_nil, or_false] at ha
  rcases ha with rfl | rfl
  · exact fun _ => rfl
  · intro hc
    exact absurd hc (by decide +kernel)

/-- Case variants are not found in general: on a case-insensitive volume with the file "readme" in the root directory, that is the first record of a leaf, "README" is not found, though
it has the same name hash and compares equal. The reason is that names are compared in branch nodes with regard to case. -/
theorem c21_case_variant : FsHolds storage 9 records ∧ Directory records format 2 dir2 ∧ entry readme 9 ∈ dir2 ∧ SameName true readmeUpper readme ∧
    hashOf format readmeUpper = hashOf format readme ∧ fsRootNode (volumeOf storage) = ok (some (parsed fsRootBlock)) ∧
    lookupName utf8 utf8 true (fsSub (volumeOf storage) 9) (parsed fsRootBlock) 2 (Spec.Utf8.encode readmeUpper) = ok none :=
  ⟨holds, directory2, by simp [dir2], by unfold SameName; decide +kernel, by decide +kernel, root, by decide +kernel⟩

/-- Names with Hangul syllables are not found: the name hash that is computed differs from the stored one (C03). -/
theorem c21_hangul : Directory records format 5 dir5 ∧ entry korean 8 ∈ dir5 ∧
    lookupName utf8 utf8 true (fsSub (volumeOf storage) 9) (parsed fsRootBlock) 5 (Spec.Utf8.encode korean) = ok none :=
  ⟨directory5, by simp [dir5], by decide +kernel⟩

/-- A name whose name hash is 0, here "sle_i", is not found: 0 is taken for a missing name hash, and the name is compared instead. -/
theorem c21_zero_hash : Directory records format 10 dir10 ∧ entry zero 6 ∈ dir10 ∧ hashOf format zero = 0 ∧
    lookupName utf8 utf8 true (fsSub (volumeOf storage) 9) (parsed fsRootBlock) 10 (Spec.Utf8.encode zero) = ok none :=
  ⟨directory10, by simp [dir10], by decide +kernel, by decide +kernel⟩

end

/-- On volumes without name hashes the order assumed here is the one of code points for names of characters without decomposition. -/
theorem c21_plain_order (a b : List Nat) (ha : ∀ c ∈ a, Spec.Unicode.decomposition c = [c] ∧ c < 2 ^ 32) (hb : ∀ c ∈ b, Spec.Unicode.decomposition c = [c] ∧ c < 2 ^ 32) :
    nameKey Spec.Unicode.decomposition a < nameKey Spec.Unicode.decomposition b ↔ a < b := by
  induction a generalizing b with
  | nil =>
    cases b with
    | nil => simp [nameKey]
    | cons d b => simp [nameKey, List.flatMap_cons, (hb d (by simp)).1]
  | cons c a ih =>
    cases b with
    | nil => simp [nameKey]
    | cons d b =>
      have ih := ih b (fun c hc => ha c (by simp [hc])) (fun c hc => hb c (by simp [hc]))
      unfold nameKey at ih ⊢
      rw [List.flatMap_cons, List.flatMap_cons, (ha c (by simp)).1, (hb d (by simp)).1]
      simp only [List.cons_append, List.nil_append, List.cons_lt_cons_iff]
      rw [ih]
      simp

-- the order is another one for names with such characters: "é" and "z"
example : nameKey Spec.Unicode.decomposition [0xe9] < nameKey Spec.Unicode.decomposition [0x7a] ∧ ¬ ([0xe9] : List Nat) < [0x7a] := by decide +kernel

end Verif.Props
