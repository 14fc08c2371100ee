import Verif.Props.C55
import Verif.Props.C53
/-!
# C55 The printed hierarchy has one line per file: texts of lines, volumes of a container

Lines of different files differ, unless names contain slashes. The hierarchies of all volumes are printed in order, or that of the selected one; a volume that fails hides those behind it.
-/
namespace Verif.Props
open Verif Res Spec BTree FsTree FileRead
open Verif.PathString (escaped Lawful)

/-! Texts -/

theorem pathText_name {rs : List Record} {f : NameFormat} {dirs : Nat → List DirEntry} (hH : FileHierarchy rs f dirs) {i : Nat} (hr : Reach dirs i) {p : List DirEntry} (hp : Chain dirs i p) : PathString.Name (pathText p) := by
  induction hp with
  | here => intro c hc; cases hc
  | step he rest ih =>
    rename_i i e es
    have hv := ((hH.directory i hr).valid e he).name
    by_cases h0 : es = []
    · subst h0; exact hv
    · rw [pathText_cons h0]
      exact name_append hv (name_append name_slash (ih (.step hr he)))

theorem split_slash {a b x y : List Nat} (ha : 0x2f ∉ a) (hb : 0x2f ∉ b) (h : a ++ 0x2f :: x = b ++ 0x2f :: y) : a = b ∧ x = y := by
  induction a generalizing b with
  | nil =>
    cases b with
    | nil => simpa using h
    | cons c b =>
      simp only [List.nil_append, List.cons_append, List.cons.injEq] at h
      exact absurd h.1 (fun e => hb (by rw [e]; simp))
  | cons c a ih =>
    cases b with
    | nil =>
      simp only [List.nil_append, List.cons_append, List.cons.injEq] at h
      exact absurd h.1.symm (fun e => ha (by rw [e]; simp))
    | cons d b =>
      simp only [List.cons_append, List.cons.injEq] at h
      obtain ⟨h1, h2⟩ := ih (fun h => ha (List.mem_cons_of_mem _ h)) (fun h => hb (List.mem_cons_of_mem _ h)) h.2
      exact ⟨by rw [h.1, h1], h2⟩

theorem pathText_inj {rs : List Record} {f : NameFormat} {dirs : Nat → List DirEntry} (hH : FileHierarchy rs f dirs) (hs : ∀ i, Reach dirs i → ∀ e ∈ dirs i, 0x2f ∉ e.name)
    {i : Nat} (hr : Reach dirs i) {p q : List DirEntry} (hp : Chain dirs i p) (hq : Chain dirs i q) (hp0 : p ≠ []) (hq0 : q ≠ []) (h : pathText p = pathText q) : p = q := by
  induction p generalizing i q with
  | nil => exact absurd rfl hp0
  | cons e p ih =>
    cases q with
    | nil => exact absurd rfl hq0
    | cons g q =>
      cases hp with
      | step he hpr =>
        cases hq with
        | step hg hqr =>
          have he' := hs i hr e he
          have hg' := hs i hr g hg
          by_cases h1 : p = []
          · by_cases h2 : q = []
            · subst h1; subst h2
              rw [entries_unique (hH.directory i hr).ordered he hg h]
            · rw [pathText_cons h2] at h
              subst h1
              have h : e.name = g.name ++ 0x2f :: pathText q := h
              exact absurd (by rw [h]; simp) he'
          · by_cases h2 : q = []
            · rw [pathText_cons h1] at h
              subst h2
              have h : e.name ++ 0x2f :: pathText p = g.name := h
              exact absurd (by rw [← h]; simp) hg'
            · rw [pathText_cons h1, pathText_cons h2] at h
              obtain ⟨hn, ht⟩ := split_slash he' hg' h
              have := entries_unique (hH.directory i hr).ordered he hg hn
              subst this
              rw [ih (.step hr he) hpr hqr h1 h2 ht]

/-- Where names have no slashes, the texts of different paths of a volume differ. -/
theorem c55_distinct_partial {rs : List Record} {f : NameFormat} {dirs : Nat → List DirEntry} (hH : FileHierarchy rs f dirs) (hs : ∀ i, Reach dirs i → ∀ e ∈ dirs i, 0x2f ∉ e.name)
    {levels : Nat} {p q : List DirEntry} (hp : p ∈ paths dirs levels 2) (hq : q ∈ paths dirs levels 2) {before : Bytes}
    (h : before ++ Utf8.encode (pathText p) = before ++ Utf8.encode (pathText q)) : p = q := by
  obtain ⟨p0, p1, _⟩ := mem_paths.1 hp
  obtain ⟨q0, q1, _⟩ := mem_paths.1 hq
  have hn := fun {p : List DirEntry} (hp : Chain dirs 2 p) => pathText_name hH .root hp
  exact pathText_inj hH hs .root p1 q1 p0 q0 (PathString.encode_inj _ _ (fun c hc => (hn p1 c hc).1) (fun c hc => (hn q1 c hc).1) (List.append_cancel_left h))

/-! Volumes -/

theorem hexDigit_ascii (v : Nat) : PathString.hexDigit (v % 16) ≠ 0 ∧ (PathString.hexDigit (v % 16)).toNat < 0x80 := by
  have : ∀ v : Fin 16, PathString.hexDigit v.1 ≠ 0 ∧ (PathString.hexDigit v.1).toNat < 0x80 := by decide +kernel
  exact this ⟨v % 16, Nat.mod_lt _ (by decide)⟩

theorem uuidText_parts (u : Bytes) : ∀ b ∈ uuidText u, b ∈ [0x7b, 0x2d, 0x7d] ∨ ∃ v, b = PathString.hexDigit (v % 16) := by
  intro b hb
  unfold uuidText at hb
  simp only [List.mem_append, List.mem_cons, List.not_mem_nil, or_false, List.mem_flatMap, PathString.hex2] at hb
  have : ∀ {l : Bytes}, (∃ a, a ∈ l ∧ (b = PathString.hexDigit (a.toNat / 16 % 16) ∨ b = PathString.hexDigit (a.toNat % 16))) → ∃ v, b = PathString.hexDigit (v % 16) := by
    rintro l ⟨a, _, h | h⟩
    · exact ⟨_, h⟩
    · exact ⟨_, h⟩
  rcases hb with (h | ((((((((h | h) | h) | h) | h) | h) | h) | h) | h)) | h
  · exact .inl (by rw [h]; simp)
  · exact .inr (this h)
  · exact .inl (by rw [h]; simp)
  · exact .inr (this h)
  · exact .inl (by rw [h]; simp)
  · exact .inr (this h)
  · exact .inl (by rw [h]; simp)
  · exact .inr (this h)
  · exact .inl (by rw [h]; simp)
  · exact .inr (this h)
  · exact .inl (by rw [h]; simp)

theorem flatMap_hex_length (l : Bytes) : (l.flatMap fun b => PathString.hex 2 b.toNat).length = 2 * l.length := by
  induction l with
  | nil => rfl
  | cons b l ih => rw [List.flatMap_cons, List.length_append, ih, PathString.hex2]; simp; omega

theorem flatMap_hex_inj {a b x y : Bytes} (hl : a.length = b.length) (h : (a.flatMap fun b => PathString.hex 2 b.toNat) ++ x = (b.flatMap fun b => PathString.hex 2 b.toNat) ++ y) : a = b ∧ x = y := by
  induction a generalizing b with
  | nil =>
    cases b with
    | nil => exact ⟨rfl, h⟩
    | cons _ _ => cases hl
  | cons c a ih =>
    cases b with
    | nil => cases hl
    | cons d b =>
      rw [List.flatMap_cons, List.flatMap_cons, List.append_assoc, List.append_assoc] at h
      obtain ⟨h1, h2⟩ := List.append_inj h (by rw [PathString.hex2, PathString.hex2]; rfl)
      obtain ⟨h3, h4⟩ := ih (by simpa using hl) h2
      have hc := PathString.hexNumber_hex 2 c.toNat (by have := c.toNat_lt; omega)
      have hd := PathString.hexNumber_hex 2 d.toNat (by have := d.toNat_lt; omega)
      rw [h1, hd] at hc
      have := UInt8.toNat_inj.1 (Option.some.inj hc)
      exact ⟨by rw [this, h3], h4⟩

/-- Different volumes have different texts in front of their files. -/
theorem c55_uuid {u v : Bytes} (hu : u.length = 16) (hv : v.length = 16) (h : uuidText u = uuidText v) : u = v := by
  unfold uuidText at h
  simp only [List.cons_append, List.append_assoc, List.cons.injEq, true_and] at h
  obtain ⟨h1, h⟩ := flatMap_hex_inj (by simp [hu, hv]) h
  obtain ⟨h2, h⟩ := flatMap_hex_inj (by simp [hu, hv]) (List.cons.inj h).2
  obtain ⟨h3, h⟩ := flatMap_hex_inj (by simp [hu, hv]) (List.cons.inj h).2
  obtain ⟨h4, h⟩ := flatMap_hex_inj (by simp [hu, hv]) (List.cons.inj h).2
  obtain ⟨h5, h⟩ := flatMap_hex_inj (by simp [hu, hv]) (List.cons.inj h).2
  have parts : ∀ w : Bytes, w.length = 16 → w = (w.drop 0).take 4 ++ ((w.drop 4).take 2 ++ ((w.drop 6).take 2 ++ ((w.drop 8).take 2 ++ (w.drop 10).take 6))) := by
    intro w hw
    have e1 : (w.drop 10).take 6 = w.drop 10 := List.take_of_length_le (by simp [hw])
    have step : ∀ a n, (w.drop a).take n ++ w.drop (a + n) = w.drop a := fun a n => by rw [← List.drop_drop]; exact List.take_append_drop _ _
    rw [e1, step 8 2, step 6 2, step 4 2, step 0 4, List.drop_zero]
  rw [parts u hu, parts v hv, h1, h2, h3, h4, h5]

theorem prefix_uuid {u : Bytes} (hu : u.length = 16) : Prefix (0x2f :: uuidText u ++ [0x2f]) := by
  refine ⟨?_, by simp, ?_⟩
  · intro b hb
    simp only [List.cons_append, List.mem_cons, List.mem_append, List.not_mem_nil, or_false] at hb
    rcases hb with rfl | hb | rfl
    · decide
    · rcases uuidText_parts u b hb with h | ⟨v, rfl⟩
      · have : ∀ b ∈ ([0x7b, 0x2d, 0x7d] : Bytes), b ≠ 0 ∧ b.toNat < 0x80 := by decide
        exact this b h
      · exact hexDigit_ascii v
    · decide
  · unfold uuidText
    simp only [List.cons_append, List.length_cons, List.length_append, flatMap_hex_length, List.length_take, List.length_drop, List.length_nil, hu]
    omega

variable {k : PathString.Codec} {una : Bytes → Res Bytes} {depth : Nat}

/-- the text in front of all volumes -/
def hierarchyHeader : Bytes := "Apple File System (APFS) information:\n\nFile system hierarchy:\n".toUTF8.toList

/-- a volume with what is printed for it -/
def Prints (k : PathString.Codec) (una : Bytes → Res Bytes) (depth : Nat) (v : Res PrintedVolume) (out : Bytes) : Prop := ∃ p, v = ok p ∧ printVolume k una depth p = (out, ok ())

theorem printVolumes_all {vs : List (Res PrintedVolume × Bytes)} (h : ∀ v ∈ vs, Prints k una depth v.1 v.2) (rest : List (Res PrintedVolume)) (index : Nat) :
    printVolumes k una depth 0 index (vs.map (·.1) ++ rest) = Out.andThen (vs.flatMap (·.2), ok ()) (printVolumes k una depth 0 (index + vs.length) rest) := by
  induction vs generalizing index with
  | nil => simp [andThen_ok]
  | cons v vs ih =>
    obtain ⟨p, h1, h2⟩ := h v (by simp)
    rw [List.map_cons, List.cons_append, printVolumes, if_neg (by simp), h1]
    simp only [Out.need]
    rw [h2, ih (fun v hv => h v (List.mem_cons_of_mem _ hv)), andThen_ok, andThen_ok, andThen_ok, List.flatMap_cons, List.append_assoc, List.length_cons]
    rw [show index + 1 + vs.length = index + (vs.length + 1) by omega]

/-- Where each volume can be printed, all are, in order. -/
theorem c55_volumes {vs : List (Res PrintedVolume × Bytes)} (h : ∀ v ∈ vs, Prints k una depth v.1 v.2) :
    printHierarchy k una depth 0 (vs.map (·.1)) = (hierarchyHeader ++ vs.flatMap (·.2) ++ [0x0a], ok ()) := by
  unfold printHierarchy
  rw [if_neg (by omega)]
  have := printVolumes_all h [] 0
  rw [List.append_nil] at this
  rw [this]
  simp [printVolumes, andThen_ok, hierarchyHeader]

theorem printVolumes_selected {vs : List (Res PrintedVolume)} {j index : Nat} {v : Res PrintedVolume} {out : Bytes} (hv : vs[j]? = some v) (h : Prints k una depth v out) :
    printVolumes k una depth (index + j + 1) index vs = (out, ok ()) := by
  induction vs generalizing j index with
  | nil => cases hv
  | cons w vs ih =>
    rw [printVolumes]
    cases j with
    | zero =>
      cases hv
      obtain ⟨p, h1, h2⟩ := h
      rw [if_neg (by omega), h1]
      simp only [Out.need]
      rw [h2, andThen_ok]
      have : ∀ (vs : List (Res PrintedVolume)) (i : Nat), index < i → printVolumes k una depth (index + 0 + 1) i vs = ([], ok ()) := by
        intro vs
        induction vs with
        | nil => intros; rfl
        | cons w vs ih => intro i hi; rw [printVolumes, if_pos (by omega), ih _ (by omega)]
      rw [this vs (index + 1) (by omega)]
      simp
    | succ j =>
      rw [if_pos (by omega), show index + (j + 1) + 1 = (index + 1) + j + 1 by omega]
      exact ih hv

/-- A selected volume is printed, whatever the other volumes are. -/
theorem c55_selected {vs : List (Res PrintedVolume)} {j : Nat} {v : Res PrintedVolume} {out : Bytes} (hv : vs[j]? = some v) (h : Prints k una depth v out) :
    printHierarchy k una depth (j + 1) vs = (hierarchyHeader ++ out ++ [0x0a], ok ()) := by
  have hj := (List.getElem?_eq_some_iff.1 hv).1
  unfold printHierarchy
  rw [if_neg (by omega)]
  have := printVolumes_selected (index := 0) (k := k) (una := una) (depth := depth) hv h
  rw [Nat.zero_add] at this
  rw [this]
  simp [andThen_ok, hierarchyHeader]

/-- A volume that does not exist is an error. -/
theorem c55_beyond {vs : List (Res PrintedVolume)} {selected : Nat} (h : vs.length < selected) : (printHierarchy k una depth selected vs).2 = err := by
  unfold printHierarchy
  rw [if_pos h]
  rfl

/-- A volume that cannot be printed, for instance because it is locked, ends the output with an error: nothing is printed for the volumes behind it. -/
theorem c55_failing {vs : List (Res PrintedVolume × Bytes)} (h : ∀ v ∈ vs, Prints k una depth v.1 v.2) {v : Res PrintedVolume} (hv : Out.need v (printVolume k una depth) = ([], err)) (rest : List (Res PrintedVolume)) :
    printHierarchy k una depth 0 (vs.map (·.1) ++ v :: rest) = (hierarchyHeader ++ vs.flatMap (·.2), err) := by
  unfold printHierarchy
  rw [if_neg (by omega), printVolumes_all h (v :: rest) 0, printVolumes, if_neg (by simp), hv]
  simp [Out.andThen, hierarchyHeader]

/-- So the files of a volume can be missing because another volume is locked. -/
theorem c55_hidden {v : Res PrintedVolume} {out : Bytes} (_hv : Prints k una depth v out) (u : Bytes) :
    printHierarchy k una depth 0 [ok { uuid := u, files := err }, v] = (hierarchyHeader, err) := by
  have := c55_failing (k := k) (una := una) (depth := depth) (vs := []) (fun _ h => nomatch h) (v := ok { uuid := u, files := err }) rfl [v]
  simpa using this

/-- The name of the root directory is not printed, but without it nothing is. -/
theorem c55_root_name {l : Lookups} {root : Records.Inode} {children : List Records.DirectoryRecord} (_hr : l.inode 2 = ok (some root)) (h : l.directory root.identifier = ok children) (hn : root.name = none) (u : Bytes) :
    printVolume k una (depth + 1) { uuid := u, files := ok l } = ([], err) := by
  unfold printVolume
  simp only [Out.need, _hr, hierarchy, h, nodeName, hn]

section
open Container VolumeOpen
variable {cx : VolumeOpen.Cipher} {vector : Nat → Bool} {img : Container.Image} {o : Container.Opened} {d0 d : Bytes} {records : List Record}

/-- what is printed for a volume of a container, with the state that calls to the functions for passwords and locking have led to -/
def printedVolume (cx : VolumeOpen.Cipher) (img : Container.Image) (o : Container.Opened) (v : VolumeOpen.Opened) (s : Volume.State) : PrintedVolume :=
  { uuid := v.superblock.identifier, files := do let F ← FileRead.files cx img o v s; return lookups F }

/-- From the image of a container to the lines for a volume that is not encrypted. The lines can be read back: the first is that of the root directory, each other one has the UUID of the volume
and the names of the entries of a path, and there is one for each path.

What is missing: a snapshot metadata tree of more than one level (refuted by `c50_snapshot_tree`), directories that are nested more deeply than calls fit on the stack (refuted by `c55_deep` and `c55_cycle`) and root directories
without name (`c55_root_name`). -/
theorem c55_volume_partial (hk : Lawful k) (hu : ReadsNames una) (hb : Blocks img) (hs : o.superblock = Container.superblockOf d0) (hv : Nx.Valid d0) (hvec : vector o.size = true)
    (ht : OmTree (containerBlocks img o.size) o.tree records) {index : Nat} (hi : index < numberOfVolumes o) (h0 : Nx.volume d0 index ≠ 0) {root : Nat} {vs : List SnapValue}
    (hr : ∀ r, Newest records (Nx.volume d0 index) (objectXid d0) r → StoredVolume img (field r.2 8 8) d root) (hx : HasVersion records (Nx.volume d0 index) (objectXid d0))
    (hsn : HasSnapshots (containerBlocks img o.size) root d vs) (hun : o.keyBag = none ∨ Apsb.unencrypted d)
    {mappings files : List Record} (hm : OmTree (containerBlocks img o.size) root mappings) (hrx : HasVersion mappings (Apsb.fsRoot d) (objectXid d))
    (hfs : ∀ r, Newest mappings (Apsb.fsRoot d) (objectXid d) r → FsHolds (plainStorage img o.size root (field r.2 8 8)) (objectXid d) files)
    {fmt : NameFormat} {dirs : Nat → List DirEntry} (hI : Inodes files ReadableInode) (hH : FileHierarchy files fmt dirs) {levels : Nat} (hc : ∀ p, Chain dirs 2 p → p.length ≤ levels) (hlev : levels < 2 ^ 48)
    (hname : ∀ r ∈ files, IsOf 2 3 r → ∀ i, Records.readInode r = ok i → RootNamed una i) (hd : levels < depth) (p : KeyBag.Prims) (ops : List Volume.Op) :
    ∃ v, volumeByIndex cx vector img o index = ok v ∧ ∀ s, Volume.run p v.state ops = ok s → ∃ out, Prints k una depth (ok (printedVolume cx img o v s)) out ∧
      (Escape.lines out).map Escape.unescape = some (0x2f :: uuidText (Apsb.uuid d) ++ [0x2f]) :: (paths dirs levels 2).map (fun p => some (0x2f :: uuidText (Apsb.uuid d) ++ [0x2f] ++ Utf8.encode (pathText p))) ∧
      (paths dirs levels 2).Nodup ∧ ∀ p, p ∈ paths dirs levels 2 ↔ p ≠ [] ∧ Chain dirs 2 p := by
  obtain ⟨v, h1, h2, h3⟩ := c50_reach_partial (c := cx) hb hs hv hvec ht hi h0 hr hx hsn hun hm hrx hfs p ops
  have hlen : (Apsb.uuid d).length = 16 := by
    obtain ⟨r, hr1, hr2, hr3⟩ := hx
    rcases c29_slot hs hv ht hi h0 with ⟨hn, _⟩ | ⟨r, hr', _⟩
    · exact absurd ⟨_, hr1, hr2, hr3⟩ hn
    · have := (hr r hr').valid.size
      have e : (Apsb.uuid d).length = min 16 (d.length - 240) := by simp [Apsb.uuid, slice]
      omega
  refine ⟨v, h1, fun s hs => ?_⟩
  obtain ⟨_, _, t, h5, h6⟩ := h3 s hs
  have hF : ∃ F, FileRead.files cx img o v s = ok F ∧ OfTree F t (objectXid d) := by
    unfold FileRead.files
    rw [h5, ok_bind]
    refine ⟨_, rfl, rfl, ?_⟩
    show v.superblock.transaction = _
    rw [h2]
    rfl
  obtain ⟨F, hF1, hF2⟩ := hF
  obtain ⟨i, i1, ⟨r, i2, i3, i4⟩, _⟩ := inode_found hF2 h6 hI (hH.directory 2 .root).inode
  obtain ⟨out, o1, o2⟩ := c55_lines_partial hk hu hF2 h6 hI hH hc hlev i1 (hname r i2 i3 i i4) (prefix_uuid hlen) depth hd
  refine ⟨out, ⟨_, rfl, ?_⟩, o2, c55_paths hH hc⟩
  unfold printVolume printedVolume
  rw [hF1, ok_bind, h2]
  show Out.need (ok (lookups F)) _ = _
  simp only [Out.need, i1]
  exact o1

end
end Verif.Props
